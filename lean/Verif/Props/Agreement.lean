import Verif.Props.StatsRecording
import Verif.Props.Teams

/-! C90: players and teams are the same with and without match stats, if the stats say what happened. -/

namespace Mvd
open Spec

/-- Two ranked lists of the same names and frags are the same. -/
theorem ranked_unique {ps l : List Player} (h1 : ps.Pairwise fun a b => ¬ Outranks b a)
    (h2 : l.Pairwise fun a b => ¬ Outranks b a)
    (h : (l.map fun p => (p.name, p.frags)).Perm (ps.map fun p => (p.name, p.frags))) :
    (l.map fun p => (p.name, p.frags)) = ps.map fun p => (p.name, p.frags) := by
  have key : ∀ {x : List Player}, (x.Pairwise fun a b => ¬ Outranks b a) → (x.map fun p => (p.name, p.frags)).Pairwise
      fun a b => b.2 ≤ a.2 ∧ (b.2 = a.2 → ¬ Before b.1 a.1) := by
    intro x hx
    rw [List.pairwise_map]
    refine hx.imp fun {a b} hab => ⟨?_, fun e hb => hab (.inr ⟨e, hb⟩)⟩
    exact Int.not_lt.mp fun hlt => hab (.inl hlt)
  refine h.eq_of_pairwise ?_ (key h2) (key h1)
  rintro ⟨n, f⟩ ⟨n', f'⟩ _ _ ⟨k1, k2⟩ ⟨k3, k4⟩
  simp only at k1 k2 k3 k4
  have ef : f = f' := by omega
  subst ef
  rcases before_total n n' with e | hb | hb
  · rw [e]
  · exact absurd hb (k4 rfl)
  · exact absurd hb (k2 rfl)

/-- C90: if the match stats list the players found in the messages, in any order and with the same frags, both ways lead to the
same score board. -/
theorem C90_players (g : Env) (data : Bytes) (stats : KtxStats) (ps : List Player) (hp : playersFromParsing g data = .ok ps)
    (h : (stats.players.map fun k => (k.name, k.frags)).Perm (ps.map fun p => (p.name, p.frags))) :
    ∃ l, playersFromKtxstats stats = .ok l ∧ (l.map fun p => (p.name, p.frags)) = ps.map fun p => (p.name, p.frags) := by
  obtain ⟨cs, pings, frags, hc, hpi, hf⟩ := (C45_failure g data).2.2 ps hp
  obtain ⟨_, l0, _, e0, _, hsort0⟩ := C45_from_messages g data cs pings frags hc hpi hf
  rw [hp] at e0
  cases e0
  obtain ⟨qs, l, hq, hl, hst⟩ := C44_from_stats stats
  refine ⟨l, hl, ranked_unique hsort0 hst.2.1 ?_⟩
  refine (hst.1.map _).trans (.trans ?_ h)
  rw [show (qs.map fun p => (p.name, p.frags)) = stats.players.map fun k => (k.name, k.frags) from ?_]
  clear hl hst h
  generalize stats.players = ks at hq
  induction hq with
  | nil => rfl
  | cons hk _ ih => simp [ih, hk.1, hk.2.2.1]

/-- C90: the teams depend only on who plays for which team with how many frags; without two teams whose names differ only in
case the order is the same, too. -/
theorem C90_teams (g : Env) (ps l : List Player) (ts ts' : List Team)
    (h : (l.map fun p => (p.team, p.frags)).Perm (ps.map fun p => (p.team, p.frags)))
    (hr : ∀ name, -2147483648 ≤ totalFrags (members name ps) ∧ totalFrags (members name ps) ≤ 2147483647)
    (ht : teamsFromPlayers g ps = .ok ts) (ht' : teamsFromPlayers g l = .ok ts') :
    (ts'.map fun t => (t.name, t.frags)).Perm (ts.map fun t => (t.name, t.frags)) ∧
    ((ts.map fun t => g.lowercase t.name).Nodup →
      (ts'.map fun t => (t.name, t.frags)) = ts.map fun t => (t.name, t.frags)) := by
  obtain ⟨a1, a2, a3⟩ := C48_partition g ps ts ht
  obtain ⟨b1, b2, b3⟩ := C48_partition g l ts' ht'
  have tot : ∀ x : List Player, ∀ name, totalFrags (members name x) =
      (((x.map fun p => (p.team, p.frags)).filter fun e => e.1 = name).map (·.2)).sum := by
    intro x name
    unfold totalFrags members
    rw [List.filter_map, List.map_map]
    rfl
  have same : ∀ name, totalFrags (members name l) = totalFrags (members name ps) := by
    intro name
    rw [tot, tot]
    exact ((h.filter _).map _).sum_eq
  have fr : ∀ t ∈ ts, t.frags = totalFrags (members t.name ps) := by
    intro t hm
    have := (C49_totals g ps ts ht t hm).1
    rw [(a1 t hm).1] at this
    exact this (hr _).1 (hr _).2
  have fr' : ∀ t ∈ ts', t.frags = totalFrags (members t.name ps) := by
    intro t hm
    have := (C49_totals g l ts' ht' t hm).1
    rw [(b1 t hm).1, same] at this
    exact this (hr _).1 (hr _).2
  have mem : ∀ {x : List Player} {us : List Team}, (∀ t ∈ us, t.players = members t.name x ∧ t.players ≠ []) →
      (∀ p ∈ x, ∃ t ∈ us, p ∈ t.players ∧ ∀ t' ∈ us, p ∈ t'.players → t' = t) → ∀ name, name ∈ us.map (·.name) ↔
        name ∈ (x.map fun p => (p.team, p.frags)).map (·.1) := by
    intro x us k1 k3 name
    simp only [List.map_map, List.mem_map, Function.comp]
    constructor
    · rintro ⟨t, hm, rfl⟩
      obtain ⟨e, hne⟩ := k1 t hm
      obtain ⟨p, hp⟩ := List.exists_mem_of_ne_nil _ hne
      rw [e, members, List.mem_filter] at hp
      exact ⟨p, hp.1, by simpa using hp.2⟩
    · rintro ⟨p, hp, rfl⟩
      obtain ⟨t, hm, hpt, _⟩ := k3 p hp
      rw [(k1 t hm).1, members, List.mem_filter] at hpt
      exact ⟨t, hm, by have := hpt.2; simp at this; exact this.symm⟩
  have names : (ts'.map (·.name)).Perm (ts.map (·.name)) := by
    rw [List.perm_ext_iff_of_nodup b2 a2]
    intro name
    rw [mem b1 b3, mem a1 a3]
    exact (h.map _).mem_iff
  have e1 : (ts.map fun t => (t.name, t.frags)) = (ts.map (·.name)).map fun n => (n, totalFrags (members n ps)) := by
    rw [List.map_map]
    exact List.map_congr_left fun t hm => by simp [fr t hm]
  have e2 : (ts'.map fun t => (t.name, t.frags)) = (ts'.map (·.name)).map fun n => (n, totalFrags (members n ps)) := by
    rw [List.map_map]
    exact List.map_congr_left fun t hm => by simp [fr' t hm]
  refine ⟨by rw [e1, e2]; exact names.map _, fun hnd => ?_⟩
  rw [e1, e2]
  congr 1
  have ord : ∀ {x : List Player} {us : List Team}, teamsFromPlayers g x = .ok us →
      (us.map (·.name)).Pairwise fun a b => ¬ Before (g.lowercase b) (g.lowercase a) := by
    intro x us hx
    rw [List.pairwise_map, List.pairwise_iff_getElem]
    intro i j hi hj hij hb
    rcases C50_order g x us hx i j hij hj with k | k
    · exact before_asymm k hb
    · rw [k] at hb
      exact before_irrefl _ hb
  refine names.eq_of_pairwise ?_ (ord ht') (ord ht)
  intro a b ha hb k1 k2
  have el : g.lowercase a = g.lowercase b := by
    rcases before_total (g.lowercase a) (g.lowercase b) with e | hb | hb
    · exact e
    · exact absurd hb k2
    · exact absurd hb k1
  have ha' := names.mem_iff.mp ha
  rw [show (ts.map fun t => g.lowercase t.name) = (ts.map (·.name)).map g.lowercase by simp] at hnd
  exact List.inj_on_of_nodup_map hnd ha' hb el

/-- C90: a recorded match is reported with the same score board and the same teams whether or not the recording ends with match
stats, when these list the clients that are no spectators with their teams and scores, in any order. -/
theorem C90_recording (g : Env) (hu : ∀ s, OneByte s → g.toUnicode (bytesOf s) = s) (r : Recording) (h : r.Proper)
    (hl : r.demo.length < 2 ^ 31) (hk : ¬ Occurs statsMarker r.demo)
    (hne : sampledPings (r.play.map fun m => m.what.pinged) ≠ [])
    (hsum : ∀ p, (samplesOf (sampledPings (r.play.map fun m => m.what.pinged)) p).sum < 65536)
    (cs : List Client) (ec : clients g r.demo = .ok cs) (text : Str) (pieces : List Bytes) (hc : CutInto text pieces)
    (hl' : (r.withStats pieces).demo.length < 2 ^ 31) (stats : KtxStats) (hp : g.ktxstats text = some stats)
    (hst : (stats.players.map fun k => (k.name, k.team, k.frags)).Perm
      ((inGame cs).map fun c => (c.name, c.team, score (r.play.map fun m => m.what.died) c.name))) :
    ∃ ps l, players g r.demo = .ok ps ∧ players g (r.withStats pieces).demo = .ok l ∧
      ((l.map fun p => (p.name, p.frags)) = ps.map fun p => (p.name, p.frags)) ∧
      ∀ ts ts', (∀ name, -2147483648 ≤ totalFrags (members name ps) ∧ totalFrags (members name ps) ≤ 2147483647) →
        teams g r.demo = .ok ts → teams g (r.withStats pieces).demo = .ok ts' →
        (ts'.map fun t => (t.name, t.frags)).Perm (ts.map fun t => (t.name, t.frags)) := by
  obtain ⟨cs', qs, ps, ec', _, hrep, hps, hperm, hsort⟩ := C83_players g hu r h hl hk _ rfl hne hsum
  rw [ec] at ec'
  cases ec'
  obtain ⟨_, _, ks, l, hks, hpl, hss⟩ := C85_stats g r text pieces hc hl' stats hp
  have rows : (l.map fun p => (p.name, p.team, p.frags)).Perm (ps.map fun p => (p.name, p.team, p.frags)) := by
    have e1 : (ks.map fun p => (p.name, p.team, p.frags)) = stats.players.map fun k => (k.name, k.team, k.frags) := by
      clear hss hst hp
      generalize stats.players = x at hks
      induction hks with
      | nil => rfl
      | cons hk _ ih => simp [ih, hk.1, hk.2.1, hk.2.2.1]
    have e2 : (qs.map fun p => (p.name, p.team, p.frags)) =
        (inGame cs).map fun c => (c.name, c.team, score (r.play.map fun m => m.what.died) c.name) := by
      clear hst hperm
      generalize inGame cs = x at hrep
      induction hrep with
      | nil => rfl
      | cons hk _ ih => simp [ih, hk.name, hk.team, hk.frags]
    refine (hss.1.map _).trans ?_
    rw [e1]
    refine hst.trans ?_
    rw [← e2]
    exact (hperm.map _).symm
  refine ⟨ps, l, hps, hpl, ranked_unique hsort hss.2.1 ?_, fun ts ts' hr ht ht' => ?_⟩
  · simpa [List.map_map, Function.comp_def] using rows.map fun e => (e.1, e.2.2)
  · unfold teams at ht ht'
    rw [hps] at ht
    rw [hpl] at ht'
    exact (C90_teams g ps l ts ts' (by simpa [List.map_map, Function.comp_def] using rows.map fun e => (e.2.1, e.2.2)) hr ht ht').1

/-- Stats of the match of C83 that list its two players, the loser first. -/
def Example.result : KtxStats where
  hostname := chars!"host"
  ip := chars!"1.2.3.4"
  port := 27500
  players := [
    { name := chars!"b", team := chars!"blue", topColor := 4, bottomColor := 4, frags := -2, ping := 12, bot := false, login := [] },
    { name := chars!"a", team := chars!"red", topColor := 4, bottomColor := 4, frags := 1, ping := 13, bot := false, login := [] }]

/-- The hypotheses of C90 are met by the recording of C83 with these stats; the score board and the teams are those of C83. -/
example : (let g := { Example.debug with ktxstats := fun _ => some Example.result }
    ((clients g Example.recording.demo).bind fun cs => .ok (decide
      ((Example.result.players.map fun k => (k.name, k.team, k.frags)).Perm
        ((inGame cs).map fun c => (c.name, c.team, score (Example.recording.play.map fun m => m.what.died) c.name))))) = .ok true ∧
    ((players g (Example.recording.withStats Example.pieces).demo).bind fun l => .ok (l.map fun p => (p.name, p.frags))) =
      .ok [(chars!"a", 1), (chars!"b", -2)] ∧
    ((teams g (Example.recording.withStats Example.pieces).demo).bind fun l => .ok (l.map fun t => (t.name, t.frags))) =
      .ok [(chars!"blue", -2), (chars!"red", 1)]) := by
  decide +kernel

end Mvd
