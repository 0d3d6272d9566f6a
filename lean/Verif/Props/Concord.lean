import Verif.Props.Agreement
import Verif.Props.Seconds
import Verif.Props.ServerTeams

/-! C106: match stats and messages tell the same, if the stats say what happened. -/

namespace Spec

/-- The match stats list those who play, with their teams and scores, in any order. Colors, pings and logins may be others. -/
def TellsScores (m : ServerMatch) (stats : Mvd.KtxStats) : Prop :=
  (stats.players.map fun k => (k.name, k.team, k.frags)).Perm
    ((m.roster.filter fun c => !c.isSpectator).map fun c => (c.name, c.team, score m.events c.name))

end Spec

namespace Mvd
open Spec

private theorem rows_reported {es : List (Option Obituary)} {sampled : List (UInt8 × Nat)} {cs : List Client} {ps : List Player}
    (h : List.Forall₂ (ReportedAs es sampled) cs ps) :
    (ps.map fun p => (p.name, p.team, p.frags)) = cs.map fun c => (c.name, c.team, score es c.name) := by
  induction h with
  | nil => rfl
  | cons hk _ ih => simp [ih, hk.name, hk.team, hk.frags]

private theorem rows_stats {ks : List KtxPlayer} {ps : List Player} (h : List.Forall₂ FromStats ks ps) :
    (ps.map fun p => (p.name, p.team, p.frags)) = ks.map fun k => (k.name, k.team, k.frags) := by
  induction h with
  | nil => rfl
  | cons hk _ ih => simp [ih, hk.1, hk.2.1, hk.2.2.1]

/-- Two ranked lists of the same rows are the same, if no two rows have the same name. -/
private theorem ranked_rows {ps l : List Player} (h1 : ps.Pairwise fun a b => ¬ Outranks b a)
    (h2 : l.Pairwise fun a b => ¬ Outranks b a) (hn : (ps.map (·.name)).Nodup)
    (h : (l.map fun p => (p.name, p.team, p.frags)).Perm (ps.map fun p => (p.name, p.team, p.frags))) :
    (l.map fun p => (p.name, p.team, p.frags)) = ps.map fun p => (p.name, p.team, p.frags) := by
  have key : ∀ {x : List Player}, (x.Pairwise fun a b => ¬ Outranks b a) → (x.map fun p => (p.name, p.team, p.frags)).Pairwise
      fun a b => b.2.2 ≤ a.2.2 ∧ (b.2.2 = a.2.2 → ¬ Before b.1 a.1) := by
    intro x hx
    rw [List.pairwise_map]
    refine hx.imp fun {a b} hab => ⟨?_, fun e hb => hab (.inr ⟨e, hb⟩)⟩
    exact Int.not_lt.mp fun hlt => hab (.inl hlt)
  refine h.eq_of_pairwise ?_ (key h2) (key h1)
  intro a b ha hb k1 k2
  have hn' : ((ps.map fun p => (p.name, p.team, p.frags)).map (·.1)).Nodup := by
    simpa [List.map_map, Function.comp_def] using hn
  refine List.inj_on_of_nodup_map hn' (h.mem_iff.mp ha) hb ?_
  have ef : b.2.2 = a.2.2 := Int.le_antisymm k1.1 k2.1
  rcases before_total a.1 b.1 with e | hb | hb
  · exact e
  · exact absurd hb (k2.2 ef.symm)
  · exact absurd hb (k1.2 ef)

/-- C106: the score board of a demo with match stats is that of a demo of the same match without, name by name, with the same teams
and scores, in the same order. -/
theorem C106_players (g : Env) (m m' : ServerMatch) (data data' : Bytes) (fs fs' : List Frame) (h : Served g m data fs)
    (hk : ¬ Occurs statsMarker data) (h' : Served g m' data' fs') (text : Str) (hc : CarriesStats data' text) (stats : KtxStats)
    (hp : g.ktxstats text = some stats) (ht : TellsScores m stats) :
    ∃ ps ps', players g data = .ok ps ∧ players g data' = .ok ps' ∧
      (ps'.map fun p => (p.name, p.team, p.frags)) = ps.map fun p => (p.name, p.team, p.frags) := by
  obtain ⟨qs, ps, h1, h2, h3, h4⟩ := C97_players g m data fs h hk
  obtain ⟨_, ks, l, k1, k2, k3⟩ := (C97_stats g m' data' fs' h' text hc).2 stats hp
  refine ⟨ps, l, h2, k2, ranked_rows h4 k3.2.1 ?_ ?_⟩
  · refine ((h3.map (·.name)).nodup_iff).mpr ?_
    have e := congrArg (List.map fun r : Str × Str × Int => r.1) (rows_reported h1)
    simp only [List.map_map, Function.comp_def] at e
    rw [e]
    exact h.names.sublist (List.filter_sublist.map _)
  · refine (k3.1.map _).trans ?_
    rw [rows_stats k1]
    refine ht.trans ?_
    refine List.Perm.trans ?_ (h3.map _).symm
    rw [rows_reported h1]
    simp [inGame]

/-- C106: the teams are the same, with the same totals, and come in the same order unless the names of two teams differ only in
case. -/
theorem C106_teams (g : Env) (m m' : ServerMatch) (data data' : Bytes) (fs fs' : List Frame) (h : Served g m data fs)
    (hk : ¬ Occurs statsMarker data) (h' : Served g m' data' fs') (text : Str) (hc : CarriesStats data' text) (stats : KtxStats)
    (hp : g.ktxstats text = some stats) (ht : TellsScores m stats) (ts ts' : List Team) (hts : teams g data = .ok ts)
    (hts' : teams g data' = .ok ts') :
    (ts'.map fun t => (t.name, t.frags)).Perm (ts.map fun t => (t.name, t.frags)) ∧
    ((ts.map fun t => g.lowercase t.name).Nodup → (ts'.map fun t => (t.name, t.frags)) = ts.map fun t => (t.name, t.frags)) := by
  obtain ⟨ps, l, h1, h2, e⟩ := C106_players g m m' data data' fs fs' h hk h' text hc stats hp ht
  obtain ⟨qs, ps', h3, h4, h5, _⟩ := C97_players g m data fs h hk
  rw [h1] at h4
  cases h4
  unfold teams at hts hts'
  rw [h1] at hts
  rw [h2] at hts'
  refine C90_teams g ps l ts ts' ?_ (fun name => ?_) hts hts'
  · have := congrArg (List.map fun r : Str × Str × Int => (r.2.1, r.2.2)) e
    simp only [List.map_map, Function.comp_def] at this
    rw [this]
  · have e1 : totalFrags (members name ps) =
        (((ps.map fun p => (p.name, p.team, p.frags)).filter fun r => r.2.1 = name).map (·.2.2)).sum := by
      unfold totalFrags members
      rw [List.filter_map, List.map_map]
      rfl
    have e2 := (((h5.map fun p => (p.name, p.team, p.frags)).filter fun r => r.2.1 = name).map (·.2.2)).sum_eq
    have e3 : ((((qs.map fun p => (p.name, p.team, p.frags))).filter fun r => r.2.1 = name).map (·.2.2)) =
        (((inGame m.roster).filter fun c => c.team = name).map (·.name)).map (score m.events) := by
      rw [rows_reported h3, List.filter_map, List.map_map, List.map_map]
      rfl
    have hb := score_sum_bounds (((inGame m.roster).filter fun c => c.team = name).map (·.name))
      (h.names.sublist ((List.filter_sublist.trans List.filter_sublist).map _)) m.events
    have hlen := length_lt h.whole h.size.2
    rw [← told_length h.told] at hlen
    rw [e1, e2, e3]
    omega

/-- C106: with at most 255 players and pings of at most 65535 ms the teams are found in both demos. -/
theorem C106_found (g : Env) (m m' : ServerMatch) (data data' : Bytes) (fs fs' : List Frame) (h : Served g m data fs)
    (hk : ¬ Occurs statsMarker data) (h' : Served g m' data' fs') (text : Str) (hc : CarriesStats data' text) (stats : KtxStats)
    (hp : g.ktxstats text = some stats) (ht : TellsScores m stats) (hfew : (inGame m.roster).length ≤ 255)
    (hping : ∀ k ∈ stats.players, 0 ≤ k.ping ∧ k.ping ≤ 65535) :
    (∃ ts, teams g data = .ok ts) ∧ ∃ ts', teams g data' = .ok ts' := by
  refine ⟨(C97_teams g m data fs h hk).1 hfew, ?_⟩
  obtain ⟨_, ks, l, k1, k2, k3⟩ := (C97_stats g m' data' fs' h' text hc).2 stats hp
  unfold teams
  rw [k2]
  have hrows : (l.map fun p => (p.name, p.team, p.frags)).Perm
      ((inGame m.roster).map fun c => (c.name, c.team, score m.events c.name)) := by
    refine (k3.1.map _).trans ?_
    rw [rows_stats k1]
    simpa [TellsScores, inGame] using ht
  have hlen := length_lt h.whole h.size.2
  rw [← told_length h.told] at hlen
  refine scored_rows_found g m.events l hlen ?_ ?_ fun q hq => ⟨?_, ?_⟩
  · have := hrows.length_eq
    simp only [List.length_map] at this
    omega
  · have e := (hrows.map (·.1)).nodup_iff
    simp only [List.map_map, Function.comp_def] at e
    exact e.mpr (h.names.sublist (List.filter_sublist.map _))
  · obtain ⟨c, _, e⟩ := List.mem_map.mp (hrows.mem_iff.mp (List.mem_map_of_mem (f := fun p : Player => (p.name, p.team, p.frags)) hq))
    simp only [Prod.mk.injEq] at e
    rw [← e.2.2, e.1]
  · have hq' := k3.1.mem_iff.mp hq
    have go : ∀ {a : List KtxPlayer} {b : List Player}, List.Forall₂ FromStats a b → (∀ k ∈ a, 0 ≤ k.ping ∧ k.ping ≤ 65535) →
        ∀ q ∈ b, q.ping ≤ 65535 := by
      intro a b hab
      induction hab with
      | nil => intro _ q hq; cases hq
      | @cons k p _ _ hkp _ ih =>
        intro hb q hq
        rcases List.mem_cons.mp hq with rfl | hq
        · have h1 := hkp.2.2.2.2.2.1
          have h2 := hb k List.mem_cons_self
          omega
        · exact ih (fun k hk => hb k (List.mem_cons_of_mem _ hk)) q hq
    exact go k1 hping q hq'

/-- C106: the match duration is the same up to the rounding of single precision numbers, if the stats give it to the
millisecond, up to 48 days. -/
theorem C106_duration (g : Env) (hf : g.parseF64 = parseF64) (m m' : ServerMatch) (data data' : Bytes) (fs fs' : List Frame)
    (h : Served g m data fs) (hk : ¬ Occurs statsMarker data) (h' : Served g m' data' fs')
    (hm : (g.settings (g.toUtf8 m.info)).mode ≠ some chars!"hoonymode")
    (hm' : (g.settings (g.toUtf8 m'.info)).mode ≠ some chars!"hoonymode") (text t : Str) (hc : CarriesStats data' text)
    (hd : RecordedDuration text t) (hw : WritesSeconds t (m.game * 10 ^ 6))
    (hlt : m.game < 2 ^ 22 * 1000) :
    ∃ ns ns', matchDuration g data = .ok ns ∧ matchDuration g data' = .ok ns' ∧ ns' = m.game * 10 ^ 6 ∧
      |(ns : ℚ) - ns'| ≤ (2 * m.countdown + m.game : ℚ) * 10 ^ 6 / 2 ^ 23 + 1 := by
  obtain ⟨ns, e, hb⟩ := (C97_times g m data fs h hm).2.2.1 hk
  have hh : ¬ Hoonymode g data' := not_hoonymode g h'.size.1 (by
    unfold isHoonymode
    rw [(C97_header g m' data' fs' h').1]
    simpa [R.isOkAnd] using hm')
  refine ⟨ns, m.game * 10 ^ 6, e, ?_, rfl, by push_cast; exact hb⟩
  exact C104_exact g hf data' text t _ h'.size.1 hh (C97_stats g m' data' fs' h' text hc).1 hd hw (by omega)

/-! ### The match of `Example.served_example`, once with match stats -/

namespace Example

/-- Match stats in two blocks. -/
def concordFrames : List Frame :=
  [⟨0, 3, [0, 0, 0, 0], le32 27 ++ le16 3 ++ le16 1 ++ bytes!"{\"version\": 3, \"duration\""⟩,
   ⟨0, 3, [0, 0, 0, 0], le32 11 ++ le16 3 ++ le16 0 ++ bytes!": 0.546,}"⟩]

def concordText : Str := chars!"{\"version\": 3, \"duration\": 0.546,}"

/-- What the stats say: the players in the order of their teams, with other colors and pings. -/
def concordStats : KtxStats where
  hostname := chars!"host"
  ip := chars!"1.2.3.4"
  port := 27500
  players := [
    { name := chars!"c", team := chars!"blue", topColor := 13, bottomColor := 13, frags := 0, ping := 43, bot := false, login := [] },
    { name := chars!"b", team := chars!"red", topColor := 4, bottomColor := 4, frags := -1, ping := 12, bot := false, login := [] },
    { name := chars!"a", team := chars!"red", topColor := 4, bottomColor := 4, frags := 1, ping := 25, bot := false, login := [] }]

def concord : Env := { std with ktxstats := fun s => if s = concordText then some concordStats else none }

theorem concord_served : Served concord (servedMatch []) (served []) (servedFrames []) :=
  have h := served_example
  ⟨h.whole, h.size, h.header, h.slots, h.few, h.enlisted, h.names, h.told, h.pinged, h.some, h.low, h.dated, h.timed, h.short⟩

theorem concord_stats : Served concord (servedMatch concordFrames) (served concordFrames) (servedFrames concordFrames) where
  whole := (splits_whole (by decide +kernel)).1
  size := by decide +kernel
  header := ⟨(served concordFrames).take 7, ((served concordFrames).take 1280).drop 51, by decide +kernel, by decide +kernel, by decide,
    by decide +kernel⟩
  slots := ⟨(served concordFrames).take 60, servedEntries, (served concordFrames).drop 210, by decide +kernel, by decide +kernel,
    served_section _ (by decide +kernel) (by decide +kernel), by decide +kernel, rfl⟩
  few := by decide
  enlisted := served_enlisted
  names := by decide +kernel
  told := served_told _ (by decide +kernel)
  pinged := served_pings _ (by decide +kernel)
  some := by decide
  low := served_low
  dated := ⟨(served concordFrames).take 1352, ((served concordFrames).drop 1352).drop 38, by decide +kernel, by decide +kernel,
    by decide +kernel, by decide +kernel⟩
  timed := ⟨1352, 1526, by decide +kernel, by decide +kernel, by decide, by decide +kernel, by decide +kernel⟩
  short := by decide

end Example

/-- The other hypotheses of C106 are met by the two demos. -/
example : ¬ Occurs statsMarker (Example.served []) ∧ CarriesStats (Example.served Example.concordFrames) Example.concordText ∧
    Example.concord.ktxstats Example.concordText = some Example.concordStats ∧
    TellsScores (Example.servedMatch []) Example.concordStats ∧
    RecordedDuration Example.concordText chars!"0.546" ∧ WritesSeconds chars!"0.546" ((Example.servedMatch []).game * 10 ^ 6) ∧
    (Example.concord.settings (Example.concord.toUtf8 (Example.servedMatch []).info)).mode = some chars!"2on2" ∧
    (inGame (Example.servedMatch []).roster).length ≤ 255 ∧
    (∀ k ∈ Example.concordStats.players, 0 ≤ k.ping ∧ k.ping ≤ 65535) ∧
    (teams Example.concord (Example.served [])).isOk = .ok true ∧
    (teams Example.concord (Example.served Example.concordFrames)).isOk = .ok true := by
  refine ⟨by decide +kernel, ⟨(Example.served Example.concordFrames).take 1546,
    [⟨[0, 3, 0, 0, 0, 0, 33, 0, 0, 0], 1, bytes!"{\"version\": 3, \"duration\""⟩],
    ⟨[0, 3, 0, 0, 0, 0, 17, 0, 0, 0], 0, bytes!": 0.546,}"⟩,
    (Example.served Example.concordFrames).drop (1546 + 43 + 27), ?_⟩, by decide +kernel, by unfold TellsScores; decide +kernel, ?_, ?_,
    by decide +kernel, by decide +kernel, by decide +kernel, by decide +kernel, by decide +kernel⟩
  · decide +kernel
  · exact ⟨chars!"{\"version\": 3, ", ['}'], by decide, find_eq_some_iff.mp (by decide +kernel), by decide, by decide⟩
  · exact ⟨['0'], ['.'], chars!"546", rfl, by decide +kernel, by decide +kernel, by decide, .inl rfl, by decide, by decide +kernel⟩

/-- C106, witness: what is reported of the two demos. -/
theorem C106_witness :
    ((players Example.concord (Example.served [])).bind fun l => .ok (l.map fun p => (p.name, p.team, p.frags, p.ping))) =
      .ok [(chars!"a", chars!"red", 1, 25), (chars!"c", chars!"blue", 0, 300), (chars!"b", chars!"red", -1, 0)] ∧
    ((players Example.concord (Example.served Example.concordFrames)).bind fun l =>
      .ok (l.map fun p => (p.name, p.team, p.frags, p.ping))) =
      .ok [(chars!"a", chars!"red", 1, 25), (chars!"c", chars!"blue", 0, 43), (chars!"b", chars!"red", -1, 12)] ∧
    ((teams Example.concord (Example.served Example.concordFrames)).bind fun l => .ok (l.map fun t => (t.name, t.frags))) =
      .ok [(chars!"blue", 0), (chars!"red", 0)] ∧
    matchDuration Example.concord (Example.served []) = .ok 545999974 ∧
    matchDuration Example.concord (Example.served Example.concordFrames) = .ok 546000000 := by
  exact ⟨by decide +kernel, by decide +kernel, by decide +kernel, by decide +kernel, by decide +kernel⟩

end Mvd
