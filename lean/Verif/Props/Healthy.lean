import Verif.Props.Growth
import Verif.Props.Ping
import Verif.Props.Teams
import Verif.Props.Duration
import Verif.Lemmas.Halt

/-! C64: a complete demo does not make a release build panic. -/

namespace Mvd
open Spec

/-- The match stats of the demo, if there are any, can be read to their end. -/
def StatsReadable (checks : Bool) (data : Bytes) : Prop :=
  ∀ m, LastAt statsMarker data m → markerLimit checks ≤ m ∧ ∃ content, ReadsBlocks checks (data.drop (m - 8)) (some content)

/-- The data goes on for 512 bytes after every point from which the userinfo strings are searched. (25 * 512 bytes from the
spawn command on are always enough, see C19.) -/
def ClientsWithin (data : Bytes) : Prop :=
  ∃ o, FirstAt spawnCommand data o ∧ ∀ spans e, ClientChain data (o + 24 * 512) o spans e → spans = [] ∨ e < o + 24 * 512 →
    e + 512 ≤ data.length

/-- A complete demo: whole frames, clients, readable stats, less than 2 GiB. -/
structure CompleteDemo (checks : Bool) (data : Bytes) : Prop where
  frames : ∃ fs, (∀ f ∈ fs, f.WF) ∧ data = Spec.encode fs
  clients : ClientsWithin data
  stats : StatsReadable checks data
  size : data.length < 2 ^ 31

theorem clients_of_strings (g : Env) {data : Bytes} {l : List Str} (h : clientinfoStrings g data = .ok l) :
    ∃ cs, clients g data = .ok cs := by
  unfold clients clientinfo
  rw [h]
  exact ⟨_, rfl⟩

theorem complete_clients (g : Env) {data : Bytes} (h : ClientsWithin data) : ∃ cs, clients g data = .ok cs := by
  obtain ⟨o, ho, h⟩ := h
  rcases clientinfoStrings_cases g data with ⟨_, hn⟩ | ⟨o', ho', spans, e, hc, ⟨hr, _⟩ | ⟨hr, h1, h2⟩⟩
  · exact absurd (occurs_iff.mpr ⟨o, ho.1⟩) hn
  · exact clients_of_strings g hr
  · cases ho.unique ho'
    have := h spans e hc h1
    omega

theorem stats_no_panic (g : Env) {data : Bytes} (hlen : data.length < 2 ^ 31) (h : StatsReadable g.checks data) :
    ktxstatsString g data ≠ .panic := by
  intro hp
  obtain ⟨m, hm, hbad⟩ := (C41_panic_iff g data (by omega)).mp hp
  obtain ⟨h1, content, h2⟩ := h m hm
  rcases hbad with hbad | hbad
  · omega
  · by_cases hl : (data.drop (m - 8)).length < 2 ^ 62
    · have := C41_reads_unique g _ hl _ _ h2 hbad
      cases this
    · simp at hl; omega

theorem sum_filter_le {α : Type} (p : α → Bool) (f : α → Nat) : ∀ l : List α, ((l.filter p).map f).sum ≤ (l.map f).sum
  | [] => Nat.le_refl _
  | a :: l => by
    have := sum_filter_le p f l
    rw [List.filter_cons]
    split <;> simp <;> omega

theorem starts_durations : ∀ (i : Nat) (fs : List Frame),
    (starts i fs).map (fun p => p.2.duration.toNat) = fs.map fun f => f.duration.toNat
  | _, [] => rfl
  | i, f :: fs => by simp [starts, starts_durations _ fs]

theorem msBefore_le (n : Nat) (fs : List Frame) : msBefore n fs ≤ (fs.map fun f => f.duration.toNat).sum := by
  unfold msBefore
  refine Nat.le_trans (sum_filter_le _ _ _) ?_
  rw [starts_durations]

/-- What players and teams come to when the other functions succeed. -/
theorem players_teams (g : Env) {data : Bytes} {cs : List Client} {m : Map Str Int} (hlen : data.length < 2 ^ 31)
    (hcs : clients g data = .ok cs) (hf : fragsPerPlayerName g data = .ok m) (hks : ktxstatsString g data ≠ .panic)
    (hp : (∃ m, pingPerPlayerNumber g data = .ok m) ∨ pingPerPlayerNumber g data = .err .noPings)
    (hover : g.checks = true → ∀ l, players g data = .ok l → ∀ p ∈ l, ¬ Overflows (members p.team l)) :
    ((∃ s, ktxstatsString g data = .ok s) ∨ ∃ e, ktxstatsString g data = .err e) ∧
    ((∃ l, players g data = .ok l) ∨ players g data = .err .noPings) ∧
    ((∃ l, teams g data = .ok l) ∨ teams g data = .err .noPings) := by
  have hk : (∃ s, ktxstatsString g data = .ok s) ∨ ∃ e, ktxstatsString g data = .err e := by
    cases h : ktxstatsString g data with
    | ok s => exact .inl ⟨s, rfl⟩
    | err e => exact .inr ⟨e, rfl⟩
    | panic => exact absurd h hks
    | hang => exact absurd h (ktxstatsString_halts g data (by omega))
  have hparse : (∃ l, playersFromParsing g data = .ok l) ∨ playersFromParsing g data = .err .noPings := by
    rcases hp with ⟨pings, hp⟩ | hp
    · obtain ⟨_, l, _, h, _⟩ := C45_from_messages g data cs pings m hcs hp hf
      exact .inl ⟨l, h⟩
    · exact .inr ((C45_failure g data).2.1 cs _ hcs hp)
  have hpl : (∃ l, players g data = .ok l) ∨ players g data = .err .noPings := by
    unfold players ktxstatsV3
    rcases hk with ⟨s, hs⟩ | ⟨e, he⟩
    · rw [hs]
      simp only [R.bind]
      cases g.ktxstats s with
      | none => exact hparse
      | some stats => exact .inl ⟨_, rfl⟩
    · rw [he]
      exact hparse
  refine ⟨hk, hpl, ?_⟩
  unfold teams
  rcases hpl with ⟨l, hl⟩ | he
  · rw [hl]
    simp only [R.bind]
    rcases (C49_outcome g l).1 with h | h
    · exact .inl h
    · obtain ⟨hc, p, hp, ho⟩ := (C49_outcome g l).2.mp h
      exact absurd ho (hover hc l hl p hp)
  · rw [he]
    exact .inr rfl

theorem totalFrags_bound {b : Nat} : ∀ (ps : List Player), (∀ p ∈ ps, -(b : Int) ≤ p.frags ∧ p.frags ≤ b) →
    -((b * ps.length : Nat) : Int) ≤ totalFrags ps ∧ totalFrags ps ≤ (b * ps.length : Nat)
  | [], _ => by simp [totalFrags]
  | p :: ps, h => by
    have h1 := totalFrags_bound ps fun q hq => h q (by simp [hq])
    have h2 := h p (by simp)
    have e : totalFrags (p :: ps) = p.frags + totalFrags ps := by simp [totalFrags]
    rw [e, List.length_cons, Nat.mul_succ]
    omega

theorem totalPing_bound {b : Nat} : ∀ (ps : List Player), (∀ p ∈ ps, p.ping ≤ b) → totalPing ps ≤ b * ps.length
  | [], _ => by simp [totalPing]
  | p :: ps, h => by
    have h1 := totalPing_bound ps fun q hq => h q (by simp [hq])
    have h2 := h p (by simp)
    have e : totalPing (p :: ps) = p.ping + totalPing ps := by simp [totalPing]
    rw [e, List.length_cons, Nat.mul_succ]
    omega

/-- C64: team totals are in range with at most 255 players, scores up to 8 million and pings up to 16 million. -/
theorem C64_fits (l : List Player) (hl : l.length ≤ 255) (hf : ∀ p ∈ l, -8000000 ≤ p.frags ∧ p.frags ≤ 8000000)
    (hp : ∀ p ∈ l, p.ping ≤ 16000000) : ∀ p ∈ l, ¬ Overflows (members p.team l) := by
  intro p _ h
  have hml : (members p.team l).length ≤ 255 := Nat.le_trans (List.length_filter_le _ _) hl
  have hmm : ∀ q ∈ members p.team l, q ∈ l := fun q hq => (List.mem_filter.mp hq).1
  generalize members p.team l = ms at h hml hmm
  rcases h with ⟨k, _, h⟩ | h | ⟨c, h⟩
  · have hb := totalFrags_bound (b := 8000000) (ms.take k) fun q hq => by
      have := hf q (hmm q (List.mem_of_mem_take hq)); omega
    have : (ms.take k).length ≤ 255 := Nat.le_trans (List.length_take_le _ _) (by omega)
    omega
  · have hb := totalPing_bound (b := 16000000) ms fun q hq => hp q (hmm q hq)
    omega
  · have : wearing c ms ≤ ms.length := List.length_filter_le _ _
    omega

/-- C64: in a release build a complete demo yields prints, clients, frags, flag events and a duration; its pings, players and
teams are found unless it contains no ping. -/
theorem C64_release (g : Env) (hg : g.checks = false) (data : Bytes) (h : CompleteDemo false data) :
    (∃ l, prints g data = .ok l) ∧ (∃ l, clients g data = .ok l) ∧ (∃ m, fragsPerPlayerName g data = .ok m) ∧
    (∃ m, flagEventsPerPlayerName g data = .ok m) ∧ (∃ d, demoDuration g data = .ok d) ∧
    ((∃ m, pingPerPlayerNumber g data = .ok m) ∨ pingPerPlayerNumber g data = .err .noPings) ∧
    ((∃ s, ktxstatsString g data = .ok s) ∨ ∃ e, ktxstatsString g data = .err e) ∧
    ((∃ l, players g data = .ok l) ∨ players g data = .err .noPings) ∧
    ((∃ l, teams g data = .ok l) ∨ teams g data = .err .noPings) := by
  obtain ⟨⟨fs, hw, hd⟩, hcl, hst, hlen⟩ := h
  have hsp := splits_whole hw
  rw [← hd] at hsp
  obtain ⟨cs, hcs⟩ := complete_clients g hcl
  obtain ⟨charges, hch, _⟩ := C26_charges g.toUnicode cs fs
  obtain ⟨m, hm, _⟩ := C26_frags g data fs [] cs charges hsp.1 hsp.2 (.inl hcs) hch
    (C26_bound g data fs [] cs charges hsp.1 hch hlen)
  have hflags : ∃ m, flagEventsPerPlayerName g data = .ok m := by
    obtain ⟨tss, ht, _⟩ := C30_texts g.toUnicode fs
    obtain ⟨m, hm, _⟩ := C30_wraps g data fs [] tss hsp.1 hsp.2 ht hg
    exact ⟨m, hm⟩
  have hdur : ∃ d, demoDuration g data = .ok d := by
    obtain ⟨target, ht, _⟩ := C35_measured data
    by_cases hms : msBefore target fs < 2 ^ 32
    · exact ⟨_, demo_ms g data fs [] target hsp.1 ht (.inl hsp.2) hms⟩
    · exact ⟨_, (demo_ms_overflow g data fs [] target hsp.1 ht (.inl hsp.2) (by omega)).2 hg⟩
  have hping : (∃ m, pingPerPlayerNumber g data = .ok m) ∨ pingPerPlayerNumber g data = .err .noPings := by
    obtain ⟨uss, hu, _⟩ := C34_updates fs
    by_cases hne : sampledPings uss = []
    · right
      obtain ⟨n, ht⟩ := totalPings_eq g hsp.1 (.inl hsp.2) hu
      unfold pingPerPlayerNumber
      rw [ht]
      simp [R.bind, hne]
    · left
      obtain ⟨m, hm, _⟩ := C33_wraps g data fs [] uss hsp.1 hsp.2 hu hne hg
      exact ⟨m, hm⟩
  exact ⟨(C06_prints g data).2.mpr ⟨_, _, hsp.1, hsp.2⟩, ⟨cs, hcs⟩, ⟨m, hm⟩, hflags, hdur, hping,
    players_teams g hlen hcs hm (stats_no_panic g hlen (by rw [hg]; exact hst)) hping (by rw [hg]; simp)⟩

/-- C64: with overflow checks the same holds when no counter overflows: fewer than 256 flag events of a kind per player, ping
samples that sum to less than 65536, less than 2^32 ms, and team totals in range. -/
theorem C64_checked (g : Env) (data : Bytes) (h : CompleteDemo g.checks data) (fs : List Frame) (hw : ∀ f ∈ fs, f.WF)
    (hd : data = Spec.encode fs) (tss : List (List Bytes)) (ht : List.Forall₂ (FlagTexts g.toUnicode) fs tss)
    (hflags : ∀ player kind, flagCount g.toUnicode tss.flatten player kind < 256) (uss : List (List (UInt8 × Nat)))
    (hu : List.Forall₂ (fun f us => LeadingPings f.body us) fs uss)
    (hsum : ∀ p, (samplesOf (sampledPings uss) p).sum < 65536) (hms : (fs.map fun f => f.duration.toNat).sum < 2 ^ 32)
    (hover : ∀ l, players g data = .ok l → ∀ p ∈ l, ¬ Overflows (members p.team l)) :
    (∃ l, prints g data = .ok l) ∧ (∃ l, clients g data = .ok l) ∧ (∃ m, fragsPerPlayerName g data = .ok m) ∧
    (∃ m, flagEventsPerPlayerName g data = .ok m) ∧ (∃ d, demoDuration g data = .ok d) ∧
    ((∃ m, pingPerPlayerNumber g data = .ok m) ∨ pingPerPlayerNumber g data = .err .noPings) ∧
    ((∃ s, ktxstatsString g data = .ok s) ∨ ∃ e, ktxstatsString g data = .err e) ∧
    ((∃ l, players g data = .ok l) ∨ players g data = .err .noPings) ∧
    ((∃ l, teams g data = .ok l) ∨ teams g data = .err .noPings) := by
  obtain ⟨_, hcl, hst, hlen⟩ := h
  have hsp := splits_whole hw
  rw [← hd] at hsp
  obtain ⟨cs, hcs⟩ := complete_clients g hcl
  obtain ⟨charges, hch, _⟩ := C26_charges g.toUnicode cs fs
  obtain ⟨m, hm, _⟩ := C26_frags g data fs [] cs charges hsp.1 hsp.2 (.inl hcs) hch
    (C26_bound g data fs [] cs charges hsp.1 hch hlen)
  obtain ⟨mf, hmf, _⟩ := C30_counts g data fs [] tss hsp.1 hsp.2 ht hflags
  have hdur : ∃ d, demoDuration g data = .ok d := by
    obtain ⟨target, ht, _⟩ := C35_measured data
    exact ⟨_, demo_ms g data fs [] target hsp.1 ht (.inl hsp.2) (Nat.lt_of_le_of_lt (msBefore_le target fs) hms)⟩
  have hping : (∃ m, pingPerPlayerNumber g data = .ok m) ∨ pingPerPlayerNumber g data = .err .noPings := by
    by_cases hne : sampledPings uss = []
    · right
      obtain ⟨n, ht⟩ := totalPings_eq g hsp.1 (.inl hsp.2) hu
      unfold pingPerPlayerNumber
      rw [ht]
      simp [R.bind, hne]
    · left
      obtain ⟨m, hm, _⟩ := C32_pings g data fs [] uss hsp.1 hsp.2 hu hne hsum
      exact ⟨m, hm⟩
  exact ⟨(C06_prints g data).2.mpr ⟨_, _, hsp.1, hsp.2⟩, ⟨cs, hcs⟩, ⟨m, hm⟩, ⟨mf, hmf⟩, hdur, hping,
    players_teams g hlen hcs hm (stats_no_panic g hlen hst) hping fun _ => hover⟩

namespace Example

theorem whole_complete (checks : Bool) : CompleteDemo checks (Spec.encode scoreFrames) where
  frames := ⟨_, by decide +kernel, rfl⟩
  clients := by
    have ho : FirstAt spawnCommand (Spec.encode scoreFrames) 6 := find_eq_some_iff.mp (by decide +kernel)
    refine ⟨6, ho, fun spans e hc h => Nat.le_of_not_lt fun hlt => ?_⟩
    have := (C19_panic debug (Spec.encode scoreFrames)).mpr ⟨6, ho, spans, e, hc, h, hlt⟩
    exact absurd this (by decide +kernel)
  stats := fun m hm => absurd (occurs_iff.mpr ⟨m, hm.1⟩) (rfind_eq_none_iff.mp (by decide +kernel))
  size := by decide +kernel

end Example

/-- The hypotheses of `C64_release` and `C64_checked` are met, and the demo has three players. -/
example : CompleteDemo false (Spec.encode Example.scoreFrames) ∧
    (∃ tss, List.Forall₂ (FlagTexts Example.debug.toUnicode) Example.scoreFrames tss ∧
      ∀ player kind, flagCount Example.debug.toUnicode tss.flatten player kind < 256) ∧
    (∃ uss, List.Forall₂ (fun f us => LeadingPings f.body us) Example.scoreFrames uss ∧
      ∀ p, (samplesOf (sampledPings uss) p).sum < 65536) ∧
    (Example.scoreFrames.map fun f => f.duration.toNat).sum < 2 ^ 32 ∧
    (∃ l, players Example.debug (Spec.encode Example.scoreFrames) = .ok l ∧ l.length = 3 ∧
      ∀ p ∈ l, ¬ Overflows (members p.team l)) := by
  refine ⟨Example.whole_complete false, ⟨[[], [], [], [], []], ?_, ?_⟩, ⟨[[], [(0, 25), (2, 300)], [], [], []], ?_, ?_⟩,
    by decide +kernel, ?_⟩
  · exact .cons (.inr ⟨by decide +kernel, rfl⟩) (.cons (.inr ⟨by decide +kernel, rfl⟩) (.cons (.inr ⟨by decide +kernel, rfl⟩)
      (.cons (.inr ⟨by decide +kernel, rfl⟩) (.cons (.inr ⟨by decide +kernel, rfl⟩) .nil))))
  · exact fun p k => C30_few _ _ (by decide) p k
  · have hnil : NoPing [] := by intro n lo hi x t h; cases h
    have h0 : ∀ b t, b ≠ 36 → NoPing (b :: t) := by
      intro b t hb n lo hi x t' h
      cases h
      exact hb rfl
    exact .cons (.stop (h0 9 _ (by decide))) (.cons (.step (.step (.stop hnil))) (.cons (.stop (h0 8 _ (by decide)))
      (.cons (.stop (h0 8 _ (by decide))) (.cons (.stop (h0 8 _ (by decide))) .nil))))
  · exact fun p => Nat.lt_of_le_of_lt (samplesOf_sum_le _ p) (by decide)
  · have : (match players Example.debug (Spec.encode Example.scoreFrames) with
        | .ok l => l.length = 3 ∧ ∀ p ∈ l, (-8000000 ≤ p.frags ∧ p.frags ≤ 8000000) ∧ p.ping ≤ 16000000
        | _ => False) := by
      have : (match players Example.debug (Spec.encode Example.scoreFrames) with
        | .ok l => decide (l.length = 3 ∧ ∀ p ∈ l, (-8000000 ≤ p.frags ∧ p.frags ≤ 8000000) ∧ p.ping ≤ 16000000)
        | _ => false) = true := by decide +kernel
      split at this
      · exact of_decide_eq_true this
      · cases this
    split at this
    · rename_i l hl
      exact ⟨l, hl, this.1, C64_fits l (by omega) (fun p hp => (this.2 p hp).1) fun p hp => (this.2 p hp).2⟩
    · exact this.elim

end Mvd
