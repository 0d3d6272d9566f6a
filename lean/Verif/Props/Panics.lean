import Verif.Props.Duration
import Verif.Props.FragOverflow
import Verif.Props.Ping
import Verif.Props.Teams
import Verif.Props.Flags
import Verif.Props.Time
import Verif.Props.Ktxstats
import Verif.Props.Clients
import Verif.Props.Robustness
import Verif.Props.Growth

/-! C87: exactly when a call panics. -/

namespace Mvd
open Spec

theorem R.panic_of_not {α : Type} {x : R α} {a : α} (h : x = .ok a) : x ≠ .panic := by rw [h]; simp

theorem complete_or (data : Bytes) (fs : List Frame) (rest : Bytes) (target : Nat) (h : Splits data fs rest) :
    CompleteUpTo data fs rest target ∨ Overruns data.length rest ∧ (Spec.encode fs).length < target := by
  rcases C03_remainder data fs rest h with ⟨hs, _⟩ | ⟨ho, _⟩
  · exact .inl (.inl hs)
  · rcases Nat.lt_or_ge (Spec.encode fs).length target with hl | hl
    · exact .inr ⟨ho, hl⟩
    · exact .inl (.inr ⟨ho, hl⟩)

theorem complete_not (data : Bytes) (fs : List Frame) (rest : Bytes) (target : Nat) (h : Splits data fs rest)
    (hc : CompleteUpTo data fs rest target) : ¬ (Overruns data.length rest ∧ (Spec.encode fs).length < target) := by
  rintro ⟨ho, hl⟩
  rcases hc with hs | ⟨_, hle⟩
  · rcases C03_remainder data fs rest h with ⟨_, hn⟩ | ⟨_, hn⟩
    · exact hn ho
    · exact hn hs
  · omega

/-- C87: the demo duration. A frame is cut off before the end of the measurement, or overflow checks are on and the total
does not fit into 32 bits. In all other cases there is a result, never an error. -/
theorem C87_demo_duration (g : Env) (data : Bytes) (fs : List Frame) (rest : Bytes) (target : Nat)
    (h : Splits data fs rest) (ht : MeasuredTo data target) :
    (demoDuration g data = .panic ↔
      Overruns data.length rest ∧ (Spec.encode fs).length < target ∨ g.checks = true ∧ 2 ^ 32 ≤ msBefore target fs) ∧
    (demoDuration g data = .panic ∨ ∃ d, demoDuration g data = .ok d) := by
  rcases complete_or data fs rest target h with hc | hc
  · have hn := complete_not data fs rest target h hc
    rcases Nat.lt_or_ge (msBefore target fs) (2 ^ 32) with hm | hm
    · have := demo_ms g data fs rest target h ht hc hm
      rw [this]
      refine ⟨?_, .inr ⟨_, rfl⟩⟩
      constructor
      · intro x; cases x
      · rintro (hx | ⟨_, hx⟩)
        · exact absurd hx hn
        · omega
    · obtain ⟨h1, h2⟩ := demo_ms_overflow g data fs rest target h ht hc hm
      cases hg : g.checks
      · rw [h2 hg]
        refine ⟨?_, .inr ⟨_, rfl⟩⟩
        constructor
        · intro x; cases x
        · rintro (hx | ⟨hx, _⟩)
          · exact absurd hx hn
          · cases hx
      · rw [h1 hg]
        exact ⟨iff_of_true rfl (.inr ⟨rfl, hm⟩), .inl rfl⟩
  · have := C06_demo_duration g data fs rest target h hc.1 ht hc.2
    exact ⟨iff_of_true this (.inl hc), .inl this⟩

/-- C87: the countdown. The data is shorter than 1280 bytes, or the mode is not hoonymode and before the match date print
a frame is cut off or the total does not fit into 32 bits. It fails exactly when there is no such print. -/
theorem C87_countdown_duration (g : Env) (data : Bytes) (fs : List Frame) (rest : Bytes) (h : Splits data fs rest) :
    (countdownDuration g data = .panic ↔ data.length < 1280 ∨ ¬ Hoonymode g data ∧ ∃ o, FirstAt matchdatePrint data o ∧
      (Overruns data.length rest ∧ (Spec.encode fs).length < o ∨ g.checks = true ∧ 2 ^ 32 ≤ msBefore o fs)) ∧
    (∀ e, countdownDuration g data = .err e ↔
      e = .countdownNotFound ∧ 1280 ≤ data.length ∧ ¬ Hoonymode g data ∧ ¬ Occurs matchdatePrint data) := by
  by_cases hl : 1280 ≤ data.length
  · by_cases hh : Hoonymode g data
    · rw [(C38_hoonymode g data hl hh).1]
      refine ⟨⟨fun x => (by cases x), ?_⟩, fun e => ⟨fun x => (by cases x), fun x => absurd hh x.2.2.1⟩⟩
      rintro (hx | ⟨hx, _⟩)
      · omega
      · exact absurd hh hx
    · by_cases ho : Occurs matchdatePrint data
      · obtain ⟨o, ho'⟩ : ∃ o, FirstAt matchdatePrint data o := by
          cases hf : find matchdatePrint data with
          | none => exact absurd ho (find_eq_none_iff.mp hf)
          | some o => exact ⟨o, find_eq_some_iff.mp hf⟩
        have hone : ∀ P : Nat → Prop, (∃ o, FirstAt matchdatePrint data o ∧ P o) ↔ P o := fun P =>
          ⟨fun ⟨o', h1, h2⟩ => (h1.unique ho') ▸ h2, fun hP => ⟨o, ho', hP⟩⟩
        rw [hone]
        have hno : ∀ e, ¬ (e = Err.countdownNotFound ∧ 1280 ≤ data.length ∧ ¬ Hoonymode g data ∧ ¬ Occurs matchdatePrint data) :=
          fun e x => x.2.2.2 ho
        rcases complete_or data fs rest o h with hc | hc
        · have hn := complete_not data fs rest o h hc
          rcases Nat.lt_or_ge (msBefore o fs) (2 ^ 32) with hm | hm
          · rw [countdown_ms g data fs rest o hl hh h ho' hc hm]
            refine ⟨⟨fun x => (by cases x), ?_⟩, fun e => ⟨fun x => (by cases x), fun x => absurd x (hno e)⟩⟩
            rintro (hx | ⟨_, hx | ⟨_, hx⟩⟩)
            · omega
            · exact absurd hx hn
            · omega
          · obtain ⟨h1, h2⟩ := countdown_ms_overflow g data fs rest o hl hh h ho' hc hm
            cases hg : g.checks
            · rw [h2 hg]
              refine ⟨⟨fun x => (by cases x), ?_⟩, fun e => ⟨fun x => (by cases x), fun x => absurd x (hno e)⟩⟩
              rintro (hx | ⟨_, hx | ⟨hx, _⟩⟩)
              · omega
              · exact absurd hx hn
              · cases hx
            · rw [h1 hg]
              exact ⟨iff_of_true rfl (.inr ⟨hh, .inr ⟨rfl, hm⟩⟩), fun e => ⟨fun x => (by cases x), fun x => absurd x (hno e)⟩⟩
        · rw [C06_countdown_duration g data fs rest o hl hh h hc.1 ho' hc.2]
          exact ⟨iff_of_true rfl (.inr ⟨hh, .inl hc⟩), fun e => ⟨fun x => (by cases x), fun x => absurd x (hno e)⟩⟩
      · rw [(C35_no_countdown g data hl hh).mpr ho]
        refine ⟨⟨fun x => (by cases x), ?_⟩, fun e => ⟨fun x => ?_, fun x => by rw [x.1]⟩⟩
        · rintro (hx | ⟨_, o, hx, _⟩)
          · omega
          · exact absurd (occurs_iff.mpr ⟨o, hx.1⟩) ho
        · cases x
          exact ⟨rfl, hl, hh, ho⟩
  · have := (C15_short_data_derived g data (by omega)).2.1
    rw [this]
    exact ⟨iff_of_true rfl (.inl (by omega)), fun e => ⟨fun x => (by cases x), fun x => absurd x.2.1 hl⟩⟩

/-- C87: the match duration by seeking. One of the two durations panics, or the countdown is longer than the demo; it
never fails. -/
theorem C87_seeking (g : Env) (data : Bytes) :
    (matchDurationFromSeeking g data = .panic ↔ demoDuration g data = .panic ∨ countdownDuration g data = .panic ∨
      ∃ c d, demoDuration g data = .ok d ∧ countdownDuration g data = .ok c ∧ d < c) ∧
    (matchDurationFromSeeking g data = .panic ∨ ∃ d, matchDurationFromSeeking g data = .ok d) := by
  obtain ⟨fs, rest, h⟩ := (C03_unique_split data).1
  obtain ⟨target, ht, _⟩ := C35_measured data
  have hd := (C87_demo_duration g data fs rest target h ht).2
  have hcd := countdownDuration_halts g data
  unfold matchDurationFromSeeking
  rcases hd with hd | ⟨d, hd⟩
  · rw [hd]; simp [R.bind]
  · rw [hd]
    cases hc : countdownDuration g data with
    | hang => exact absurd hc hcd
    | panic => simp [R.bind, R.unwrapOr]
    | err e => simp [R.bind, R.unwrapOr, durationSub]
    | ok c =>
      simp only [R.bind, R.unwrapOr, durationSub]
      by_cases hle : c ≤ d
      · rw [if_pos hle]; simp; omega
      · rw [if_neg hle]; simp; omega

/-- C87: the match duration. Short data; in hoonymode a panic of the demo duration; otherwise a panic in reading the match
stats, a recorded number that is negative, too large or none at all, and without a recorded number a panic of the
duration by seeking. It never fails. -/
theorem C87_match_duration (g : Env) (data : Bytes) (hd : data.length < 2 ^ 63) :
    (matchDuration g data = .panic ↔ data.length < 1280 ∨ Hoonymode g data ∧ demoDuration g data = .panic ∨
      ¬ Hoonymode g data ∧ (ktxstatsString g data = .panic ∨
        (∃ s t x, ktxstatsString g data = .ok s ∧ RecordedDuration s t ∧ g.parseF64 t = some x ∧
          ∀ q, x = .finite q → q < 0 ∨ 2 ^ 64 ≤ q) ∨
        (¬ ∃ s t x, ktxstatsString g data = .ok s ∧ RecordedDuration s t ∧ g.parseF64 t = some x) ∧
          matchDurationFromSeeking g data = .panic)) ∧
    (matchDuration g data = .panic ∨ ∃ d, matchDuration g data = .ok d) := by
  by_cases hl : 1280 ≤ data.length
  swap
  · have := (C15_short_data_derived g data (by omega)).2.2
    exact ⟨iff_of_true this (.inl (by omega)), .inl this⟩
  have hnl : ¬ data.length < 1280 := by omega
  obtain ⟨fs, rest, h⟩ := (C03_unique_split data).1
  obtain ⟨target, ht, _⟩ := C35_measured data
  by_cases hh : Hoonymode g data
  · rw [(C38_hoonymode g data hl hh).2]
    refine ⟨?_, (C87_demo_duration g data fs rest target h ht).2⟩
    constructor
    · intro x; exact .inr (.inl ⟨hh, x⟩)
    · rintro (x | ⟨_, x⟩ | ⟨x, _⟩)
      · exact absurd x hnl
      · exact x
      · exact absurd hh x
  · have key : ∀ P : Prop, (data.length < 1280 ∨ Hoonymode g data ∧ demoDuration g data = .panic ∨ ¬ Hoonymode g data ∧ P) ↔ P :=
      fun P => ⟨by rintro (x | ⟨x, _⟩ | ⟨_, x⟩); exacts [absurd x hnl, absurd x hh, x], fun x => .inr (.inr ⟨hh, x⟩)⟩
    rw [key]
    by_cases hsp : ktxstatsString g data = .panic
    · have := C39_stats_panic g data hl hh hsp
      exact ⟨iff_of_true this (.inl hsp), .inl this⟩
    by_cases hr : ∃ s t x, ktxstatsString g data = .ok s ∧ RecordedDuration s t ∧ g.parseF64 t = some x
    · obtain ⟨s, t, x, hs, hrt, hx⟩ := hr
      by_cases hbad : ∀ q, x = .finite q → q < 0 ∨ 2 ^ 64 ≤ q
      · have := C39_panic g data s t x hl hh hs hrt hx hbad
        exact ⟨iff_of_true this (.inr (.inl ⟨s, t, x, hs, hrt, hx, hbad⟩)), .inl this⟩
      · push Not at hbad
        obtain ⟨q, rfl, h0, h1⟩ := hbad
        obtain ⟨ns, hns, _⟩ := C39_recorded g data s t q hl hh hs hrt hx h0 h1
        refine ⟨iff_of_false (by rw [hns]; intro y; cases y) ?_, .inr ⟨ns, hns⟩⟩
        rintro (y | ⟨s', t', x', hs', hrt', hx', hb⟩ | ⟨y, _⟩)
        · exact hsp y
        · rw [hs] at hs'
          cases hs'
          cases C39_unique s t t' hrt hrt'
          rw [hx] at hx'
          cases hx'
          rcases hb q rfl with hb | hb
          · exact absurd h0 (not_le.mpr hb)
          · exact absurd h1 (not_lt.mpr hb)
        · exact y ⟨s, t, _, hs, hrt, hx⟩
    · have hf : (∃ e, ktxstatsString g data = .err e) ∨ ktxstatsString g data = .hang ∨
          ∃ s, ktxstatsString g data = .ok s ∧
            ((¬ ∃ t, RecordedDuration s t) ∨ ∃ t, RecordedDuration s t ∧ g.parseF64 t = none) := by
        cases hs : ktxstatsString g data with
        | err e => exact .inl ⟨e, rfl⟩
        | panic => exact absurd hs hsp
        | hang => exact .inr (.inl rfl)
        | ok s =>
          refine .inr (.inr ⟨s, rfl, ?_⟩)
          by_cases ht : ∃ t, RecordedDuration s t
          · obtain ⟨t, ht⟩ := ht
            cases hx : g.parseF64 t with
            | none => exact .inr ⟨t, ht, hx⟩
            | some x => exact absurd ⟨s, t, x, hs, ht, hx⟩ hr
          · exact .inl ht
      rcases hf with hf | hf | hf
      · have := C39_fallback g data hl hh (.inl hf)
        rw [this]
        refine ⟨⟨fun y => .inr (.inr ⟨hr, y⟩), ?_⟩, (C87_seeking g data).2⟩
        rintro (y | ⟨s', t', x', hs', hrt', hx', _⟩ | ⟨_, y⟩)
        · exact absurd y hsp
        · exact absurd ⟨s', t', x', hs', hrt', hx'⟩ hr
        · exact y
      · exact absurd hf (ktxstatsString_halts g data hd)
      · have := C39_fallback g data hl hh (.inr hf)
        rw [this]
        refine ⟨⟨fun y => .inr (.inr ⟨hr, y⟩), ?_⟩, (C87_seeking g data).2⟩
        rintro (y | ⟨s', t', x', hs', hrt', hx', _⟩ | ⟨_, y⟩)
        · exact absurd y hsp
        · exact absurd ⟨s', t', x', hs', hrt', hx'⟩ hr
        · exact y

/-- C87: the flag statistics. The data ends in a cut-off frame, or overflow checks are on and there are 256 events of one
kind for one player. They never fail. -/
theorem C87_flags (g : Env) (data : Bytes) (fs : List Frame) (rest : Bytes) (tss : List (List Bytes))
    (h : Splits data fs rest) (ht : List.Forall₂ (FlagTexts g.toUnicode) fs tss) :
    (flagEventsPerPlayerName g data = .panic ↔
      Overruns data.length rest ∨ g.checks = true ∧ ∃ player kind, 256 ≤ flagCount g.toUnicode tss.flatten player kind) ∧
    (flagEventsPerPlayerName g data = .panic ∨ ∃ m, flagEventsPerPlayerName g data = .ok m) := by
  rcases C03_remainder data fs rest h with ⟨hs, hn⟩ | ⟨ho, _⟩
  · by_cases hlt : ∀ player kind, flagCount g.toUnicode tss.flatten player kind < 256
    · obtain ⟨m, hm, _⟩ := C30_counts g data fs rest tss h hs ht hlt
      refine ⟨iff_of_false (by rw [hm]; intro y; cases y) ?_, .inr ⟨m, hm⟩⟩
      rintro (y | ⟨_, p, k, y⟩)
      · exact hn y
      · exact absurd (hlt p k) (by omega)
    · push Not at hlt
      obtain ⟨p, k, hge⟩ := hlt
      cases hg : g.checks
      · obtain ⟨m, hm, _⟩ := C30_wraps g data fs rest tss h hs ht hg
        refine ⟨iff_of_false (by rw [hm]; intro y; cases y) ?_, .inr ⟨m, hm⟩⟩
        rintro (y | ⟨y, _⟩)
        · exact hn y
        · cases y
      · have := C30_panics g data fs rest tss h hs ht hg p k hge
        exact ⟨iff_of_true this (.inr ⟨rfl, p, k, hge⟩), .inl this⟩
  · have := C06_flags g data fs rest h ho
    exact ⟨iff_of_true this (.inl ho), .inl this⟩

/-- C87: the scores. The data ends in a cut-off frame; or the clients are needed for an anonymous teamkill and reading them
panics; or overflow checks are on and a score leaves the range of 32 bits. They never fail. -/
theorem C87_frags (g : Env) (data : Bytes) (fs : List Frame) (rest : Bytes) (cs : List Client)
    (charges : List (Str × Int)) (h : Splits data fs rest)
    (hcs : clients g data = .ok cs ∨ (¬ ∃ cs', clients g data = .ok cs') ∧ cs = [])
    (hch : Charges g.toUnicode cs fs charges) :
    (fragsPerPlayerName g data = .panic ↔ Overruns data.length rest ∨
      clients g data = .panic ∧ (∃ before f later, fs = before ++ f :: later ∧ NeedsClients g.toUnicode f later) ∨
      g.checks = true ∧ ¬ InRange charges) ∧
    (fragsPerPlayerName g data = .panic ∨ ∃ m, fragsPerPlayerName g data = .ok m) := by
  rcases C03_remainder data fs rest h with ⟨hs, hn⟩ | ⟨ho, _⟩
  · by_cases hp : clients g data = .panic ∧ ∃ before f later, fs = before ++ f :: later ∧ NeedsClients g.toUnicode f later
    · have := C26_panic g data fs rest h hs hp.1 hp.2
      exact ⟨iff_of_true this (.inr (.inl hp)), .inl this⟩
    · have hcs' : clients g data = .ok cs ∨ ((∃ e, clients g data = .err e) ∧ cs = []) ∨
          ∀ before f later, fs = before ++ f :: later → ¬ NeedsClients g.toUnicode f later := by
        rcases hcs with hcs | ⟨hno, hnil⟩
        · exact .inl hcs
        · cases hc : clients g data with
          | ok cs' => exact absurd ⟨cs', hc⟩ hno
          | err e => exact .inr (.inl ⟨⟨e, rfl⟩, hnil⟩)
          | hang => exact absurd hc (clients_halts g data)
          | panic => exact .inr (.inr fun before f later e hne => hp ⟨hc, before, f, later, e, hne⟩)
      cases hg : g.checks
      · obtain ⟨m, hm, _⟩ := C26_release g data fs rest cs charges h hs hcs' hch hg
        refine ⟨iff_of_false (by rw [hm]; intro y; cases y) ?_, .inr ⟨m, hm⟩⟩
        rintro (y | y | ⟨y, _⟩)
        · exact hn y
        · exact hp y
        · cases y
      · obtain ⟨h1, h2⟩ := C26_debug g data fs rest cs charges h hs hcs' hch hg
        by_cases hr : InRange charges
        · obtain ⟨m, hm, _⟩ := h1 hr
          refine ⟨iff_of_false (by rw [hm]; intro y; cases y) ?_, .inr ⟨m, hm⟩⟩
          rintro (y | y | ⟨_, y⟩)
          · exact hn y
          · exact hp y
          · exact y hr
        · exact ⟨iff_of_true (h2 hr) (.inr (.inr ⟨rfl, hr⟩)), .inl (h2 hr)⟩
  · have := C06_frags g data fs rest h ho
    exact ⟨iff_of_true this (.inl ho), .inl this⟩

theorem pings_stops (g : Env) (data : Bytes) (fs : List Frame) (rest : Bytes) (uss : List (List (UInt8 × Nat)))
    (h : Splits data fs rest) (hs : Stops data.length rest)
    (hu : List.Forall₂ (fun f us => LeadingPings f.body us) fs uss) :
    (pingPerPlayerNumber g data = .panic ↔ g.checks = true ∧ ∃ p, 65536 ≤ (samplesOf (sampledPings uss) p).sum) ∧
    (∀ e, pingPerPlayerNumber g data = .err e ↔ e = .noPings ∧ sampledPings uss = []) := by
  by_cases hne : sampledPings uss = []
  · have he : pingPerPlayerNumber g data = .err .noPings := by
      obtain ⟨n, ht⟩ := totalPings_eq g h (.inl hs) hu
      unfold pingPerPlayerNumber
      rw [ht]
      simp only [R.bind]
      rw [ping_isEmpty, if_pos (by simp [hne])]
    rw [he]
    refine ⟨iff_of_false (by intro y; cases y) ?_, fun e => ⟨fun y => ?_, fun y => by rw [y.1]⟩⟩
    · rintro ⟨_, p, y⟩
      rw [hne] at y
      simp [samplesOf] at y
    · cases y; exact ⟨rfl, hne⟩
  · by_cases hsum : ∀ p, (samplesOf (sampledPings uss) p).sum < 65536
    · obtain ⟨m, hm, _⟩ := C32_pings g data fs rest uss h hs hu hne hsum
      rw [hm]
      refine ⟨iff_of_false (by intro y; cases y) ?_, fun e => iff_of_false (by intro y; cases y) fun y => hne y.2⟩
      rintro ⟨_, p, y⟩
      exact absurd (hsum p) (by omega)
    · push Not at hsum
      obtain ⟨p, hp⟩ := hsum
      cases hg : g.checks
      · obtain ⟨m, hm, _⟩ := C33_wraps g data fs rest uss h hs hu hne hg
        rw [hm]
        exact ⟨iff_of_false (by intro y; cases y) (fun y => by cases y.1),
          fun e => iff_of_false (by intro y; cases y) fun y => hne y.2⟩
      · rw [C33_panics g data fs rest uss h hs hu hg p hp]
        exact ⟨iff_of_true rfl ⟨rfl, p, hp⟩, fun e => iff_of_false (by intro y; cases y) fun y => hne y.2⟩

/-- C87: the pings. The data ends in a cut-off frame and fewer than eight frames with pings come before it, or overflow
checks are on and the samples of a player add up to 65536 or more. Otherwise the call fails exactly when there are no
samples. -/
theorem C87_pings (g : Env) (data : Bytes) (fs : List Frame) (rest : Bytes) (uss : List (List (UInt8 × Nat)))
    (h : Splits data fs rest) (hu : List.Forall₂ (fun f us => LeadingPings f.body us) fs uss) :
    (pingPerPlayerNumber g data = .panic ↔
      Overruns data.length rest ∧ (uss.filter fun us => us ≠ []).length < 8 ∨
      g.checks = true ∧ ∃ p, 65536 ≤ (samplesOf (sampledPings uss) p).sum) ∧
    (∀ e, pingPerPlayerNumber g data = .err e ↔ e = .noPings ∧ ¬ Overruns data.length rest ∧ sampledPings uss = []) := by
  rcases C03_remainder data fs rest h with ⟨hs, hn⟩ | ⟨ho, _⟩
  · obtain ⟨h1, h2⟩ := pings_stops g data fs rest uss h hs hu
    rw [h1]
    refine ⟨⟨.inr, ?_⟩, fun e => by rw [h2]; tauto⟩
    rintro (y | y)
    · exact absurd y.1 hn
    · exact y
  · rcases Nat.lt_or_ge (uss.filter fun us => us ≠ []).length 8 with h8 | h8
    · rw [C06_ping g data fs rest uss h ho hu h8]
      exact ⟨iff_of_true rfl (.inl ⟨ho, h8⟩), fun e => iff_of_false (by intro y; cases y) fun y => y.2.1 ho⟩
    · rw [C06_ping_enough g data fs rest uss h ho hu h8]
      obtain ⟨h1, h2⟩ := pings_stops g _ fs [] uss (splits_whole h.2.1).1 (splits_whole h.2.1).2 hu
      have hne : sampledPings uss ≠ [] := by
        unfold sampledPings
        cases hl : uss.filter fun us => us ≠ [] with
        | nil => rw [hl] at h8; simp at h8
        | cons a l =>
          have : a ∈ uss.filter fun us => us ≠ [] := by rw [hl]; simp
          rw [List.mem_filter] at this
          simp only [List.take_succ_cons, List.flatten_cons, ne_eq, List.append_eq_nil_iff, not_and]
          intro ha
          simp [ha] at this
      rw [h1]
      refine ⟨⟨.inr, ?_⟩, fun e => by rw [h2]; tauto⟩
      rintro (y | y)
      · exact absurd y.2 (by omega)
      · exact y

/-- C87: the players. Reading the match stats panics; or the stats cannot be read or parsed, and reading the clients
panics, or with clients the pings, or with pings the scores. The call fails exactly when there are neither readable
stats nor clients, or neither stats nor pings. -/
theorem C87_players (g : Env) (data : Bytes) :
    (players g data = .panic ↔ ktxstatsV3 g data = .panic ∨ (∃ e, ktxstatsV3 g data = .err e) ∧
      (clients g data = .panic ∨ (∃ cs, clients g data = .ok cs) ∧
        (pingPerPlayerNumber g data = .panic ∨ (∃ m, pingPerPlayerNumber g data = .ok m) ∧ fragsPerPlayerName g data = .panic))) ∧
    (∀ e, players g data = .err e ↔ (∃ e', ktxstatsV3 g data = .err e') ∧
      (clients g data = .err e ∨ (∃ cs, clients g data = .ok cs) ∧ pingPerPlayerNumber g data = .err e)) := by
  have hfe : ∀ e, fragsPerPlayerName g data ≠ .err e := by
    intro e he
    obtain ⟨fs, rest, h⟩ := (C03_unique_split data).1
    obtain ⟨cs, hcs⟩ : ∃ cs, clients g data = .ok cs ∨ (¬ ∃ cs', clients g data = .ok cs') ∧ cs = [] := by
      by_cases hc : ∃ cs', clients g data = .ok cs'
      · obtain ⟨cs, hc⟩ := hc
        exact ⟨cs, .inl hc⟩
      · exact ⟨[], .inr ⟨hc, rfl⟩⟩
    obtain ⟨charges, hch, _⟩ := C26_charges g.toUnicode cs fs
    rcases (C87_frags g data fs rest cs charges h hcs hch).2 with x | ⟨m, x⟩ <;> rw [x] at he <;> cases he
  unfold players playersFromParsing playersFromKtxstats
  cases ktxstatsV3 g data with
  | hang => simp
  | panic => simp
  | ok s => simp
  | err e' =>
    cases clients g data with
    | hang => simp [R.bind]
    | panic => simp [R.bind]
    | err e => simp [R.bind]
    | ok cs =>
      cases pingPerPlayerNumber g data with
      | hang => simp [R.bind]
      | panic => simp [R.bind]
      | err e => simp [R.bind]
      | ok m =>
        cases hf : fragsPerPlayerName g data with
        | hang => simp [R.bind]
        | panic => simp [R.bind]
        | err e => exact absurd hf (hfe e)
        | ok m' => simp [R.bind]

/-- C87: the teams. There is a panic in finding the players, or overflow checks are on and adding up the players of a team
overflows. The call fails exactly when the players cannot be found, for the same reason. -/
theorem C87_teams (g : Env) (data : Bytes) :
    (teams g data = .panic ↔ players g data = .panic ∨
      ∃ ps, players g data = .ok ps ∧ g.checks = true ∧ ∃ p ∈ ps, Overflows (members p.team ps)) ∧
    (∀ e, teams g data = .err e ↔ players g data = .err e) := by
  unfold teams
  cases players g data with
  | hang => simp [R.bind]
  | panic => simp [R.bind]
  | err e => simp [R.bind]
  | ok ps =>
    obtain ⟨h1, h2⟩ := C49_outcome g ps
    simp only [R.bind]
    rw [h2]
    refine ⟨by simp, fun e => ?_⟩
    rcases h1 with ⟨ts, h1⟩ | h1 <;> rw [h1] <;> simp

/-- C87: the timestamp. Short data, or no epoch and a panic in reading the match date. The call fails exactly when there
is no epoch and reading the match date fails, for the same reason. -/
theorem C87_timestamp (g : Env) (data : Bytes) :
    (timestamp g data = .panic ↔ data.length < 1280 ∨
      (∀ text, ServerinfoText data text → (g.settings (g.toUtf8 text)).epoch = none) ∧ matchdate g data = .panic) ∧
    (∀ e, timestamp g data = .err e ↔ 1280 ≤ data.length ∧
      (∀ text, ServerinfoText data text → (g.settings (g.toUtf8 text)).epoch = none) ∧ matchdate g data = .err e) := by
  by_cases hl : 1280 ≤ data.length
  swap
  · have hs := C57_short g data (by omega)
    exact ⟨iff_of_true hs (.inl (by omega)), fun e => iff_of_false (by rw [hs]; intro y; cases y) fun y => hl y.1⟩
  by_cases he : ∀ text, ServerinfoText data text → (g.settings (g.toUtf8 text)).epoch = none
  · rw [C57_matchdate g data hl he]
    exact ⟨⟨fun y => .inr ⟨he, y⟩, by rintro (y | y); exacts [absurd y (by omega), y.2]⟩,
      fun e => ⟨fun y => ⟨hl, he, y⟩, fun y => y.2.2⟩⟩
  · push Not at he
    obtain ⟨text, ht, hne⟩ := he
    obtain ⟨epoch, hep⟩ := Option.ne_none_iff_exists'.mp hne
    rw [C57_epoch g data text hl ht epoch hep]
    refine ⟨iff_of_false (by intro y; cases y) ?_, fun e => iff_of_false (by intro y; cases y) fun y => hne (y.2.1 text ht)⟩
    rintro (y | y)
    · omega
    · exact hne (y.1 text ht)

/-- C87, the conditions apply: a demo of two frames, and the same demo cut off in the second frame. The complete demo has a
duration, scores and flag statistics, and no pings; every call on the other one panics. -/
theorem C87_witness :
    let first : Frame := ⟨0, 6, [], [8, 1, 0]⟩
    let second : Frame := ⟨5, 6, [], [8, 1, 0]⟩
    let whole := Spec.encode [first, second]
    let cut := whole.take 16
    (Splits whole [first, second] [] ∧ Splits cut [first] (second.encode.take 7) ∧
      Overruns cut.length (second.encode.take 7)) ∧
    (demoDuration Example.release whole = .ok 5000000 ∧ fragsPerPlayerName Example.release whole = .ok [] ∧
      flagEventsPerPlayerName Example.release whole = .ok [] ∧ pingPerPlayerNumber Example.release whole = .err .noPings) ∧
    demoDuration Example.release cut = .panic ∧ fragsPerPlayerName Example.release cut = .panic ∧
      flagEventsPerPlayerName Example.release cut = .panic ∧ pingPerPlayerNumber Example.release cut = .panic := by
  refine ⟨⟨⟨rfl, by decide, ?_⟩, ⟨rfl, by decide, ?_⟩, by decide⟩, ⟨by decide +kernel, by decide +kernel, by decide +kernel,
    by decide +kernel⟩, by decide +kernel, by decide +kernel, by decide +kernel, by decide +kernel⟩
  · exact noFrame_iff.mpr (fun h b e => by cases e)
  · refine noFrame_iff.mpr (fun h b e => ?_)
    have : some (6, 3) = some (h, b) := e
    cases this
    decide

end Mvd
