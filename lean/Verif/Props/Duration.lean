import Verif.Props.Ktxstats
import Verif.Lemmas.Rounding
import Verif.Lemmas.Utf8
import Verif.Props.Clients
import Verif.Props.Frags

/-! C35–C39, C06 for durations. -/

namespace Mvd
open Spec

instance (data : Bytes) (i : Nat) : Decidable (MeasuredTo data i) := by unfold MeasuredTo; infer_instance

/-! ### C36 -/

theorem msToDuration_cast (ms : Nat) :
    ((msToDuration ms : ℕ) : ℚ) = (roundEven (f32Round (f32Round ms / 1000) * 10 ^ 9) : ℚ) := by
  have hm : (0 : ℚ) ≤ ms := by positivity
  have h1 : (0 : ℚ) ≤ f32Round ms / 1000 := div_nonneg (f32Round_nonneg hm) (by norm_num)
  have h2 := f32Round_nonneg h1
  have h3 : 0 ≤ roundEven (f32Round (f32Round ms / 1000) * 10 ^ 9) := roundEven_nonneg (by positivity)
  have : (((roundEven (f32Round (f32Round ms / 1000) * 10 ^ 9)).toNat : ℕ) : ℤ) =
    roundEven (f32Round (f32Round ms / 1000) * 10 ^ 9) := Int.toNat_of_nonneg h3
  exact_mod_cast congrArg (fun z : ℤ => (z : ℚ)) this

/-- C36: the conversion performs the three roundings correctly, and this determines its result. -/
theorem C36_conversion (ms ns : Nat) : Converted ms ns ↔ ns = msToDuration ms := by
  have hm : (0 : ℚ) ≤ ms := by positivity
  have h1 : (0 : ℚ) ≤ f32Round ms / 1000 := div_nonneg (f32Round_nonneg hm) (by norm_num)
  constructor
  · rintro ⟨a, b, ha, hb, hn⟩
    have ea := f32Round_unique hm ha
    subst ea
    have eb := f32Round_unique h1 hb
    subst eb
    have := roundEven_unique hn
    rw [← msToDuration_cast] at this
    exact_mod_cast this
  · rintro rfl
    refine ⟨f32Round ms, f32Round (f32Round ms / 1000), f32Round_nearestEven hm, f32Round_nearestEven h1, ?_⟩
    rw [msToDuration_cast]
    exact roundEven_nearestEven _

/-- C36: longer totals do not give shorter durations. -/
theorem C36_monotone (a b : Nat) (h : a ≤ b) : msToDuration a ≤ msToDuration b := msToDuration_mono h

/-- C36: the relative error is at most 2^-23, apart from half a nanosecond. -/
theorem C36_accuracy (ms : Nat) : |(msToDuration ms : ℚ) - ms * 10 ^ 6| ≤ (ms : ℚ) * 10 ^ 6 / 2 ^ 23 + 1 / 2 :=
  msToDuration_error ms

/-- C36: below 2^24 ms the relative error is at most 2^-24, apart from half a nanosecond. -/
theorem C36_accuracy_short (ms : Nat) (h : ms ≤ 2 ^ 24) :
    |(msToDuration ms : ℚ) - ms * 10 ^ 6| ≤ (ms : ℚ) * 10 ^ 6 / 2 ^ 24 + 1 / 2 :=
  msToDuration_error_small ms h

/-- Twenty minutes and a millisecond: the nearest single precision number of seconds is off by about 23 microseconds. -/
example : msToDuration 1200001 = 1200000976562 := by decide +kernel

/-! ### C35 -/

/-- Every data has exactly one offset up to which it is measured. -/
theorem C35_measured (data : Bytes) : ∃ target, MeasuredTo data target ∧ ∀ t, MeasuredTo data t → t = target := by
  refine ⟨_, measuredTo_iff.mpr rfl, fun t ht => (measuredTo_iff.mp ht).symm⟩

theorem demo_ms (g : Env) (data : Bytes) (fs : List Frame) (rest : Bytes) (target : Nat)
    (h : Splits data fs rest) (ht : MeasuredTo data target) (hc : CompleteUpTo data fs rest target)
    (hms : msBefore target fs < 2 ^ 32) :
    demoDuration g data = .ok (msToDuration (msBefore target fs)) := by
  rw [demoDuration_eq g ht, totalMs_eq g h hc]
  unfold sumMs
  rw [if_pos hms]
  rfl

/-- C35: the demo duration is the total of the frames that start before the end of the measurement. -/
theorem C35_demo_duration (g : Env) (data : Bytes) (fs : List Frame) (rest : Bytes) (target : Nat)
    (h : Splits data fs rest) (ht : MeasuredTo data target) (hc : CompleteUpTo data fs rest target)
    (hms : msBefore target fs < 2 ^ 32) (ns : ℕ) : demoDuration g data = .ok ns ↔ Converted (msBefore target fs) ns := by
  rw [demo_ms g data fs rest target h ht hc hms, C36_conversion]
  exact ⟨fun h => (R.ok.inj h).symm, fun h => h ▸ rfl⟩

/-- C35: the demo duration in nanoseconds, up to rounding. -/
theorem C35_demo_duration_accuracy (g : Env) (data : Bytes) (fs : List Frame) (rest : Bytes) (target : Nat)
    (h : Splits data fs rest) (ht : MeasuredTo data target) (hc : CompleteUpTo data fs rest target)
    (hms : msBefore target fs < 2 ^ 32) :
    ∃ ns, demoDuration g data = .ok ns ∧ Converted (msBefore target fs) ns ∧
      |(ns : ℚ) - msBefore target fs * 10 ^ 6| ≤ (msBefore target fs : ℚ) * 10 ^ 6 / 2 ^ 23 + 1 / 2 :=
  ⟨_, demo_ms g data fs rest target h ht hc hms, (C36_conversion _ _).mpr rfl, C36_accuracy _⟩

theorem msFrom_all : ∀ (fs : List Frame) (i n : Nat), i + (Spec.encode fs).length ≤ n →
    msFrom i n fs = (fs.map fun f => f.duration.toNat).sum
  | [], i, n, _ => rfl
  | f :: fs, i, n, h => by
    have hp := encode_pos f
    have hl : (Spec.encode (f :: fs)).length = f.encode.length + (Spec.encode fs).length := by simp [Spec.encode]
    rw [msFrom_cons (by omega), msFrom_all fs _ n (by omega)]
    simp

/-- C35: measured to the end of the data, all frames count. -/
theorem C35_all_frames (data : Bytes) (fs : List Frame) (rest : Bytes) (h : Splits data fs rest) :
    msBefore data.length fs = (fs.map fun f => f.duration.toNat).sum := by
  rw [← msFrom_zero]
  exact msFrom_all fs 0 _ (by rw [h.1]; simp)

theorem demo_ms_overflow (g : Env) (data : Bytes) (fs : List Frame) (rest : Bytes) (target : Nat)
    (h : Splits data fs rest) (ht : MeasuredTo data target) (hc : CompleteUpTo data fs rest target)
    (hms : 2 ^ 32 ≤ msBefore target fs) :
    (g.checks = true → demoDuration g data = .panic) ∧
    (g.checks = false → demoDuration g data = .ok (msToDuration (msBefore target fs % 2 ^ 32))) := by
  rw [demoDuration_eq g ht, totalMs_eq g h hc]
  unfold sumMs
  rw [if_neg (by omega)]
  constructor <;> intro hg <;> rw [hg] <;> rfl

/-- C35: what happens when the total does not fit into 32 bits. -/
theorem C35_overflow (g : Env) (data : Bytes) (fs : List Frame) (rest : Bytes) (target : Nat)
    (h : Splits data fs rest) (ht : MeasuredTo data target) (hc : CompleteUpTo data fs rest target)
    (hms : 2 ^ 32 ≤ msBefore target fs) :
    (g.checks = true → demoDuration g data = .panic) ∧
    (g.checks = false → ∀ ns, demoDuration g data = .ok ns ↔ Converted (msBefore target fs % 2 ^ 32) ns) := by
  obtain ⟨h1, h2⟩ := demo_ms_overflow g data fs rest target h ht hc hms
  refine ⟨h1, fun hg ns => ?_⟩
  rw [h2 hg, C36_conversion]
  exact ⟨fun h => (R.ok.inj h).symm, fun h => h ▸ rfl⟩

/-- The serverinfo says `hoonymode`. -/
def Hoonymode (g : Env) (data : Bytes) : Prop :=
  ∃ text, Spec.ServerinfoText data text ∧ (g.settings (g.toUtf8 text)).mode = some chars!"hoonymode"

theorem isHoonymode_true (g : Env) {data : Bytes} (hl : 1280 ≤ data.length) (h : Hoonymode g data) :
    isHoonymode g data = .ok true := by
  obtain ⟨text, ht, hm⟩ := h
  have e := (C14_serverinfo_string g data hl _).mpr ⟨text, ht, rfl⟩
  simp [isHoonymode, serverinfo, e, R.bind, R.isOkAnd, hm]

theorem isHoonymode_false (g : Env) {data : Bytes} (hl : 1280 ≤ data.length) (h : ¬ Hoonymode g data) :
    isHoonymode g data = .ok false := by
  by_cases ht : ∃ text, Spec.ServerinfoText data text
  · obtain ⟨text, ht⟩ := ht
    have e := (C14_serverinfo_string g data hl _).mpr ⟨text, ht, rfl⟩
    have hm : ¬ (g.settings (g.toUtf8 text)).mode = some chars!"hoonymode" := fun hm => h ⟨text, ht, hm⟩
    simp [isHoonymode, serverinfo, e, R.bind, R.isOkAnd, hm]
  · have e := (C14_serverinfo_error g data hl).1.mpr ht
    simp [isHoonymode, serverinfo, e, R.bind, R.isOkAnd]

theorem countdown_eq (g : Env) {data : Bytes} (hl : 1280 ≤ data.length) (hh : ¬ Hoonymode g data) {o : Nat}
    (ho : FirstAt matchdatePrint data o) :
    countdownDuration g data = (totalMs g data o).bind fun ms => .ok (msToDuration ms) := by
  unfold countdownDuration
  rw [isHoonymode_false g hl hh, matchdatePrint_eq]
  simp only [R.bind]
  rw [find_eq_some_iff.mpr ho]
  rfl

theorem countdown_ms (g : Env) (data : Bytes) (fs : List Frame) (rest : Bytes) (o : Nat)
    (hl : 1280 ≤ data.length) (hh : ¬ Hoonymode g data) (h : Splits data fs rest) (ho : FirstAt matchdatePrint data o)
    (hc : CompleteUpTo data fs rest o) (hms : msBefore o fs < 2 ^ 32) :
    countdownDuration g data = .ok (msToDuration (msBefore o fs)) := by
  rw [countdown_eq g hl hh ho, totalMs_eq g h hc]
  unfold sumMs
  rw [if_pos hms]
  rfl

theorem countdown_ms_overflow (g : Env) (data : Bytes) (fs : List Frame) (rest : Bytes) (o : Nat)
    (hl : 1280 ≤ data.length) (hh : ¬ Hoonymode g data) (h : Splits data fs rest) (ho : FirstAt matchdatePrint data o)
    (hc : CompleteUpTo data fs rest o) (hms : 2 ^ 32 ≤ msBefore o fs) :
    (g.checks = true → countdownDuration g data = .panic) ∧
    (g.checks = false → countdownDuration g data = .ok (msToDuration (msBefore o fs % 2 ^ 32))) := by
  rw [countdown_eq g hl hh ho, totalMs_eq g h hc]
  unfold sumMs
  rw [if_neg (by omega)]
  constructor <;> intro hg <;> rw [hg] <;> rfl

/-- C35: the countdown is the total of the frames that start before the match date print. -/
theorem C35_countdown_duration (g : Env) (data : Bytes) (fs : List Frame) (rest : Bytes) (o : Nat)
    (hl : 1280 ≤ data.length) (hh : ¬ Hoonymode g data) (h : Splits data fs rest) (ho : FirstAt matchdatePrint data o)
    (hc : CompleteUpTo data fs rest o) (hms : msBefore o fs < 2 ^ 32) (ns : ℕ) :
    countdownDuration g data = .ok ns ↔ Converted (msBefore o fs) ns := by
  rw [countdown_ms g data fs rest o hl hh h ho hc hms, C36_conversion]
  exact ⟨fun h => (R.ok.inj h).symm, fun h => h ▸ rfl⟩

/-- C35: what happens when the countdown does not fit into 32 bits. -/
theorem C35_countdown_overflow (g : Env) (data : Bytes) (fs : List Frame) (rest : Bytes) (o : Nat)
    (hl : 1280 ≤ data.length) (hh : ¬ Hoonymode g data) (h : Splits data fs rest) (ho : FirstAt matchdatePrint data o)
    (hc : CompleteUpTo data fs rest o) (hms : 2 ^ 32 ≤ msBefore o fs) :
    (g.checks = true → countdownDuration g data = .panic) ∧
    (g.checks = false → ∀ ns, countdownDuration g data = .ok ns ↔ Converted (msBefore o fs % 2 ^ 32) ns) := by
  obtain ⟨h1, h2⟩ := countdown_ms_overflow g data fs rest o hl hh h ho hc hms
  refine ⟨h1, fun hg ns => ?_⟩
  rw [h2 hg, C36_conversion]
  exact ⟨fun h => (R.ok.inj h).symm, fun h => h ▸ rfl⟩

/-- C35: without a match date print there is no countdown. -/
theorem C35_no_countdown (g : Env) (data : Bytes) (hl : 1280 ≤ data.length) (hh : ¬ Hoonymode g data) :
    countdownDuration g data = .err .countdownNotFound ↔ ¬ Occurs matchdatePrint data := by
  unfold countdownDuration
  rw [isHoonymode_false g hl hh, matchdatePrint_eq]
  simp only [R.bind]
  rw [← find_eq_none_iff]
  cases hf : find matchdatePrint data with
  | none => simp
  | some o =>
    simp only [reduceCtorEq, iff_false]
    unfold durationUntilOffset
    obtain ⟨fs, rest, h⟩ := splits_exists _ data (Nat.le_refl _)
    rcases stops_or_overruns (n := data.length) h.2.2 with ⟨hs, _⟩ | ⟨hs, _⟩
    · rw [totalMs_eq g h (.inl hs)]
      unfold sumMs
      split
      · simp [R.bind]
      · split <;> simp [R.bind]
    · by_cases ho : o ≤ (Spec.encode fs).length
      · rw [totalMs_eq g h (.inr ⟨hs, ho⟩)]
        unfold sumMs
        split
        · simp [R.bind]
        · split <;> simp [R.bind]
      · rw [totalMs_panic g h hs (by omega)]
        simp [R.bind]

/-! ### C06 -/

/-- C06 for `demo_duration`: a cut-off frame that starts before the end of the measurement makes it panic. -/
theorem C06_demo_duration (g : Env) (data : Bytes) (fs : List Frame) (rest : Bytes) (target : Nat)
    (h : Splits data fs rest) (hs : Overruns data.length rest) (ht : MeasuredTo data target)
    (hlt : (Spec.encode fs).length < target) : demoDuration g data = .panic := by
  rw [demoDuration_eq g ht, totalMs_panic g h hs hlt]
  rfl

/-- C06 for `countdown_duration`. -/
theorem C06_countdown_duration (g : Env) (data : Bytes) (fs : List Frame) (rest : Bytes) (o : Nat)
    (hl : 1280 ≤ data.length) (hh : ¬ Hoonymode g data) (h : Splits data fs rest) (hs : Overruns data.length rest)
    (ho : FirstAt matchdatePrint data o) (hlt : (Spec.encode fs).length < o) : countdownDuration g data = .panic := by
  rw [countdown_eq g hl hh ho, totalMs_panic g h hs hlt]
  rfl

/-- C06 for `match_duration_from_seeking`. -/
theorem C06_match_duration (g : Env) (data : Bytes) (fs : List Frame) (rest : Bytes) (target : Nat)
    (h : Splits data fs rest) (hs : Overruns data.length rest) (ht : MeasuredTo data target)
    (hlt : (Spec.encode fs).length < target) : matchDurationFromSeeking g data = .panic := by
  unfold matchDurationFromSeeking
  rw [C06_demo_duration g data fs rest target h hs ht hlt]
  rfl

/-- A truncated demo without end marker. -/
example : Splits ([1, 6, 2, 0, 0, 0, 7, 7] ++ [1, 6, 3, 0, 0, 0, 7, 7]) [Example.all [7, 7]] [1, 6, 3, 0, 0, 0, 7, 7] ∧
    Overruns 16 [1, 6, 3, 0, 0, 0, 7, 7] ∧ MeasuredTo ([1, 6, 2, 0, 0, 0, 7, 7] ++ [1, 6, 3, 0, 0, 0, 7, 7]) 16 ∧
    (Spec.encode [Example.all [7, 7]]).length < 16 ∧
    demoDuration Example.release ([1, 6, 2, 0, 0, 0, 7, 7] ++ [1, 6, 3, 0, 0, 0, 7, 7]) = .panic :=
  ⟨⟨by decide, by decide, overruns_noFrame (n := 16) (by decide)⟩, by decide, by decide +kernel, by decide, by decide +kernel⟩

/-! ### C37 -/

/-- C37: when the match date print comes before the end of the measurement, the countdown is at most the demo duration
and the match duration by seeking is the difference. -/
theorem C37_countdown_le_demo (g : Env) (data : Bytes) (fs : List Frame) (rest : Bytes) (o target d : Nat)
    (hl : 1280 ≤ data.length) (h : Splits data fs rest) (ho : FirstAt matchdatePrint data o) (ht : MeasuredTo data target)
    (hle : o ≤ target) (hms : msBefore target fs < 2 ^ 32) (hd : demoDuration g data = .ok d) :
    ∃ c, countdownDuration g data = .ok c ∧ c ≤ d ∧ matchDurationFromSeeking g data = .ok (d - c) := by
  have hc : CompleteUpTo data fs rest target := by
    rcases stops_or_overruns (n := data.length) h.2.2 with ⟨hs, _⟩ | ⟨hs, _⟩
    · exact .inl hs
    · refine .inr ⟨hs, Nat.le_of_not_lt fun hlt => ?_⟩
      rw [C06_demo_duration g data fs rest target h hs ht hlt] at hd
      cases hd
  have hco : CompleteUpTo data fs rest o := by
    rcases hc with hs | ⟨hs, hle'⟩
    · exact .inl hs
    · exact .inr ⟨hs, by omega⟩
  have hmono : msBefore o fs ≤ msBefore target fs := by
    rw [← msFrom_zero, ← msFrom_zero]
    exact msFrom_mono hle fs
  rw [demo_ms g data fs rest target h ht hc hms] at hd
  cases hd
  have key : ∃ c, countdownDuration g data = .ok c ∧ c ≤ msToDuration (msBefore target fs) := by
    by_cases hh : Hoonymode g data
    · refine ⟨0, ?_, Nat.zero_le _⟩
      unfold countdownDuration
      rw [isHoonymode_true g hl hh]
      rfl
    · exact ⟨_, countdown_ms g data fs rest o hl hh h ho hco (by omega), msToDuration_mono hmono⟩
  obtain ⟨c, hcd, hle'⟩ := key
  refine ⟨c, hcd, hle', ?_⟩
  unfold matchDurationFromSeeking
  rw [demo_ms g data fs rest target h ht hc hms, hcd]
  simp [R.bind, R.unwrapOr, durationSub, hle']

/-- C37: without a match date print the match lasts as long as the demo. -/
theorem C37_no_matchdate (g : Env) (data : Bytes) (hl : 1280 ≤ data.length) (hn : ¬ Occurs matchdatePrint data) :
    matchDurationFromSeeking g data = demoDuration g data := by
  have hc : (countdownDuration g data).unwrapOr 0 = .ok 0 := by
    by_cases hh : Hoonymode g data
    · unfold countdownDuration
      rw [isHoonymode_true g hl hh]
      rfl
    · rw [(C35_no_countdown g data hl hh).mpr hn]
      rfl
  unfold matchDurationFromSeeking
  rw [hc]
  cases demoDuration g data <;> simp [R.bind, durationSub]

/-- C37: a countdown longer than the demo makes the match duration panic. -/
theorem C37_panic (g : Env) (data : Bytes) (c d : Nat) (hd : demoDuration g data = .ok d)
    (hc : countdownDuration g data = .ok c) (hlt : d < c) : matchDurationFromSeeking g data = .panic := by
  unfold matchDurationFromSeeking
  rw [hd, hc]
  simp only [R.bind, R.unwrapOr, durationSub]
  rw [if_neg (by omega)]

namespace Example

/-- A frame of padding with the given duration. -/
def pad (ms : UInt8) : Frame := ⟨ms, 6, [], List.replicate 1300 7⟩

/-- Countdown of 200 ms, then 100 ms of play, then 50 ms after the end. -/
def playFrames : List Frame := [pad 200, ⟨100, 6, [], matchdatePrint ++ bytes!"2024-01-01 00:00:00 CET\n" ++ [0]⟩,
  all [7], ⟨2, 6, [], [8, 2] ++ matchOver ++ [0]⟩, ⟨50, 6, [], standby⟩]

/-- The print comes after the end of a match. -/
def lateFrames : List Frame := [⟨1, 6, [], matchOver⟩, pad 200, ⟨1, 6, [], matchdatePrint⟩]

end Example

/-- The hypotheses of C35 and C37 are met: the frame with the end-of-match print itself counts, the frame with the match
date counts to the countdown. -/
example : 1280 ≤ (Spec.encode Example.playFrames).length ∧
    Splits (Spec.encode Example.playFrames) Example.playFrames [] ∧ Stops (Spec.encode Example.playFrames).length [] ∧
    FirstAt matchdatePrint (Spec.encode Example.playFrames) 1312 ∧ MeasuredTo (Spec.encode Example.playFrames) 1365 ∧
    msBefore 1312 Example.playFrames = 300 ∧ msBefore 1365 Example.playFrames = 303 ∧
    countdownDuration Example.debug (Spec.encode Example.playFrames) = .ok 300000012 ∧
    demoDuration Example.debug (Spec.encode Example.playFrames) = .ok 303000003 ∧
    matchDurationFromSeeking Example.debug (Spec.encode Example.playFrames) = .ok 2999991 := by
  refine ⟨by decide +kernel, ⟨by simp, by decide +kernel, noFrame_iff.mpr (by simp [Spec.announced])⟩, by decide +kernel,
    by decide +kernel, by decide +kernel, by decide +kernel, by decide +kernel, by decide +kernel, by decide +kernel,
    by decide +kernel⟩

/-- C37, witness: the match date print after the last end-of-match print. -/
theorem C37_witness : matchDurationFromSeeking Example.release (Spec.encode Example.lateFrames) = .panic ∧
    matchDuration Example.release (Spec.encode Example.lateFrames) = .panic := by decide +kernel

/-! ### C38 -/

/-- C38: hoonymode has no countdown and the match lasts as long as the demo. -/
theorem C38_hoonymode (g : Env) (data : Bytes) (hl : 1280 ≤ data.length) (hh : Hoonymode g data) :
    countdownDuration g data = .ok 0 ∧ matchDuration g data = demoDuration g data := by
  have hc : countdownDuration g data = .ok 0 := by
    unfold countdownDuration
    rw [isHoonymode_true g hl hh]
    rfl
  refine ⟨hc, ?_⟩
  unfold matchDuration
  rw [isHoonymode_true g hl hh]
  simp only [R.bind]
  unfold matchDurationFromSeeking
  rw [hc]
  cases demoDuration g data <;> simp [R.bind, R.unwrapOr, durationSub]

/-- A hoonymode demo with stats that record a duration, and with a match date print. -/
def Example.hoonyData : Bytes :=
  Spec.encode [Example.all (bytes!"fullserverinfo \"\\mode\\hoonymode\"" ++ List.replicate 1300 7), Example.all matchdatePrint]

example : 1280 ≤ Example.hoonyData.length ∧ isHoonymode Example.debug Example.hoonyData = .ok true ∧
    countdownDuration Example.debug Example.hoonyData = .ok 0 ∧
    matchDuration Example.debug Example.hoonyData = .ok 2000000 := by decide +kernel

/-! ### C39 -/

theorem key_ascii : Ascii chars!"\"duration\": " := by unfold Ascii; decide
theorem key_bytes : bytes!"\"duration\": " = utf8 chars!"\"duration\": " := by decide

theorem recorded_offsets {s t : Str} (h : RecordedDuration s t) :
    ∃ i j, offsetsBetween (asBytes s) bytes!"\"duration\": " bytes!"," = some (i, j) ∧ strSlice s i j = .ok t := by
  obtain ⟨a, b, e, hf, hne, hc⟩ := h
  have hcomma : bytes!"," = utf8 [','] := by decide
  have hac : Ascii [','] := by unfold Ascii; decide
  refine ⟨(utf8 (a ++ chars!"\"duration\": ")).length, (utf8 (a ++ chars!"\"duration\": ")).length + (utf8 t).length, ?_, ?_⟩
  · rw [C07_offsets_between, key_bytes, hcomma, asBytes_eq]
    refine ⟨utf8 a, utf8 t, utf8 b, ?_, ?_, ?_, ?_, ?_, ?_⟩
    · rw [e]; simp only [utf8_append]
    · intro h0
      exact hne (utf8_inj (h0.trans utf8_nil.symm))
    · rw [e] at hf ⊢
      simp only [List.append_assoc] at hf ⊢
      rw [← List.append_assoc a] at hf ⊢
      exact (firstAt_utf8 key_ascii (by simp)).mpr hf
    · rw [← utf8_append, ← utf8_append]
      refine (firstAt_utf8 hac (by simp)).mpr ?_
      have h := findByte_eq_some_iff (b := ',') (hay := t ++ [','] ++ b) (i := t.length)
      unfold findByte at h
      rw [← find_eq_some_iff, h]
      exact ⟨t, b, by simp, rfl, hc⟩
    · rw [utf8_append]; simp
    · rw [utf8_append]; simp
  · rw [e]
    have := strSlice_mid (a ++ chars!"\"duration\": ") t ([','] ++ b)
    simpa only [List.append_assoc] using this

theorem no_offsets {s : Str} (h : ¬ ∃ t, RecordedDuration s t) :
    offsetsBetween (asBytes s) bytes!"\"duration\": " bytes!"," = none := by
  have hcomma : bytes!"," = utf8 [','] := by decide
  have hac : Ascii [','] := by unfold Ascii; decide
  refine Classical.byContradiction fun hne => h ?_
  obtain ⟨⟨i, j⟩, hij⟩ := Option.ne_none_iff_exists'.mp hne
  rw [C07_offsets_between, key_bytes, hcomma, asBytes_eq] at hij
  obtain ⟨pre, mid, post, e, hm, h1, h2, _, _⟩ := hij
  obtain ⟨u, v, rfl, rfl, hv⟩ := utf8_occurs_ascii key_ascii (by simp) (x := pre) (y := mid ++ (utf8 [','] ++ post)) (by
    rw [e]; simp only [List.append_assoc])
  obtain ⟨t, b, rfl, rfl, rfl⟩ := utf8_occurs_ascii hac (by simp) (x := mid) (y := post) (by rw [hv]; simp)
  refine ⟨t, u, b, by simp, ?_, ?_, ?_⟩
  · exact (firstAt_utf8 key_ascii (by simp)).mp h1
  · rintro rfl; exact hm utf8_nil
  · rw [← utf8_append, ← utf8_append] at h2
    have h3 := (firstAt_utf8 hac (by simp)).mp h2
    have h := findByte_eq_some_iff (b := ',') (hay := t ++ [','] ++ b) (i := t.length)
    unfold findByte at h
    rw [← find_eq_some_iff, h] at h3
    obtain ⟨t', b', e', hl, hn⟩ := h3
    have : t = t' := by
      have := congrArg (List.take t.length) e'
      simpa [← hl] using this
    rw [this]
    exact hn

/-- C39: outside hoonymode the match duration is the recorded one, rounded to the nearest nanosecond, ties to
even. -/
theorem C39_recorded (g : Env) (data : Bytes) (s t : Str) (x : ℚ) (hl : 1280 ≤ data.length) (hh : ¬ Hoonymode g data)
    (hs : ktxstatsString g data = .ok s) (ht : RecordedDuration s t) (hx : g.parseF64 t = some (.finite x))
    (h0 : 0 ≤ x) (h64 : x < 2 ^ 64) :
    ∃ ns, matchDuration g data = .ok ns ∧
      NearestEven (fun x => ∃ n : ℤ, x = n) (fun x => ∃ n : ℤ, x = 2 * n) (x * 10 ^ 9) ns := by
  obtain ⟨i, j, hij, hsl⟩ := recorded_offsets ht
  refine ⟨(roundEven (x * 10 ^ 9)).toNat, ?_, ?_⟩
  · unfold matchDuration
    rw [isHoonymode_false g hl hh]
    simp only [R.bind]
    unfold matchDurationFromKtxstats
    rw [hs]
    simp only [R.bind]
    rw [hij]
    simp only
    rw [hsl]
    simp only [hx, durationFromSecsF64]
    rw [if_neg (by simp only [not_or, not_lt, not_le]; exact ⟨h0, h64⟩)]
    rfl
  · have h1 : 0 ≤ roundEven (x * 10 ^ 9) := roundEven_nonneg (by positivity)
    have h2 : (((roundEven (x * 10 ^ 9)).toNat : ℕ) : ℚ) = (roundEven (x * 10 ^ 9) : ℚ) := by
      exact_mod_cast congrArg (fun z : ℤ => (z : ℚ)) (Int.toNat_of_nonneg h1)
    rw [h2]
    exact roundEven_nearestEven _

/-- C39: a recorded duration that is negative, too large, infinite or not a number panics. -/
theorem C39_panic (g : Env) (data : Bytes) (s t : Str) (x : F64) (hl : 1280 ≤ data.length) (hh : ¬ Hoonymode g data)
    (hs : ktxstatsString g data = .ok s) (ht : RecordedDuration s t) (hx : g.parseF64 t = some x)
    (hbad : ∀ q, x = .finite q → q < 0 ∨ 2 ^ 64 ≤ q) : matchDuration g data = .panic := by
  obtain ⟨i, j, hij, hsl⟩ := recorded_offsets ht
  unfold matchDuration
  rw [isHoonymode_false g hl hh]
  simp only [R.bind]
  unfold matchDurationFromKtxstats
  rw [hs]
  simp only [R.bind]
  rw [hij]
  simp only
  rw [hsl]
  simp only [hx]
  cases x with
  | finite q =>
    simp only [durationFromSecsF64]
    rw [if_pos (hbad q rfl)]
    rfl
  | inf => rfl
  | nan => rfl

/-- C39: without readable stats, without a recorded duration or with one that is no number, the duration is found by
seeking. -/
theorem C39_fallback (g : Env) (data : Bytes) (hl : 1280 ≤ data.length) (hh : ¬ Hoonymode g data)
    (hf : (∃ e, ktxstatsString g data = .err e) ∨
      ∃ s, ktxstatsString g data = .ok s ∧
        ((¬ ∃ t, RecordedDuration s t) ∨ ∃ t, RecordedDuration s t ∧ g.parseF64 t = none)) :
    matchDuration g data = matchDurationFromSeeking g data := by
  have key : ∃ e, matchDurationFromKtxstats g data = .err e := by
    unfold matchDurationFromKtxstats
    rcases hf with ⟨e, he⟩ | ⟨s, hs, hn | ⟨t, ht, hp⟩⟩
    · exact ⟨e, by rw [he]; rfl⟩
    · refine ⟨.durationNotFound, ?_⟩
      rw [hs]
      simp only [R.bind]
      rw [no_offsets hn]
    · obtain ⟨i, j, hij, hsl⟩ := recorded_offsets ht
      refine ⟨.parseFloat, ?_⟩
      rw [hs]
      simp only [R.bind]
      rw [hij]
      simp only
      rw [hsl]
      simp only [hp]
  obtain ⟨e, he⟩ := key
  unfold matchDuration
  rw [isHoonymode_false g hl hh, he]
  rfl

/-- C39: there is at most one recorded duration. -/
theorem C39_unique (s t t' : Str) (h : RecordedDuration s t) (h' : RecordedDuration s t') : t = t' := by
  obtain ⟨i, j, h1, h2⟩ := recorded_offsets h
  obtain ⟨i', j', h1', h2'⟩ := recorded_offsets h'
  rw [h1] at h1'
  cases h1'
  rw [h2] at h2'
  exact R.ok.inj h2'

/-- C39: when reading the stats panics, so does the match duration. -/
theorem C39_stats_panic (g : Env) (data : Bytes) (hl : 1280 ≤ data.length) (hh : ¬ Hoonymode g data)
    (hs : ktxstatsString g data = .panic) : matchDuration g data = .panic := by
  unfold matchDuration
  rw [isHoonymode_false g hl hh]
  simp only [R.bind]
  unfold matchDurationFromKtxstats
  rw [hs]
  rfl

/-- C39: the duration read off the match stats, in every mode: the recorded one, rounded to the nearest nanosecond, ties to
even. -/
theorem C39_stats (g : Env) (data : Bytes) (s t : Str) (hs : ktxstatsString g data = .ok s) (ht : RecordedDuration s t) :
    (∀ x, g.parseF64 t = some (.finite x) → 0 ≤ x → x < 2 ^ 64 → ∃ ns, matchDurationFromKtxstats g data = .ok ns ∧
      NearestEven (fun x => ∃ n : ℤ, x = n) (fun x => ∃ n : ℤ, x = 2 * n) (x * 10 ^ 9) ns) ∧
    (∀ x, g.parseF64 t = some x → (∀ q, x = .finite q → q < 0 ∨ 2 ^ 64 ≤ q) → matchDurationFromKtxstats g data = .panic) ∧
    (g.parseF64 t = none → matchDurationFromKtxstats g data = .err .parseFloat) := by
  obtain ⟨i, j, hij, hsl⟩ := recorded_offsets ht
  have e : matchDurationFromKtxstats g data = match g.parseF64 t with
      | none => .err .parseFloat
      | some x => durationFromSecsF64 x := by
    unfold matchDurationFromKtxstats
    rw [hs]
    simp only [R.bind]
    rw [hij]
    simp only
    rw [hsl]
    rfl
  refine ⟨fun x hx h0 h64 => ⟨(roundEven (x * 10 ^ 9)).toNat, ?_, ?_⟩, fun x hx hbad => ?_, fun hx => by rw [e, hx]⟩
  · rw [e, hx]
    simp only [durationFromSecsF64]
    rw [if_neg (by simp only [not_or, not_lt, not_le]; exact ⟨h0, h64⟩)]
  · have h1 : 0 ≤ roundEven (x * 10 ^ 9) := roundEven_nonneg (by positivity)
    have h2 : (((roundEven (x * 10 ^ 9)).toNat : ℕ) : ℚ) = (roundEven (x * 10 ^ 9) : ℚ) := by
      exact_mod_cast congrArg (fun z : ℤ => (z : ℚ)) (Int.toNat_of_nonneg h1)
    rw [h2]
    exact roundEven_nearestEven _
  · rw [e, hx]
    cases x with
    | finite q =>
      simp only [durationFromSecsF64]
      rw [if_pos (hbad q rfl)]
    | inf => rfl
    | nan => rfl

/-- C39: the errors of the duration read off the match stats. -/
theorem C39_stats_errors (g : Env) (data : Bytes) :
    (∀ e, ktxstatsString g data = .err e → matchDurationFromKtxstats g data = .err e) ∧
    (ktxstatsString g data = .panic → matchDurationFromKtxstats g data = .panic) ∧
    (∀ s, ktxstatsString g data = .ok s → (¬ ∃ t, RecordedDuration s t) →
      matchDurationFromKtxstats g data = .err .durationNotFound) := by
  unfold matchDurationFromKtxstats
  refine ⟨fun e h => by rw [h]; rfl, fun h => by rw [h]; rfl, fun s h hn => ?_⟩
  rw [h]
  simp only [R.bind]
  rw [no_offsets hn]

theorem not_hoonymode (g : Env) {data : Bytes} (hl : 1280 ≤ data.length) (h : isHoonymode g data = .ok false) :
    ¬ Hoonymode g data := by
  intro hh
  rw [isHoonymode_true g hl hh] at h
  cases h

/-- The hypotheses of `C39_recorded` are met. -/
example : 1280 ≤ Example.statsData.length ∧ ¬ Hoonymode Example.debug Example.statsData ∧
    ktxstatsString Example.debug Example.statsData = .ok Example.statsString ∧
    RecordedDuration Example.statsString chars!"1200" ∧ Example.debug.parseF64 chars!"1200" = some (.finite 1200) ∧
    matchDuration Example.debug Example.statsData = .ok 1200000000000 := by
  refine ⟨by decide +kernel, not_hoonymode _ (by decide +kernel) (by decide +kernel), by decide +kernel,
    ⟨chars!"{\"version\": 3, \"date\": \"\", ", chars!" \"map\": \"dm3\"}", by decide, ?_, by decide, by decide⟩, rfl,
    by decide +kernel⟩
  exact find_eq_some_iff.mp (by decide +kernel)

/-- The cases of `C39_stats` and `C39_stats_errors`. -/
example : matchDurationFromKtxstats Example.debug Example.statsData = .ok 1200000000000 ∧
    matchDurationFromKtxstats Example.debug (Spec.encode Example.playFrames) = .err .ktxstatsNotFound := by decide +kernel

namespace Example

/-- A demo whose stats consist of the given text. -/
def statsWith (text : Bytes) : Bytes :=
  Spec.encode [⟨5, 6, [], List.replicate 1300 7⟩] ++ StatsBlock.encode ⟨[1, 6, 0, 0, 0, 0, 0, 0, 0, 0], 0, text⟩

end Example

/-- C39, witness: a negative recorded duration, and stats whose block is too long. -/
theorem C39_witness :
    matchDuration Example.debug (Example.statsWith bytes!"{\"version\": 3, \"duration\": -1, }") = .panic ∧
    matchDuration Example.debug (Example.statsWith bytes!"{\"version\": 3, \"duration\": NaN, }") = .panic ∧
    matchDuration Example.debug (List.replicate 1300 7 ++ le32 100 ++ le16 3 ++ le16 0 ++ statsMarker) = .panic ∧
    ktxstatsString Example.debug (List.replicate 1300 7 ++ le32 100 ++ le16 3 ++ le16 0 ++ statsMarker) = .panic := by decide +kernel

/-- The hypotheses of `C39_fallback` are met: no stats, no recorded duration, no number. -/
example : ktxstatsString Example.debug (Spec.encode Example.playFrames) = .err .ktxstatsNotFound ∧
    matchDuration Example.debug (Spec.encode Example.playFrames) = .ok 2999991 ∧
    ktxstatsString Example.debug (Example.statsWith bytes!"{\"version\": 3}") = .ok chars!"{\"version\": 3}" ∧
    Example.debug.parseF64 chars!"x" = none := by decide +kernel

/-- C36: a tie, resolved to the even significand below. -/
example : msToDuration 16777217 = msToDuration 16777216 := by decide +kernel

/-- C36: a tie, resolved to the even significand above. -/
example : msToDuration 16777219 = msToDuration 16777220 := by decide +kernel

end Mvd
