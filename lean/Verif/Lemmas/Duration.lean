import Verif.Lemmas.Walk
import Verif.Lemmas.Search
import Verif.Lemmas.Float
import Verif.Model.Duration
import Verif.Spec.Duration

/-! Durations over a sequence of frames. -/

namespace Mvd
open Spec

/-- The loop body. -/
def msLoopBody (g : Env) (target : Nat) (total : Nat) (info : FrameInfo) : R (Step Nat) :=
  if info.index ≥ target then .ok (.brk total)
  else (addU g.checks 32 total info.duration).bind fun total => .ok (.next total)

theorem totalMs_def (g : Env) (data : Bytes) (target : Nat) :
    totalMs g data target = frameLoopFrom g data 0 0 (msLoopBody g target) := rfl

/-- The loop body on a frame. -/
def msFrame (g : Env) (target : Nat) (total i : Nat) (f : Frame) : R (Step Nat) :=
  if i ≥ target then .ok (.brk total)
  else (addU g.checks 32 total f.duration.toNat).bind fun total => .ok (.next total)

theorem ms_describes (g : Env) (data : Bytes) (target : Nat) : Describes data (msLoopBody g target) (msFrame g target) := by
  intro s pre f post h
  rfl

/-- Milliseconds of the frames that start before an offset, the first frame starting at `i`. -/
def msFrom (i target : Nat) (fs : List Frame) : Nat :=
  (((starts i fs).filter fun p => p.1 < target).map fun p => p.2.duration.toNat).sum

theorem msFrom_zero (target : Nat) (fs : List Frame) : msFrom 0 target fs = msBefore target fs := rfl

theorem starts_ge : ∀ (i : Nat) (fs : List Frame), ∀ p ∈ starts i fs, i ≤ p.1
  | i, [], p, h => by simp [starts] at h
  | i, f :: fs, p, h => by
    simp only [starts, List.mem_cons] at h
    rcases h with rfl | h
    · exact Nat.le_refl _
    · have := starts_ge _ fs p h
      omega

theorem msFrom_after {i target : Nat} (h : target ≤ i) (fs : List Frame) : msFrom i target fs = 0 := by
  unfold msFrom
  rw [List.filter_eq_nil_iff.mpr]
  · rfl
  · intro p hp
    have := starts_ge i fs p hp
    simp
    omega

theorem msFrom_cons {i target : Nat} (h : i < target) (f : Frame) (fs : List Frame) :
    msFrom i target (f :: fs) = f.duration.toNat + msFrom (i + f.encode.length) target fs := by
  simp [msFrom, starts, h]

theorem msFrom_mono {i a b : Nat} (h : a ≤ b) : ∀ (fs : List Frame), msFrom i a fs ≤ msFrom i b fs := by
  intro fs
  induction fs generalizing i with
  | nil => exact Nat.le_refl _
  | cons f fs ih =>
    by_cases ha : i < a
    · rw [msFrom_cons ha, msFrom_cons (by omega)]
      have := @ih (i + f.encode.length)
      omega
    · rw [msFrom_after (by omega)]
      omega

/-- The sum as a 32-bit number. -/
def sumMs (g : Env) (n : Nat) : R Nat := if n < 2 ^ 32 then .ok n else if g.checks then .panic else .ok (n % 2 ^ 32)

theorem sumMs_wrap {g : Env} (h : g.checks = false) (n : Nat) : sumMs g n = .ok (n % 2 ^ 32) := by
  unfold sumMs
  split
  · rename_i hn; rw [Nat.mod_eq_of_lt hn]
  · simp [h]

theorem addU32_eq (g : Env) (a b : Nat) : addU g.checks 32 a b = sumMs g (a + b) := rfl

theorem runFrames_ms (g : Env) (target : Nat) : ∀ (fs : List Frame) (i total : Nat), total < 2 ^ 32 →
    (∃ v, sumMs g (total + msFrom i target fs) = .ok v ∧
      (runFrames (msFrame g target) i total fs = .ok (.next v) ∨
       runFrames (msFrame g target) i total fs = .ok (.brk v) ∧ target ≤ i + (Spec.encode fs).length)) ∨
    (sumMs g (total + msFrom i target fs) = .panic ∧ runFrames (msFrame g target) i total fs = .panic)
  | [], i, total, h => by
    refine .inl ⟨total, ?_, .inl rfl⟩
    exact if_pos h
  | f :: fs, i, total, h => by
    by_cases hi : i < target
    · have hlen : i + f.encode.length + (Spec.encode fs).length = i + (Spec.encode (f :: fs)).length := by
        simp [Spec.encode, Nat.add_assoc]
      rw [msFrom_cons hi]
      have hf : msFrame g target total i f = (sumMs g (total + f.duration.toNat)).bind fun total => .ok (.next total) := by
        unfold msFrame
        rw [if_neg (by omega), addU32_eq]
      simp only [runFrames, hf]
      by_cases hlt : total + f.duration.toNat < 2 ^ 32
      · have e : sumMs g (total + f.duration.toNat) = .ok (total + f.duration.toNat) := if_pos hlt
        rw [e]
        simp only [R.bind]
        have := runFrames_ms g target fs (i + f.encode.length) _ hlt
        rw [hlen, Nat.add_assoc] at this
        exact this
      · cases hc : g.checks with
        | true =>
          refine .inr ⟨?_, ?_⟩
          · unfold sumMs
            rw [if_neg (by omega), hc]
            rfl
          · have e : sumMs g (total + f.duration.toNat) = .panic := by unfold sumMs; rw [if_neg hlt, hc]; rfl
            rw [e]
            rfl
        | false =>
          have := runFrames_ms g target fs (i + f.encode.length) ((total + f.duration.toNat) % 2 ^ 32)
            (Nat.mod_lt _ (by decide))
          rw [hlen] at this
          rw [sumMs_wrap hc]
          simp only [R.bind]
          rw [sumMs_wrap hc] at this ⊢
          have e : ((total + f.duration.toNat) % 2 ^ 32 + msFrom (i + f.encode.length) target fs) % 2 ^ 32 =
              (total + (f.duration.toNat + msFrom (i + f.encode.length) target fs)) % 2 ^ 32 := by omega
          rw [e] at this
          exact this
    · rw [msFrom_after (by omega)]
      refine .inl ⟨total, if_pos h, .inr ⟨?_, by omega⟩⟩
      simp [runFrames, msFrame, show i ≥ target by omega, R.bind]

theorem totalMs_eq (g : Env) {data : Bytes} {fs : List Frame} {rest : Bytes} {target : Nat}
    (h : Splits data fs rest) (hc : CompleteUpTo data fs rest target) :
    totalMs g data target = sumMs g (msBefore target fs) := by
  rw [totalMs_def]
  have key := runFrames_ms g target fs 0 0 (by decide)
  rw [Nat.zero_add, msFrom_zero, Nat.zero_add] at key
  rcases hc with hs | ⟨hs, ht⟩
  · have e := walk_stops g (ms_describes g data target) h.2.1 (pre := []) (by simpa using h.1) hs 0
    simp only [List.length_nil] at e
    rw [e]
    rcases key with ⟨v, hv, hr | ⟨hr, _⟩⟩ | ⟨hv, hr⟩ <;> rw [hv, hr] <;> rfl
  · obtain ⟨d, fl, hh, b, _, _, _, _, e⟩ :=
      walk_overruns g (ms_describes g data target) h.2.1 (pre := []) (by simpa using h.1) hs 0
    simp only [List.length_nil, Nat.zero_add] at e
    rw [e]
    rcases key with ⟨v, hv, hr | ⟨hr, _⟩⟩ | ⟨hv, hr⟩ <;> rw [hv, hr] <;> simp only [R.bind]
    rw [msLoopBody, if_pos (by simpa [infoAt] using ht)]

theorem totalMs_panic (g : Env) {data : Bytes} {fs : List Frame} {rest : Bytes} {target : Nat}
    (h : Splits data fs rest) (hs : Overruns data.length rest) (ht : (Spec.encode fs).length < target) :
    totalMs g data target = .panic := by
  rw [totalMs_def]
  have key := runFrames_ms g target fs 0 0 (by decide)
  rw [Nat.zero_add, msFrom_zero, Nat.zero_add] at key
  obtain ⟨d, fl, hh, b, _, _, _, _, e⟩ :=
    walk_overruns g (ms_describes g data target) h.2.1 (pre := []) (by simpa using h.1) hs 0
  simp only [List.length_nil, Nat.zero_add] at e
  rw [e]
  rcases key with ⟨v, hv, hr | ⟨hr, _⟩⟩ | ⟨hv, hr⟩
  · rw [hr]
    simp only [R.bind]
    rw [msLoopBody, if_neg (by simpa [infoAt] using ht)]
    have : ∀ a b, (∃ n, addU g.checks 32 a b = .ok n) ∨ addU g.checks 32 a b = .panic := by
      intro a b
      unfold addU
      split
      · exact .inl ⟨_, rfl⟩
      · split
        · exact .inr rfl
        · exact .inl ⟨_, rfl⟩
    rcases this v (infoAt (Spec.encode fs).length d fl hh b).duration with ⟨n, hn⟩ | hn <;> rw [hn] <;> rfl
  · omega
  · rw [hr]; rfl

/-! ### Markers -/

theorem matchOver_eq : NEEDLE_MATCH_OVER = matchOver := by decide
theorem standby_eq : NEEDLE_STANDBY = standby := by decide
theorem matchdatePrint_eq : MATCHDATE_NEEDLE = matchdatePrint := by decide

theorem measuredTo_iff {data : Bytes} {target : Nat} : MeasuredTo data target ↔
    (rfind NEEDLE_MATCH_OVER data).getD ((rfind NEEDLE_STANDBY data).getD data.length) = target := by
  rw [matchOver_eq, standby_eq]
  unfold MeasuredTo
  rw [← rfind_eq_none_iff, ← rfind_eq_none_iff, ← rfind_eq_some_iff, ← rfind_eq_some_iff]
  cases rfind matchOver data with
  | some i => simp
  | none =>
    cases rfind standby data with
    | some i => simp
    | none => simp [eq_comm]

theorem demoDuration_eq (g : Env) {data : Bytes} {target : Nat} (h : MeasuredTo data target) :
    demoDuration g data = (totalMs g data target).bind fun ms => .ok (msToDuration ms) := by
  unfold demoDuration
  rw [measuredTo_iff.mp h]
  rfl

/-! ### Conversion -/

theorem roundEven_nearest (x : ℚ) (n : ℤ) : |(roundEven x : ℚ) - x| ≤ |(n : ℚ) - x| := by
  have h1 := Int.floor_le x
  have h2 := Int.lt_floor_add_one x
  have hn : n ≤ ⌊x⌋ ∨ ⌊x⌋ + 1 ≤ n := by omega
  have hq : (n : ℚ) ≤ ⌊x⌋ ∨ (⌊x⌋ : ℚ) + 1 ≤ n := by
    rcases hn with h | h
    · exact .inl (by exact_mod_cast h)
    · exact .inr (by exact_mod_cast h)
  have key : x - ⌊x⌋ ≤ |(n : ℚ) - x| ∨ ⌊x⌋ + 1 - x ≤ |(n : ℚ) - x| := by
    rcases hq with h | h
    · left; rw [abs_sub_comm]; exact le_trans (by linarith) (le_abs_self _)
    · right; exact le_trans (by linarith) (le_abs_self _)
  unfold roundEven
  simp only
  split
  · rw [abs_sub_comm, abs_of_nonneg (by linarith)]
    rcases key with h | h <;> linarith
  · split
    · push_cast; rw [abs_of_nonneg (by linarith)]
      rcases key with h | h <;> linarith
    · split
      · rw [abs_sub_comm, abs_of_nonneg (by linarith)]
        rcases key with h | h <;> linarith
      · push_cast; rw [abs_of_nonneg (by linarith)]
        rcases key with h | h <;> linarith

/-- A sharper bound on the relative rounding error. -/
theorem f32Round_error' {x : ℚ} (h : 0 ≤ x) : |f32Round x - x| ≤ x / (2 ^ 24 + 1) := by
  rcases lt_or_eq_of_le h with h | rfl
  · have hu := ulp_pos x
    have e : f32Round x - x = ((roundEven (x / ulp x) : ℚ) - x / ulp x) * ulp x := by
      rw [f32Round_pos h]
      field_simp
    have he := roundEven_error (x / ulp x)
    have hn := roundEven_nearest (x / ulp x) (2 ^ 23)
    have e2 : (2 : ℚ) ^ (Int.log 2 x) = ((2 ^ 23 : ℤ) : ℚ) * ulp x := by
      have : ((2 ^ 23 : ℤ) : ℚ) = 2 ^ (23 : ℤ) := by norm_num
      unfold ulp
      rw [this, ← zpow_add₀ (by norm_num)]
      congr 1
      ring
    have hb := (log_bounds h).1
    rw [e2] at hb
    have c23 : ((2 ^ 23 : ℤ) : ℚ) = 8388608 := by norm_num
    rw [c23] at hb hn
    rw [e, abs_mul, abs_of_pos hu]
    have h0 : (8388608 : ℚ) ≤ x / ulp x := by rw [le_div_iff₀ hu]; linarith
    rw [abs_of_nonpos (a := (8388608 : ℚ) - x / ulp x) (by linarith)] at hn
    have key : |(roundEven (x / ulp x) : ℚ) - x / ulp x| ≤ (x / ulp x) / (2 ^ 24 + 1) := by
      rw [le_div_iff₀ (by norm_num)]
      by_cases hc : x / ulp x ≤ 8388608 + 1 / 2
      · nlinarith
      · nlinarith
    have : x / (2 ^ 24 + 1) = (x / ulp x) / (2 ^ 24 + 1) * ulp x := by field_simp
    rw [this]
    exact mul_le_mul_of_nonneg_right key (le_of_lt hu)
  · simp [f32Round]

theorem msToDuration_mono {a b : Nat} (h : a ≤ b) : msToDuration a ≤ msToDuration b := by
  unfold msToDuration durationFromSecsF32 f32Div natAsF32
  apply Int.toNat_le_toNat
  apply roundEven_mono
  have hq : (a : ℚ) ≤ b := by exact_mod_cast h
  have h1 := f32Round_mono (by positivity) hq
  have h2 := f32Round_mono (x := f32Round a / 1000) (y := f32Round b / 1000)
    (div_nonneg (f32Round_nonneg (by positivity)) (by norm_num)) (by linarith)
  linarith

theorem msToDuration_round (ms : Nat) :
    |(msToDuration ms : ℚ) - f32Div (natAsF32 ms) 1000 * 10 ^ 9| ≤ 1 / 2 := by
  have h0 : 0 ≤ f32Div (natAsF32 ms) 1000 :=
    f32Round_nonneg (div_nonneg (f32Round_nonneg (by positivity)) (by norm_num))
  have h1 : 0 ≤ roundEven (f32Div (natAsF32 ms) 1000 * 10 ^ 9) := roundEven_nonneg (by positivity)
  have h2 : ((msToDuration ms : ℕ) : ℚ) = (roundEven (f32Div (natAsF32 ms) 1000 * 10 ^ 9) : ℚ) := by
    unfold msToDuration durationFromSecsF32
    have : (((roundEven (f32Div (natAsF32 ms) 1000 * 10 ^ 9)).toNat : ℕ) : ℤ) =
      roundEven (f32Div (natAsF32 ms) 1000 * 10 ^ 9) := Int.toNat_of_nonneg h1
    exact_mod_cast congrArg (fun z : ℤ => (z : ℚ)) this
  rw [h2]
  exact roundEven_error _

theorem msToDuration_error (ms : Nat) :
    |(msToDuration ms : ℚ) - ms * 10 ^ 6| ≤ (ms : ℚ) * 10 ^ 6 / 2 ^ 23 + 1 / 2 := by
  have hm : (0 : ℚ) ≤ ms := by positivity
  have h0 := msToDuration_round ms
  have h1 := f32Round_error' hm
  have hn := f32Round_nonneg hm
  have h2 := f32Round_error' (x := f32Round (ms : ℚ) / 1000) (div_nonneg hn (by norm_num))
  unfold f32Div natAsF32 at h0
  rw [abs_le] at *
  obtain ⟨h0a, h0b⟩ := h0
  obtain ⟨h1a, h1b⟩ := h1
  obtain ⟨h2a, h2b⟩ := h2
  norm_num at *
  constructor <;> linarith

theorem msToDuration_error_small (ms : Nat) (h : ms ≤ 2 ^ 24) :
    |(msToDuration ms : ℚ) - ms * 10 ^ 6| ≤ (ms : ℚ) * 10 ^ 6 / 2 ^ 24 + 1 / 2 := by
  have hm : (0 : ℚ) ≤ ms := by positivity
  have h0 := msToDuration_round ms
  have h1 := natAsF32_exact h
  have h2 := f32Round_error (x := (ms : ℚ) / 1000) (by positivity)
  rw [h1] at h0
  unfold f32Div at h0
  rw [abs_le] at *
  obtain ⟨h0a, h0b⟩ := h0
  obtain ⟨h2a, h2b⟩ := h2
  norm_num at *
  constructor <;> linarith

/-- The result of rounding is a binary32 number. -/
theorem f32Round_single {x : ℚ} (h : 0 ≤ x) : Single (f32Round x) := by
  rcases lt_or_eq_of_le h with h | rfl
  · have hle := f32Round_le_pow h
    have hu := ulp_pos x
    have h0 : 0 ≤ roundEven (x / ulp x) := roundEven_nonneg (by positivity)
    obtain ⟨m, hm⟩ := Int.eq_ofNat_of_zero_le h0
    have e : (2 : ℚ) ^ (Int.log 2 x + 1) = 2 ^ 24 * ulp x := by
      have : (2 ^ 24 : ℚ) = 2 ^ (24 : ℤ) := by norm_num
      unfold ulp
      rw [this, ← zpow_add₀ (by norm_num)]
      congr 1
      ring
    rw [f32Round_pos h, hm] at hle ⊢
    rw [e] at hle
    have hmle : m ≤ 2 ^ 24 := by
      have := le_of_mul_le_mul_right hle hu
      exact_mod_cast this
    rcases Nat.lt_or_eq_of_le hmle with hlt | heq
    · exact ⟨m, Int.log 2 x - 23, hlt, by simp [ulp]⟩
    · refine ⟨1, Int.log 2 x + 1, by norm_num, ?_⟩
      rw [e, heq]
      push_cast
      ring
  · exact ⟨0, 0, by norm_num, by simp [f32Round]⟩

/-- No binary32 number is closer. -/
theorem f32Round_nearest {x : ℚ} (h : 0 ≤ x) {y : ℚ} (hy : Single y) : |f32Round x - x| ≤ |y - x| := by
  rcases lt_or_eq_of_le h with h | rfl
  · obtain ⟨m, e, hm, rfl⟩ := hy
    have hu := ulp_pos x
    have hf : f32Round x - x = ((roundEven (x / ulp x) : ℚ) - x / ulp x) * ulp x := by
      rw [f32Round_pos h]
      field_simp
    have hb := log_bounds h
    by_cases hle : Int.log 2 x - 23 ≤ e
    · obtain ⟨k, hk⟩ := Int.eq_ofNat_of_zero_le (show 0 ≤ e - (Int.log 2 x - 23) by omega)
      have hek : (2 : ℚ) ^ e = ((2 ^ k : ℤ) : ℚ) * ulp x := by
        unfold ulp
        push_cast
        rw [← zpow_natCast, ← zpow_add₀ (by norm_num)]
        congr 1
        have : ((k : ℕ) : ℤ) = e - (Int.log 2 x - 23) := by rw [hk]
        omega
      have hn := roundEven_nearest (x / ulp x) (m * 2 ^ k)
      have hy : (m : ℚ) * 2 ^ e - x = (((m * 2 ^ k : ℤ) : ℚ) - x / ulp x) * ulp x := by
        rw [hek]
        push_cast
        field_simp
      rw [hf, hy, abs_mul, abs_mul]
      exact mul_le_mul_of_nonneg_right hn (abs_nonneg _)
    · have hlt : (m : ℚ) * 2 ^ e ≤ 2 ^ (Int.log 2 x) := by
        have h1 : (2 : ℚ) ^ e ≤ 2 ^ (Int.log 2 x - 24) := zpow_le_zpow_right₀ (by norm_num) (by omega)
        have h2 : (m : ℚ) ≤ 2 ^ 24 := by exact_mod_cast le_of_lt hm
        have h3 : (2 : ℚ) ^ (Int.log 2 x) = 2 ^ 24 * 2 ^ (Int.log 2 x - 24) := by
          have : (2 ^ 24 : ℚ) = 2 ^ (24 : ℤ) := by norm_num
          rw [this, ← zpow_add₀ (by norm_num)]
          congr 1
          ring
        rw [h3]
        have h4 : (0 : ℚ) < 2 ^ e := zpow_pos (by norm_num) _
        have h5 : (0 : ℚ) ≤ m := by positivity
        calc (m : ℚ) * 2 ^ e ≤ 2 ^ 24 * 2 ^ e := mul_le_mul_of_nonneg_right h2 (le_of_lt h4)
          _ ≤ _ := mul_le_mul_of_nonneg_left h1 (by norm_num)
      have hn := roundEven_nearest (x / ulp x) (2 ^ 23)
      have e2 : (2 : ℚ) ^ (Int.log 2 x) = ((2 ^ 23 : ℤ) : ℚ) * ulp x := by
        have : ((2 ^ 23 : ℤ) : ℚ) = 2 ^ (23 : ℤ) := by norm_num
        unfold ulp
        rw [this, ← zpow_add₀ (by norm_num)]
        congr 1
        ring
      have hx : |f32Round x - x| ≤ |2 ^ (Int.log 2 x) - x| := by
        have : (2 : ℚ) ^ (Int.log 2 x) - x = (((2 ^ 23 : ℤ) : ℚ) - x / ulp x) * ulp x := by
          rw [e2]
          field_simp
        rw [hf, this, abs_mul, abs_mul]
        exact mul_le_mul_of_nonneg_right hn (abs_nonneg _)
      refine le_trans hx ?_
      rw [abs_of_nonpos (by linarith), abs_of_nonpos (by linarith)]
      linarith
  · simp [f32Round]

end Mvd
