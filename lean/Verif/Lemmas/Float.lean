import Mathlib.Tactic.Linarith
import Mathlib.Tactic.Positivity
import Mathlib.Tactic.FieldSimp
import Mathlib.Tactic.NormNum
import Verif.Rust.Float

/-! Rounding lemmas. -/

namespace Mvd

theorem roundEven_error (x : ℚ) : |(roundEven x : ℚ) - x| ≤ 1 / 2 := by
  have h1 := Int.floor_le x
  have h2 := Int.lt_floor_add_one x
  rw [abs_le]
  unfold roundEven
  simp only
  split
  · constructor <;> linarith
  · split
    · push_cast; constructor <;> linarith
    · split
      · constructor <;> linarith
      · push_cast; constructor <;> linarith

theorem roundEven_int (n : ℤ) : roundEven (n : ℚ) = n := by
  simp [roundEven]

theorem roundEven_floor_le (x : ℚ) : ⌊x⌋ ≤ roundEven x := by
  unfold roundEven
  simp only
  split
  · exact le_refl _
  · split
    · omega
    · split <;> omega

theorem roundEven_le_floor_add (x : ℚ) : roundEven x ≤ ⌊x⌋ + 1 := by
  unfold roundEven
  simp only
  split
  · omega
  · split
    · omega
    · split <;> omega

theorem roundEven_mono {x y : ℚ} (h : x ≤ y) : roundEven x ≤ roundEven y := by
  have hf := Int.floor_le_floor h
  rcases lt_or_eq_of_le hf with hlt | heq
  · have h1 := roundEven_le_floor_add x
    have h2 := roundEven_floor_le y
    omega
  · unfold roundEven
    simp only
    rw [← heq]
    have hr : x - (⌊x⌋ : ℚ) ≤ y - (⌊x⌋ : ℚ) := by linarith
    generalize hm : ⌊x⌋ = m at *
    by_cases a : x - (m : ℚ) < 1 / 2
    · rw [if_pos a]
      split
      · exact le_refl _
      · split
        · omega
        · split <;> omega
    · rw [if_neg a]
      have b : ¬ y - (m : ℚ) < 1 / 2 := by linarith
      rw [if_neg b]
      by_cases c : 1 / 2 < x - (m : ℚ)
      · rw [if_pos c, if_pos (lt_of_lt_of_le c hr)]
      · rw [if_neg c]
        by_cases d : 1 / 2 < y - (m : ℚ)
        · rw [if_pos d]
          split <;> omega
        · rw [if_neg d]

theorem roundEven_nonneg {x : ℚ} (h : 0 ≤ x) : 0 ≤ roundEven x := by
  have := roundEven_mono h
  have h0 := roundEven_int 0
  simp only [Int.cast_zero] at h0
  omega

/-- The unit in the last place. -/
def ulp (x : ℚ) : ℚ := 2 ^ (Int.log 2 x - 23)

theorem ulp_pos (x : ℚ) : 0 < ulp x := by unfold ulp; exact zpow_pos (by norm_num) _

theorem f32Round_pos {x : ℚ} (h : 0 < x) : f32Round x = roundEven (x / ulp x) * ulp x := by
  unfold f32Round
  rw [if_neg (ne_of_gt h)]
  rfl

theorem log_bounds {x : ℚ} (h : 0 < x) : (2 : ℚ) ^ Int.log 2 x ≤ x ∧ x < (2 : ℚ) ^ (Int.log 2 x + 1) := by
  constructor
  · exact_mod_cast Int.zpow_log_le_self (b := 2) (by norm_num) h
  · exact_mod_cast Int.lt_zpow_succ_log_self (b := 2) (by norm_num) x

theorem ulp_le {x : ℚ} (h : 0 < x) : ulp x ≤ x * (1 / 2 ^ 23) := by
  have := (log_bounds h).1
  have e : ulp x = 2 ^ Int.log 2 x * (1 / 2 ^ 23) := by
    unfold ulp
    rw [zpow_sub₀ (by norm_num)]
    norm_num
    ring
  rw [e]
  have : (0 : ℚ) ≤ 1 / 2 ^ 23 := by positivity
  nlinarith

/-- The relative rounding error is at most 2^-24. -/
theorem f32Round_error {x : ℚ} (h : 0 ≤ x) : |f32Round x - x| ≤ x / 2 ^ 24 := by
  rcases lt_or_eq_of_le h with h | rfl
  · have hu := ulp_pos x
    have he := roundEven_error (x / ulp x)
    have e : f32Round x - x = ((roundEven (x / ulp x) : ℚ) - x / ulp x) * ulp x := by
      rw [f32Round_pos h]
      field_simp
    rw [e, abs_mul, abs_of_pos hu]
    have := ulp_le h
    nlinarith
  · simp [f32Round]

theorem f32Round_nonneg {x : ℚ} (h : 0 ≤ x) : 0 ≤ f32Round x := by
  rcases lt_or_eq_of_le h with h | rfl
  · rw [f32Round_pos h]
    have hu := ulp_pos x
    have : 0 ≤ roundEven (x / ulp x) := roundEven_nonneg (by positivity)
    have : (0 : ℚ) ≤ (roundEven (x / ulp x) : ℚ) := by exact_mod_cast this
    positivity
  · simp [f32Round]

theorem f32Round_exact {x : ℚ} (h : 0 < x) (n : ℤ) (hn : x = n * ulp x) : f32Round x = x := by
  have hu := ulp_pos x
  rw [f32Round_pos h]
  have : x / ulp x = n := by
    rw [div_eq_iff (ne_of_gt hu)]
    exact hn
  rw [this, roundEven_int]
  exact hn.symm

theorem f32Round_le_pow {x : ℚ} (h : 0 < x) : f32Round x ≤ 2 ^ (Int.log 2 x + 1) := by
  have hu := ulp_pos x
  rw [f32Round_pos h]
  have hb := (log_bounds h).2
  have e : (2 : ℚ) ^ (Int.log 2 x + 1) = ((2 ^ 24 : ℤ) : ℚ) * ulp x := by
    have : ((2 ^ 24 : ℤ) : ℚ) = 2 ^ (24 : ℤ) := by norm_num
    unfold ulp
    rw [this, ← zpow_add₀ (by norm_num)]
    congr 1
    ring
  have hle : x / ulp x ≤ ((2 ^ 24 : ℤ) : ℚ) := by
    rw [div_le_iff₀ hu, ← e]
    exact le_of_lt hb
  have := roundEven_mono hle
  rw [roundEven_int] at this
  rw [e]
  have : (roundEven (x / ulp x) : ℚ) ≤ ((2 ^ 24 : ℤ) : ℚ) := by exact_mod_cast this
  nlinarith

theorem pow_le_f32Round {x : ℚ} (h : 0 < x) : 2 ^ Int.log 2 x ≤ f32Round x := by
  have hu := ulp_pos x
  rw [f32Round_pos h]
  have hb := (log_bounds h).1
  have e : (2 : ℚ) ^ (Int.log 2 x) = ((2 ^ 23 : ℤ) : ℚ) * ulp x := by
    have : ((2 ^ 23 : ℤ) : ℚ) = 2 ^ (23 : ℤ) := by norm_num
    unfold ulp
    rw [this, ← zpow_add₀ (by norm_num)]
    congr 1
    ring
  have hle : ((2 ^ 23 : ℤ) : ℚ) ≤ x / ulp x := by
    rw [le_div_iff₀ hu, ← e]
    exact hb
  have := roundEven_mono hle
  rw [roundEven_int] at this
  rw [e]
  have : ((2 ^ 23 : ℤ) : ℚ) ≤ (roundEven (x / ulp x) : ℚ) := by exact_mod_cast this
  nlinarith

theorem f32Round_mono {x y : ℚ} (h0 : 0 ≤ x) (h : x ≤ y) : f32Round x ≤ f32Round y := by
  rcases lt_or_eq_of_le h0 with h0 | rfl
  · have hy := lt_of_lt_of_le h0 h
    have hl : Int.log 2 x ≤ Int.log 2 y := Int.log_mono_right h0 h
    rcases lt_or_eq_of_le hl with hlt | heq
    · refine le_trans (f32Round_le_pow h0) (le_trans ?_ (pow_le_f32Round hy))
      exact zpow_le_zpow_right₀ (by norm_num) (by omega)
    · rw [f32Round_pos h0, f32Round_pos hy]
      have eu : ulp x = ulp y := by unfold ulp; rw [heq]
      rw [eu]
      have hu := ulp_pos y
      have : roundEven (x / ulp y) ≤ roundEven (y / ulp y) := roundEven_mono (by
        rw [div_le_div_iff_of_pos_right hu]; exact h)
      have : (roundEven (x / ulp y) : ℚ) ≤ (roundEven (y / ulp y) : ℚ) := by exact_mod_cast this
      nlinarith
  · have := f32Round_nonneg h
    simpa [f32Round] using this

/-- Integers up to 2^24 are represented exactly. -/
theorem natAsF32_exact {n : Nat} (h : n ≤ 2 ^ 24) : natAsF32 n = n := by
  unfold natAsF32
  rcases Nat.eq_zero_or_pos n with rfl | hpos
  · simp [f32Round]
  · have hx : (0 : ℚ) < n := by exact_mod_cast hpos
    have hb := log_bounds hx
    have hlow : 0 ≤ Int.log 2 (n : ℚ) := by
      rw [← Int.log_one_right 2 (R := ℚ)]
      exact Int.log_mono_right (by norm_num) (by exact_mod_cast hpos)
    obtain ⟨k, hk⟩ := Int.eq_ofNat_of_zero_le hlow
    by_cases h23 : k ≤ 23
    · refine f32Round_exact hx (n * 2 ^ (23 - k)) ?_
      unfold ulp
      rw [hk]
      push_cast
      rw [mul_assoc, ← zpow_natCast, ← zpow_add₀ (by norm_num)]
      have : ((23 - k : ℕ) : ℤ) + ((k : ℤ) - 23) = 0 := by omega
      rw [this]
      simp
    · have hge : (2 : ℚ) ^ 24 ≤ n := by
        refine le_trans ?_ hb.1
        rw [hk]
        rw [show (2 : ℚ) ^ 24 = (2 : ℚ) ^ ((24 : ℕ) : ℤ) by rw [zpow_natCast]]
        exact zpow_le_zpow_right₀ (by norm_num) (by omega)
      have hn : n = 2 ^ 24 := by
        have : (2 ^ 24 : ℕ) ≤ n := by exact_mod_cast hge
        omega
      have hk24 : k = 24 := by
        have h1 := hb.1
        rw [hk, hn] at h1
        by_contra hne
        have : (2 : ℚ) ^ 25 ≤ 2 ^ ((k : ℕ) : ℤ) := by
          rw [show (2 : ℚ) ^ 25 = (2 : ℚ) ^ ((25 : ℕ) : ℤ) by rw [zpow_natCast]]
          exact zpow_le_zpow_right₀ (by norm_num) (by omega)
        push_cast at h1
        norm_num at h1 this
        linarith
      refine f32Round_exact hx (2 ^ 23) ?_
      unfold ulp
      rw [hk, hk24, hn]
      norm_num

theorem natAsF32_large {n : Nat} (h : 2 ^ 24 ≤ n) : (2 ^ 24 : ℚ) ≤ natAsF32 n := by
  have h1 := natAsF32_exact (n := 2 ^ 24) (le_refl _)
  unfold natAsF32 at h1 ⊢
  have h2 := f32Round_mono (x := ((2 ^ 24 : ℕ) : ℚ)) (y := n) (by positivity) (by exact_mod_cast h)
  rw [h1] at h2
  push_cast at h2
  exact h2

/-- Division of a number below 2^24 by an integer, truncated. -/
theorem f32_div_floor {a b : Nat} (ha : a < 2 ^ 16) (hb : 0 < b) :
    f32AsU32 (f32Div (natAsF32 a) (natAsF32 b)) = a / b := by
  unfold f32AsU32
  have key : ⌊f32Div (natAsF32 a) (natAsF32 b)⌋ = ((a / b : ℕ) : ℤ) := by
    rw [natAsF32_exact (n := a) (by omega)]
    unfold f32Div
    by_cases hb' : b ≤ 2 ^ 24
    · rw [natAsF32_exact hb']
      have hbq : (0 : ℚ) < b := by exact_mod_cast hb
      have haq : (0 : ℚ) ≤ a := by positivity
      have ha24 : (a : ℚ) < 2 ^ 16 := by exact_mod_cast ha
      have hdiv := Nat.div_add_mod a b
      have hmod := Nat.mod_lt a hb
      have hle : ((a / b : ℕ) : ℚ) ≤ (a : ℚ) / b := by
        rw [le_div_iff₀ hbq]
        have : a / b * b ≤ a := Nat.div_mul_le_self a b
        exact_mod_cast this
      have hlow : ((a / b : ℕ) : ℚ) ≤ f32Round ((a : ℚ) / b) := by
        have h1 := f32Round_mono (by positivity) hle
        have h2 : f32Round ((a / b : ℕ) : ℚ) = ((a / b : ℕ) : ℚ) :=
          natAsF32_exact (by have := Nat.div_le_self a b; omega)
        rw [h2] at h1
        exact h1
      have hq : (0 : ℚ) ≤ (a : ℚ) / b := by positivity
      have herr := (abs_le.mp (f32Round_error hq)).2
      have hup : f32Round ((a : ℚ) / b) < ((a / b : ℕ) : ℚ) + 1 := by
        have h1 : f32Round ((a : ℚ) / b) ≤ ((a : ℚ) / b) * (1 + 1 / 2 ^ 24) := by
          have : ((a : ℚ) / b) * (1 + 1 / 2 ^ 24) = (a : ℚ) / b + (a : ℚ) / b / 2 ^ 24 := by ring
          rw [this]
          linarith
        refine lt_of_le_of_lt h1 ?_
        rw [div_mul_eq_mul_div, div_lt_iff₀ hbq]
        have h2 : a + 1 ≤ (a / b + 1) * b := by
          have : (a / b + 1) * b = b * (a / b) + b := by ring
          rw [this]
          omega
        have h3 : (a : ℚ) + 1 ≤ (((a / b : ℕ) : ℚ) + 1) * b := by exact_mod_cast h2
        have h4 : (a : ℚ) * (1 / 2 ^ 24) < 1 := by
          rw [mul_one_div, div_lt_one (by norm_num)]
          have : (2 : ℚ) ^ 16 < 2 ^ 24 := by norm_num
          linarith
        linarith
      rw [Int.floor_eq_iff]
      constructor
      · exact_mod_cast hlow
      · exact_mod_cast hup
    · have hlarge := natAsF32_large (n := b) (by omega)
      have hdiv0 : a / b = 0 := Nat.div_eq_of_lt (by omega)
      rw [hdiv0]
      have haq : (0 : ℚ) ≤ a := by positivity
      have ha24 : (a : ℚ) < 2 ^ 16 := by exact_mod_cast ha
      have hbpos : (0 : ℚ) < natAsF32 b := lt_of_lt_of_le (by norm_num) hlarge
      have hq : (0 : ℚ) ≤ (a : ℚ) / natAsF32 b := by positivity
      have hq1 : (a : ℚ) / natAsF32 b ≤ 1 / 2 := by
        rw [div_le_iff₀ hbpos]
        have : (2 : ℚ) ^ 16 ≤ 1 / 2 * 2 ^ 24 := by norm_num
        linarith
      have herr := (abs_le.mp (f32Round_error hq)).2
      have h0 := f32Round_nonneg hq
      rw [Int.floor_eq_iff]
      constructor
      · simpa using h0
      · have : (a : ℚ) / natAsF32 b / 2 ^ 24 ≤ 1 / 2 / 2 ^ 24 := by
          apply div_le_div_of_nonneg_right hq1 (by norm_num)
        have h3 : (1 : ℚ) / 2 / 2 ^ 24 < 1 / 2 := by norm_num
        simp only [Nat.cast_zero, Int.cast_zero, zero_add]
        linarith
  rw [key]
  have h1 : a / b ≤ a := Nat.div_le_self a b
  simp only [Int.toNat_natCast]
  omega

end Mvd
