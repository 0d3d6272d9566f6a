import Verif.Rust.Ieee
import Verif.Lemmas.Float
import Verif.Lemmas.Rounding

/-! Floating-point computations stay in range (C93). -/

namespace Mvd
open Spec

theorem ieee_normal {x : ℚ} (h1 : 2 ^ (-126 : ℤ) ≤ x) (h2 : x < 2 ^ (127 : ℤ)) : f32RoundIeee x = some (f32Round x) := by
  have hx : 0 < x := lt_of_lt_of_le (zpow_pos (by norm_num) _) h1
  have hl : -126 ≤ Int.log 2 x := (Int.zpow_le_iff_le_log (b := 2) (by norm_num) hx).mp (by exact_mod_cast h1)
  have hu : Int.log 2 x < 127 := (Int.lt_zpow_iff_log_lt (b := 2) (by norm_num) hx).mp (by exact_mod_cast h2)
  unfold f32RoundIeee
  rw [if_neg (ne_of_gt hx), max_eq_left hl]
  have e : (roundEven (x / 2 ^ (Int.log 2 x - 23)) * 2 ^ (Int.log 2 x - 23) : ℚ) = f32Round x := (f32Round_pos hx).symm
  simp only [e]
  rw [if_pos]
  have h3 := f32Round_le_pow hx
  have h4 : (2 : ℚ) ^ (Int.log 2 x + 1) ≤ 2 ^ (127 : ℤ) := zpow_le_zpow_right₀ (by norm_num) (by omega)
  have h5 : (2 : ℚ) ^ (127 : ℤ) < 2 ^ (128 : ℕ) := by norm_num
  linarith

theorem natAsF32_bounds {n : Nat} (h0 : 0 < n) (h : n < 2 ^ 64) : 1 ≤ natAsF32 n ∧ natAsF32 n ≤ 2 ^ 64 := by
  have h1 : natAsF32 1 = 1 := by rw [natAsF32_exact (by norm_num)]; norm_num
  unfold natAsF32 at h1 ⊢
  constructor
  · rw [← h1]
    exact f32Round_mono (by norm_num) (by exact_mod_cast h0)
  · have hn : (0 : ℚ) < n := by exact_mod_cast h0
    refine le_trans (f32Round_le_pow hn) ?_
    have hu : Int.log 2 (n : ℚ) < 64 :=
      (Int.lt_zpow_iff_log_lt (b := 2) (by norm_num) hn).mp (by exact_mod_cast h)
    have : (2 : ℚ) ^ (Int.log 2 (n : ℚ) + 1) ≤ 2 ^ (64 : ℤ) := zpow_le_zpow_right₀ (by norm_num) (by omega)
    exact_mod_cast this

/-- C93: converting an unsigned 64-bit number to `f32` gives a normal number. -/
theorem C93_cast {n : Nat} (h : n < 2 ^ 64) : f32RoundIeee n = some (natAsF32 n) := by
  rcases Nat.eq_zero_or_pos n with rfl | h0
  · simp [f32RoundIeee, natAsF32, f32Round]
  · refine ieee_normal ?_ ?_
    · have : (1 : ℚ) ≤ n := by exact_mod_cast h0
      refine le_trans ?_ this
      norm_num
    · have : (n : ℚ) < 2 ^ 64 := by exact_mod_cast h
      refine lt_trans this ?_
      norm_num

/-- C93: so does dividing two such numbers. This covers the mean pings (ping.rs:55, team.rs:34) and the seconds of a
duration (duration.rs:73). -/
theorem C93_quotient {n m : Nat} (hn : n < 2 ^ 64) (hm : m < 2 ^ 64) (h0 : 0 < m) :
    f32RoundIeee (natAsF32 n / natAsF32 m) = some (f32Div (natAsF32 n) (natAsF32 m)) := by
  obtain ⟨m1, m2⟩ := natAsF32_bounds h0 hm
  rcases Nat.eq_zero_or_pos n with rfl | hpos
  · simp [f32RoundIeee, natAsF32, f32Round, f32Div]
  · obtain ⟨n1, n2⟩ := natAsF32_bounds hpos hn
    refine ieee_normal ?_ ?_
    · rw [le_div_iff₀ (by linarith)]
      calc (2 : ℚ) ^ (-126 : ℤ) * natAsF32 m ≤ 2 ^ (-126 : ℤ) * 2 ^ 64 := by
            exact mul_le_mul_of_nonneg_left m2 (by positivity)
        _ ≤ 1 := by norm_num
        _ ≤ natAsF32 n := n1
    · rw [div_lt_iff₀ (by linarith)]
      calc natAsF32 n ≤ 2 ^ 64 := n2
        _ < 2 ^ (127 : ℤ) * 1 := by norm_num
        _ ≤ 2 ^ (127 : ℤ) * natAsF32 m := mul_le_mul_of_nonneg_left m1 (by positivity)

/-- The divisor 1000.0 of a duration is the number 1000. -/
theorem thousand : natAsF32 1000 = 1000 := by rw [natAsF32_exact (by norm_num)]; norm_num

/-- C93: the mean rounded to a whole number is a whole `f32`. -/
theorem C93_round {x : ℚ} (hx : Single x) (h0 : 0 ≤ x) : Single (f32RoundHalfUp x) := by
  obtain ⟨m, e, hm, rfl⟩ := hx
  unfold f32RoundHalfUp
  by_cases he : 0 ≤ e
  · obtain ⟨k, rfl⟩ := Int.eq_ofNat_of_zero_le he
    have hi : (m : ℚ) * 2 ^ ((k : ℕ) : ℤ) = ((m * 2 ^ k : ℤ) : ℚ) := by push_cast; rw [zpow_natCast]
    have hf : ⌊((m * 2 ^ k : ℤ) : ℚ) + 1 / 2⌋ = (m * 2 ^ k : ℤ) := by
      rw [Int.floor_intCast_add]
      norm_num
    rw [hi, hf]
    exact ⟨m, k, hm, hi.symm⟩
  · have hle : (2 : ℚ) ^ e ≤ 1 / 2 := by
      have : (2 : ℚ) ^ e ≤ 2 ^ (-1 : ℤ) := zpow_le_zpow_right₀ (by norm_num) (by omega)
      simpa using this
    have hm' : (m : ℚ) < 2 ^ 24 := by exact_mod_cast hm
    have hk0 : 0 ≤ ⌊(m : ℚ) * 2 ^ e + 1 / 2⌋ := Int.floor_nonneg.mpr (by linarith)
    have hk : ⌊(m : ℚ) * 2 ^ e + 1 / 2⌋ < 2 ^ 24 := by
      rw [Int.floor_lt]
      have : (m : ℚ) * 2 ^ e ≤ m * (1 / 2) := mul_le_mul_of_nonneg_left hle (by positivity)
      push_cast
      linarith
    obtain ⟨k, hkk⟩ := Int.eq_ofNat_of_zero_le hk0
    refine ⟨k, 0, by omega, ?_⟩
    rw [hkk]
    simp

/-- A number below the range is rounded with less precision, one above it is infinite; nothing of the sort comes up. -/
example : f32RoundIeee (3 / 2 ^ 150) = some (2 / 2 ^ 149) ∧ f32Round (3 / 2 ^ 150) = 3 / 2 ^ 150 ∧
    f32RoundIeee (2 ^ 128) = none ∧ f32RoundIeee (natAsF32 16777217 / natAsF32 3) = some 5592405.5 := by
  refine ⟨?_, ?_, ?_, ?_⟩ <;> decide +kernel

end Mvd
