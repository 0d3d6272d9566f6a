import Verif.Lemmas.Duration

/-! Ties in rounding, and uniqueness of rounding to nearest, ties to even. -/

namespace Mvd
open Spec

/-- A tie is decided for the even number. -/
theorem roundEven_tie (x : ℚ) (n : ℤ) (h : |(n : ℚ) - x| = |(roundEven x : ℚ) - x|) : n = roundEven x ∨ roundEven x % 2 = 0 := by
  have h1 := Int.floor_le x
  have h2 := Int.lt_floor_add_one x
  have hn : n ≤ ⌊x⌋ ∨ ⌊x⌋ + 1 ≤ n := by omega
  have hq : (n : ℚ) ≤ ⌊x⌋ ∨ (⌊x⌋ : ℚ) + 1 ≤ n := by
    rcases hn with h | h
    · exact .inl (by exact_mod_cast h)
    · exact .inr (by exact_mod_cast h)
  have eq : ∀ z : ℤ, (n : ℚ) = z → n = z := fun z hz => by exact_mod_cast hz
  unfold roundEven at h ⊢
  simp only at h ⊢
  split at h
  · rename_i hr
    rw [if_pos hr]
    left
    rw [abs_sub_comm (⌊x⌋ : ℚ), abs_of_nonneg (by linarith : 0 ≤ x - (⌊x⌋ : ℚ))] at h
    rcases hq with hq | hq
    · rw [abs_of_nonpos (by linarith)] at h
      exact eq _ (by linarith)
    · rw [abs_of_nonneg (by linarith)] at h
      linarith
  · rename_i hr
    rw [if_neg hr]
    split at h
    · rename_i hr'
      rw [if_pos hr']
      left
      push_cast at h
      rw [abs_of_nonneg (by linarith : 0 ≤ (⌊x⌋ : ℚ) + 1 - x)] at h
      rcases hq with hq | hq
      · rw [abs_of_nonpos (by linarith)] at h
        linarith
      · rw [abs_of_nonneg (by linarith)] at h
        exact eq _ (by push_cast; linarith)
    · rename_i hr'
      rw [if_neg hr']
      right
      split <;> omega

/-- A single precision number is a multiple of the unit in the last place of `x`, or smaller than the power of two below `x`. -/
theorem single_cases {x y : ℚ} (hy : Single y) : (∃ k : ℤ, y = k * ulp x) ∨ y < 2 ^ Int.log 2 x := by
  obtain ⟨m, e, hm, rfl⟩ := hy
  by_cases hle : Int.log 2 x - 23 ≤ e
  · left
    obtain ⟨k, hk⟩ := Int.eq_ofNat_of_zero_le (show 0 ≤ e - (Int.log 2 x - 23) by omega)
    refine ⟨m * 2 ^ k, ?_⟩
    have hek : (2 : ℚ) ^ e = ((2 ^ k : ℤ) : ℚ) * ulp x := by
      unfold ulp
      push_cast
      rw [← zpow_natCast, ← zpow_add₀ (by norm_num)]
      congr 1
      have : ((k : ℕ) : ℤ) = e - (Int.log 2 x - 23) := by rw [hk]
      omega
    rw [hek]
    push_cast
    ring
  · right
    have h1 : (2 : ℚ) ^ e ≤ 2 ^ (Int.log 2 x - 24) := zpow_le_zpow_right₀ (by norm_num) (by omega)
    have h2 : (m : ℚ) < 2 ^ 24 := by exact_mod_cast hm
    have h3 : (2 : ℚ) ^ (Int.log 2 x) = 2 ^ 24 * 2 ^ (Int.log 2 x - 24) := by
      have : (2 ^ 24 : ℚ) = 2 ^ (24 : ℤ) := by norm_num
      rw [this, ← zpow_add₀ (by norm_num)]
      congr 1
      ring
    rw [h3]
    have h4 : (0 : ℚ) < 2 ^ e := zpow_pos (by norm_num) _
    calc (m : ℚ) * 2 ^ e < 2 ^ 24 * 2 ^ e := mul_lt_mul_of_pos_right h2 h4
      _ ≤ _ := mul_le_mul_of_nonneg_left h1 (by norm_num)

theorem pow_log_eq (x : ℚ) : (2 : ℚ) ^ (Int.log 2 x) = ((2 ^ 23 : ℤ) : ℚ) * ulp x := by
  have : ((2 ^ 23 : ℤ) : ℚ) = 2 ^ (23 : ℤ) := by norm_num
  unfold ulp
  rw [this, ← zpow_add₀ (by norm_num)]
  congr 1
  ring

theorem pow_log_single (x : ℚ) : Single (2 ^ Int.log 2 x) := ⟨1, Int.log 2 x, by norm_num, by simp⟩

/-- A number equally close is a multiple of the unit in the last place. -/
theorem tie_multiple {x y : ℚ} (h : 0 < x) (hy : Single y) (ht : |y - x| = |f32Round x - x|) : ∃ k : ℤ, y = k * ulp x := by
  rcases single_cases (x := x) hy with hk | hlt
  · exact hk
  · exfalso
    have hb := (log_bounds h).1
    have hn := f32Round_nearest (le_of_lt h) (pow_log_single x)
    rw [← ht, abs_of_nonpos (by linarith), abs_of_nonpos (by linarith)] at hn
    linarith

theorem scaled_abs {x u : ℚ} (hu : 0 < u) (k : ℤ) : |(k : ℚ) * u - x| = |(k : ℚ) - x / u| * u := by
  have : (k : ℚ) * u - x = ((k : ℚ) - x / u) * u := by field_simp
  rw [this, abs_mul, abs_of_pos hu]

/-- The significand of the rounded number. -/
theorem roundEven_ulp_bounds {x : ℚ} (h : 0 < x) : 2 ^ 23 ≤ roundEven (x / ulp x) ∧ roundEven (x / ulp x) ≤ 2 ^ 24 := by
  have hu := ulp_pos x
  have h1 := pow_le_f32Round h
  have h2 := f32Round_le_pow h
  rw [f32Round_pos h] at h1 h2
  rw [pow_log_eq] at h1
  have e : (2 : ℚ) ^ (Int.log 2 x + 1) = ((2 ^ 24 : ℤ) : ℚ) * ulp x := by
    rw [zpow_add₀ (by norm_num), pow_log_eq]
    push_cast
    ring
  rw [e] at h2
  exact ⟨by exact_mod_cast le_of_mul_le_mul_right h1 hu, by exact_mod_cast le_of_mul_le_mul_right h2 hu⟩

/-- A tie is decided for the number with the even significand. -/
theorem f32Round_tie {x : ℚ} (h : 0 ≤ x) {y : ℚ} (hy : Single y) (ht : |y - x| = |f32Round x - x|) :
    y = f32Round x ∨ EvenSingle (f32Round x) := by
  rcases lt_or_eq_of_le h with h | rfl
  · have hu := ulp_pos x
    obtain ⟨k, rfl⟩ := tie_multiple h hy ht
    rw [f32Round_pos h, scaled_abs hu, scaled_abs hu] at ht
    have ht' := mul_right_cancel₀ (ne_of_gt hu) ht
    rw [f32Round_pos h]
    rcases roundEven_tie _ _ ht' with e | e
    · left; rw [e]
    · right
      obtain ⟨b1, b2⟩ := roundEven_ulp_bounds h
      obtain ⟨n, hn⟩ : ∃ n : ℕ, roundEven (x / ulp x) = 2 * n := ⟨(roundEven (x / ulp x) / 2).toNat, by omega⟩
      rw [hn] at b1 b2 ⊢
      rcases Int.lt_or_eq_of_le b2 with hlt | heq
      · refine ⟨n, Int.log 2 x - 23, by omega, by omega, ?_⟩
        unfold ulp
        push_cast
        rfl
      · refine ⟨2 ^ 22, Int.log 2 x - 22, by norm_num, by norm_num, ?_⟩
        rw [heq]
        unfold ulp
        rw [show Int.log 2 x - 22 = (Int.log 2 x - 23) + 1 by ring, zpow_add₀ (by norm_num)]
        push_cast
        ring
  · left
    simp [f32Round] at ht ⊢
    exact ht

/-- In a normalised number the significand is even. -/
theorem even_significand {n : ℤ} {a : ℤ} (h1 : 2 ^ 23 ≤ n) (h2 : n ≤ 2 ^ 24) (he : EvenSingle (n * 2 ^ a)) : n % 2 = 0 := by
  obtain ⟨m, e, hm1, hm2, h⟩ := he
  rcases Int.lt_or_eq_of_le h2 with hlt | heq
  · have pa : (0 : ℚ) < 2 ^ a := zpow_pos (by norm_num) _
    have pe : (0 : ℚ) < 2 ^ e := zpow_pos (by norm_num) _
    have hn1 : (2 ^ 23 : ℚ) ≤ n := by exact_mod_cast h1
    have hn2 : (n : ℚ) < 2 ^ 24 := by exact_mod_cast hlt
    have hq1 : (2 ^ 23 : ℚ) ≤ 2 * m := by exact_mod_cast hm1
    have hq2 : (2 * m : ℚ) < 2 ^ 24 := by exact_mod_cast hm2
    have key : a = e := by
      rcases Int.lt_trichotomy a e with hlt' | heq | hgt
      · exfalso
        have : (2 : ℚ) ^ (a + 1) ≤ 2 ^ e := zpow_le_zpow_right₀ (by norm_num) (by omega)
        rw [zpow_add₀ (by norm_num), zpow_one] at this
        have c1 : (n : ℚ) * 2 ^ a < 2 ^ 24 * 2 ^ a := mul_lt_mul_of_pos_right hn2 pa
        have c2 : (2 ^ 23 : ℚ) * 2 ^ e ≤ 2 * m * 2 ^ e := mul_le_mul_of_nonneg_right hq1 (le_of_lt pe)
        linarith
      · exact heq
      · exfalso
        have : (2 : ℚ) ^ (e + 1) ≤ 2 ^ a := zpow_le_zpow_right₀ (by norm_num) (by omega)
        rw [zpow_add₀ (by norm_num), zpow_one] at this
        have c1 : (2 * m : ℚ) * 2 ^ e < 2 ^ 24 * 2 ^ e := mul_lt_mul_of_pos_right hq2 pe
        have c2 : (2 ^ 23 : ℚ) * 2 ^ a ≤ n * 2 ^ a := mul_le_mul_of_nonneg_right hn1 (le_of_lt pa)
        linarith
    rw [key] at h
    have h' := mul_right_cancel₀ (ne_of_gt pe) h
    have : n = 2 * (m : ℤ) := by exact_mod_cast h'
    omega
  · rw [heq]; norm_num

/-- Rounding to nearest, ties to even, has one result. -/
theorem f32Round_unique {x : ℚ} (h : 0 ≤ x) {y : ℚ} (hy : NearestEven Single EvenSingle x y) : y = f32Round x := by
  have hr := f32Round_single h
  have ht : |y - x| = |f32Round x - x| := le_antisymm (hy.2 _ hr).1 (f32Round_nearest h hy.1)
  rcases lt_or_eq_of_le h with h0 | rfl
  · refine Classical.byContradiction fun hne => ?_
    have he : EvenSingle (f32Round x) := (f32Round_tie h hy.1 ht).resolve_left hne
    have he' : EvenSingle y := ((hy.2 _ hr).2 ht.symm).resolve_left fun e => hne e.symm
    have hu := ulp_pos x
    obtain ⟨k, rfl⟩ := tie_multiple h0 hy.1 ht
    obtain ⟨b1, b2⟩ := roundEven_ulp_bounds h0
    rw [f32Round_pos h0] at hne he ht
    have hd := roundEven_error (x / ulp x)
    generalize roundEven (x / ulp x) = n at *
    rw [scaled_abs hu, scaled_abs hu] at ht
    have ht' := mul_right_cancel₀ (ne_of_gt hu) ht
    have hd' : |(k : ℚ) - x / ulp x| ≤ 1 / 2 := ht' ▸ hd
    have hkn : k ≠ n := fun e => hne (by rw [e])
    have hx1 : (2 ^ 23 : ℚ) ≤ x / ulp x := by
      rw [le_div_iff₀ hu]
      have := (log_bounds h0).1
      rw [pow_log_eq] at this
      exact_mod_cast this
    have hx2 : x / ulp x < 2 ^ 24 := by
      rw [div_lt_iff₀ hu]
      have := (log_bounds h0).2
      rw [zpow_add₀ (by norm_num), pow_log_eq] at this
      push_cast at this
      linarith
    rw [abs_le] at hd hd'
    have c1 : (k : ℚ) - n ≤ 1 := by linarith
    have c2 : (n : ℚ) - k ≤ 1 := by linarith
    have c3 : (2 ^ 23 - 1 : ℚ) < k := by linarith
    have c4 : (k : ℚ) < 2 ^ 24 + 1 := by linarith
    have c1' : k - n ≤ 1 := by exact_mod_cast c1
    have c2' : n - k ≤ 1 := by exact_mod_cast c2
    have c3' : (2 ^ 23 - 1 : ℤ) < k := by exact_mod_cast c3
    have c4' : k < 2 ^ 24 + 1 := by exact_mod_cast c4
    have e1 := even_significand (n := n) (a := Int.log 2 x - 23) b1 b2 he
    have e2 := even_significand (n := k) (a := Int.log 2 x - 23) (by omega) (by omega) he'
    omega
  · simp [f32Round] at ht ⊢
    exact ht

theorem roundEven_unique {x y : ℚ} (hy : NearestEven (fun z => ∃ n : ℤ, z = n) (fun z => ∃ n : ℤ, z = 2 * n) x y) :
    y = roundEven x := by
  obtain ⟨⟨k, rfl⟩, h⟩ := hy
  obtain ⟨hle, ht⟩ := h (roundEven x) ⟨_, rfl⟩
  have heq : |(k : ℚ) - x| = |(roundEven x : ℚ) - x| := le_antisymm hle (roundEven_nearest x k)
  rcases roundEven_tie x k heq with e | e
  · rw [e]
  · rcases ht heq.symm with e' | ⟨n, e'⟩
    · exact e'.symm
    · have hk : k = 2 * n := by exact_mod_cast e'
      have hd := roundEven_error x
      have hd' : |(k : ℚ) - x| ≤ 1 / 2 := heq ▸ hd
      rw [abs_le] at hd hd'
      have c1 : (k : ℚ) - roundEven x ≤ 1 := by linarith
      have c2 : (roundEven x : ℚ) - k ≤ 1 := by linarith
      have c1' : k - roundEven x ≤ 1 := by exact_mod_cast c1
      have c2' : roundEven x - k ≤ 1 := by exact_mod_cast c2
      have : k = roundEven x := by omega
      rw [this]

theorem f32Round_nearestEven {x : ℚ} (h : 0 ≤ x) : NearestEven Single EvenSingle x (f32Round x) :=
  ⟨f32Round_single h, fun _ hz => ⟨f32Round_nearest h hz, fun ht => f32Round_tie h hz ht⟩⟩

theorem roundEven_nearestEven (x : ℚ) :
    NearestEven (fun z => ∃ n : ℤ, z = n) (fun z => ∃ n : ℤ, z = 2 * n) x (roundEven x) := by
  refine ⟨⟨_, rfl⟩, ?_⟩
  rintro z ⟨n, rfl⟩
  refine ⟨roundEven_nearest x n, fun ht => ?_⟩
  rcases roundEven_tie x n ht with e | e
  · exact .inl (by rw [e])
  · exact .inr ⟨roundEven x / 2, by rw [← Int.cast_ofNat, ← Int.cast_mul]; congr 1; omega⟩

end Mvd
