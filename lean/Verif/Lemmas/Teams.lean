import Verif.Lemmas.Players
import Verif.Lemmas.Float

/-! Teams. -/

namespace Mvd
open Spec

/-! ### Mean ping -/

theorem f32Round_half {k : Nat} (h : k < 2 ^ 24) : f32Round ((k : ℚ) / 2) = (k : ℚ) / 2 := by
  rcases Nat.eq_zero_or_pos k with rfl | hpos
  · simp [f32Round]
  · have hx : (0 : ℚ) < (k : ℚ) / 2 := by positivity
    have hb := log_bounds hx
    have hlow : -1 ≤ Int.log 2 ((k : ℚ) / 2) := by
      have : Int.log 2 ((2 : ℚ) ^ (-1 : ℤ)) = -1 := by
        have := Int.log_zpow (R := ℚ) (b := 2) (by norm_num) (-1)
        exact_mod_cast this
      rw [← this]
      refine Int.log_mono_right (zpow_pos (by norm_num) _) ?_
      have : (1 : ℚ) ≤ k := by exact_mod_cast hpos
      rw [zpow_neg_one]
      linarith
    have hhigh : Int.log 2 ((k : ℚ) / 2) ≤ 22 := by
      by_contra hc
      have h1 : (2 : ℚ) ^ (23 : ℤ) ≤ 2 ^ Int.log 2 ((k : ℚ) / 2) := zpow_le_zpow_right₀ (by norm_num) (by omega)
      have h2 : (k : ℚ) < 2 ^ 24 := by exact_mod_cast h
      have h3 := hb.1
      have h4 : (2 : ℚ) ^ (23 : ℤ) = 2 ^ 24 / 2 := by norm_num
      linarith
    obtain ⟨m, hm⟩ : ∃ m : Nat, (22 : ℤ) - Int.log 2 ((k : ℚ) / 2) = m := Int.eq_ofNat_of_zero_le (by omega)
    refine f32Round_exact hx (k * 2 ^ m) ?_
    unfold ulp
    push_cast
    rw [show Int.log 2 ((k : ℚ) / 2) - 23 = -1 - (m : ℤ) by omega, mul_assoc, ← zpow_natCast, ← zpow_add₀ (by norm_num)]
    rw [show (m : ℤ) + (-1 - m) = -1 by ring, zpow_neg_one]
    ring

/-- The mean of numbers with a sum below 2^23, computed on `f32` and rounded. -/
theorem f32_mean {s n : Nat} (hs : s < 2 ^ 23) (hn : 0 < n) :
    f32AsU32 (f32RoundHalfUp (f32Div (natAsF32 s) (natAsF32 n))) = (2 * s + n) / (2 * n) := by
  have hnq : (0 : ℚ) < n := by exact_mod_cast hn
  have hsq : (s : ℚ) < 2 ^ 23 := by exact_mod_cast hs
  have hs0 : (0 : ℚ) ≤ s := by positivity
  have hk : (2 * s + n) / (2 * n) ≤ s + 1 := by
    have h1 : s ≤ s * n := Nat.le_mul_of_pos_right s hn
    have h2 : (s + 1) * (2 * n) = 2 * (s * n) + 2 * n := by ring
    exact Nat.div_le_of_le_mul (by rw [Nat.mul_comm (2 * n), h2]; omega)
  have key : ⌊f32Div (natAsF32 s) (natAsF32 n) + 1 / 2⌋ = (((2 * s + n) / (2 * n) : ℕ) : ℤ) := by
    rw [natAsF32_exact (n := s) (by omega)]
    unfold f32Div
    by_cases hn' : n ≤ 2 ^ 24
    · rw [natAsF32_exact hn']
      set k := (2 * s + n) / (2 * n) with hkdef
      have hlow : k * (2 * n) ≤ 2 * s + n := Nat.div_mul_le_self _ _
      have hup : 2 * s + n < (k + 1) * (2 * n) := by
        have := Nat.lt_div_mul_add (a := 2 * s + n) (b := 2 * n) (by omega)
        rw [← hkdef] at this
        linarith
      have hq : (0 : ℚ) ≤ (s : ℚ) / n := by positivity
      have herr := abs_le.mp (f32Round_error hq)
      have hsmall : (s : ℚ) / n / 2 ^ 24 < 1 / (2 * n) := by
        rw [div_div, div_lt_div_iff₀ (by positivity) (by positivity)]
        nlinarith
      rw [Int.floor_eq_iff]
      push_cast
      constructor
      · by_cases heq : k * (2 * n) = 2 * s + n
        · -- the mean is k - 1/2 exactly
          have hk1 : 1 ≤ k := by
            rcases Nat.eq_zero_or_pos k with h | h
            · rw [h] at heq; omega
            · exact h
          have e : (s : ℚ) / n = ((2 * k - 1 : ℕ) : ℚ) / 2 := by
            rw [Nat.cast_sub (by omega)]
            push_cast
            rw [div_eq_div_iff (by positivity) (by norm_num)]
            have : (k : ℚ) * (2 * n) = 2 * s + n := by exact_mod_cast heq
            linarith
          rw [e, f32Round_half (by omega), Nat.cast_sub (by omega)]
          push_cast
          linarith
        · have hstrict : k * (2 * n) + 1 ≤ 2 * s + n := by omega
          have h1 : (k : ℚ) * (2 * n) + 1 ≤ 2 * s + n := by exact_mod_cast hstrict
          have h2 : (k : ℚ) ≤ (s : ℚ) / n + 1 / 2 - 1 / (2 * n) := by
            have e : (s : ℚ) / n + 1 / 2 - 1 / (2 * n) = (2 * s + n - 1) / (2 * n) := by
              field_simp
            rw [e, le_div_iff₀ (by positivity)]
            linarith
          linarith [herr.1]
      · have h1 : (2 : ℚ) * s + n + 1 ≤ (k + 1) * (2 * n) := by exact_mod_cast hup
        have h2 : (s : ℚ) / n + 1 / 2 + 1 / (2 * n) ≤ k + 1 := by
          have e : (s : ℚ) / n + 1 / 2 + 1 / (2 * n) = (2 * s + n + 1) / (2 * n) := by
            field_simp
          rw [e, div_le_iff₀ (by positivity)]
          exact h1
        linarith [herr.2]
    · have hl := natAsF32_large (n := n) (by omega)
      have hz : (2 * s + n) / (2 * n) = 0 := Nat.div_eq_of_lt (by omega)
      rw [hz]
      have hpos : (0 : ℚ) < natAsF32 n := by linarith [show (0 : ℚ) < 2 ^ 24 by norm_num]
      have hq : (0 : ℚ) ≤ (s : ℚ) / natAsF32 n := by positivity
      have hle : (s : ℚ) / natAsF32 n ≤ ((2 ^ 23 - 1 : ℕ) : ℚ) / 2 ^ 24 := by
        rw [div_le_div_iff₀ hpos (by norm_num)]
        have : (s : ℚ) ≤ ((2 ^ 23 - 1 : ℕ) : ℚ) := by exact_mod_cast (by omega : s ≤ 2 ^ 23 - 1)
        nlinarith
      have herr := abs_le.mp (f32Round_error hq)
      have h0 := f32Round_nonneg hq
      rw [Int.floor_eq_iff]
      push_cast at hle ⊢
      constructor
      · linarith
      · have : (s : ℚ) / natAsF32 n / 2 ^ 24 ≤ (2 ^ 23 - 1) / 2 ^ 24 / 2 ^ 24 := by
          apply div_le_div_of_nonneg_right _ (by norm_num)
          norm_num at hle ⊢
          exact hle
        norm_num at hle this ⊢
        linarith [herr.2]
  unfold f32AsU32 f32RoundHalfUp
  rw [key]
  simp only [Int.floor_intCast, Int.toNat_natCast]
  omega

/-! ### Totals -/

/-- `x` fits an `i32`. -/
def InI32 (x : Int) : Prop := -2 ^ 31 ≤ x ∧ x < 2 ^ 31

instance (x : Int) : Decidable (InI32 x) := inferInstanceAs (Decidable (_ ∧ _))

/-- The step of the loop that adds up frags and pings. -/
def totalsStep (g : Env) (s : Int × Nat) (p : Player) : R (Int × Nat) :=
  (addI32 g.checks s.1 p.frags).bind fun frags =>
  (addU g.checks 32 s.2 p.ping).bind fun ping => .ok (frags, ping)

/-- Every partial sum of the frags and the sum of the pings fit. -/
def TotalsFit (s : Int × Nat) (l : List Player) : Prop :=
  (∀ k, k ≤ l.length → 1 ≤ k → InI32 (s.1 + ((l.take k).map (·.frags)).sum)) ∧
  (l = [] ∨ s.2 + (l.map (·.ping)).sum < 2 ^ 32)

theorem totalsFit_cons {s : Int × Nat} {p : Player} {l : List Player} :
    TotalsFit s (p :: l) ↔ InI32 (s.1 + p.frags) ∧ s.2 + p.ping < 2 ^ 32 ∧ TotalsFit (s.1 + p.frags, s.2 + p.ping) l := by
  unfold TotalsFit
  constructor
  · rintro ⟨h1, h2⟩
    simp only [reduceCtorEq, false_or, List.map_cons, List.sum_cons] at h2
    refine ⟨?_, by omega, ?_, .inr (by simp only; omega)⟩
    · have := h1 1 (by simp) (by omega)
      simpa using this
    · intro k hk hk'
      have := h1 (k + 1) (by simp [hk]) (by omega)
      simpa [Int.add_assoc] using this
  · rintro ⟨h1, h2, h3, h4⟩
    refine ⟨?_, .inr ?_⟩
    · intro k hk hk'
      match k, hk' with
      | 1, _ => simpa using h1
      | k + 2, _ =>
        have := h3 (k + 1) (by simpa using hk) (by omega)
        simpa [Int.add_assoc] using this
    · simp only [List.map_cons, List.sum_cons]
      rcases h4 with rfl | h4
      · simpa using h2
      · simp only at h4; omega

theorem totals_fits (g : Env) : ∀ (l : List Player) (s : Int × Nat), TotalsFit s l →
    forR (totalsStep g) s l = .ok (s.1 + (l.map (·.frags)).sum, s.2 + (l.map (·.ping)).sum)
  | [], s, _ => by simp [forR]
  | p :: l, s, h => by
    rw [totalsFit_cons] at h
    have e1 : addI32 g.checks s.1 p.frags = .ok (s.1 + p.frags) := if_pos h.1
    have e2 : addU g.checks 32 s.2 p.ping = .ok (s.2 + p.ping) := if_pos h.2.1
    have e : totalsStep g s p = .ok (s.1 + p.frags, s.2 + p.ping) := by
      unfold totalsStep
      rw [e1, e2]
      rfl
    simp only [forR, e, R.bind]
    rw [totals_fits g l _ h.2.2]
    simp only [List.map_cons, List.sum_cons, Int.add_assoc, Nat.add_assoc]

theorem totals_panic (g : Env) (hc : g.checks = true) : ∀ (l : List Player) (s : Int × Nat), ¬ TotalsFit s l →
    forR (totalsStep g) s l = .panic
  | [], s, h => absurd ⟨fun k hk hk' => absurd hk' (by simp only [List.length_nil] at hk; omega), .inl rfl⟩ h
  | p :: l, s, h => by
    rw [totalsFit_cons] at h
    by_cases h1 : InI32 (s.1 + p.frags)
    · have e1 : addI32 g.checks s.1 p.frags = .ok (s.1 + p.frags) := if_pos h1
      by_cases h2 : s.2 + p.ping < 2 ^ 32
      · have e2 : addU g.checks 32 s.2 p.ping = .ok (s.2 + p.ping) := if_pos h2
        have e : totalsStep g s p = .ok (s.1 + p.frags, s.2 + p.ping) := by
          unfold totalsStep
          rw [e1, e2]
          rfl
        simp only [forR, e, R.bind]
        exact totals_panic g hc l _ fun h3 => h ⟨h1, h2, h3⟩
      · have e2 : addU g.checks 32 s.2 p.ping = .panic := by rw [addU, if_neg h2, hc]; rfl
        simp only [forR, totalsStep, e1, e2, R.bind]
    · have e1 : addI32 g.checks s.1 p.frags = .panic := (if_neg h1).trans (by rw [hc]; rfl)
      simp only [forR, totalsStep, e1, R.bind]

theorem bmod_small {x : Int} (h : InI32 x) : Int.bmod x (2 ^ 32) = x := by
  obtain ⟨h1, h2⟩ := h
  rw [Int.bmod_eq_iff (by decide)]
  constructor
  · norm_num at h1 ⊢; exact h1
  · constructor
    · norm_num at h2 ⊢; exact h2
    · simp

theorem totals_wrap (g : Env) (hc : g.checks = false) : ∀ (l : List Player) (s : Int × Nat), InI32 s.1 → s.2 < 2 ^ 32 →
    forR (totalsStep g) s l =
      .ok (Int.bmod (s.1 + (l.map (·.frags)).sum) (2 ^ 32), (s.2 + (l.map (·.ping)).sum) % 2 ^ 32)
  | [], s, h1, h2 => by
    simp only [forR, List.map_nil, List.sum_nil, Int.add_zero, Nat.add_zero, Nat.mod_eq_of_lt h2, bmod_small h1]
  | p :: l, s, h1, h2 => by
    have e1 : addI32 g.checks s.1 p.frags = .ok (Int.bmod (s.1 + p.frags) (2 ^ 32)) := by
      by_cases h : InI32 (s.1 + p.frags)
      · rw [bmod_small h]
        exact if_pos h
      · exact (if_neg h).trans (by rw [hc]; rfl)
    have e2 : addU g.checks 32 s.2 p.ping = .ok ((s.2 + p.ping) % 2 ^ 32) := by
      by_cases h : s.2 + p.ping < 2 ^ 32
      · rw [Nat.mod_eq_of_lt h]; exact if_pos h
      · rw [addU, if_neg h, hc]; rfl
    have e : totalsStep g s p = .ok (Int.bmod (s.1 + p.frags) (2 ^ 32), (s.2 + p.ping) % 2 ^ 32) := by
      unfold totalsStep
      rw [e1, e2]
      rfl
    simp only [forR, e, R.bind]
    rw [totals_wrap g hc l _ _ (Nat.mod_lt _ (by decide))]
    · simp only [List.map_cons, List.sum_cons]
      congr 2
      · rw [Int.bmod_add_bmod, Int.add_assoc]
      · omega
    · have a := Int.le_bmod (x := s.1 + p.frags) (m := 2 ^ 32) (by decide)
      have b := Int.bmod_lt (x := s.1 + p.frags) (m := 2 ^ 32) (by decide)
      constructor
      · norm_num at a ⊢; exact a
      · norm_num at b ⊢; exact b

/-! ### Colors -/

/-- The step of the loop that counts colors. -/
def countStep (g : Env) (m : Map (Nat × Nat) Nat) (color : Nat × Nat) : R (Map (Nat × Nat) Nat) :=
  Map.update m color 0 fun n => addU g.checks 8 n 1

theorem countStep_ok (g : Env) {m : Map (Nat × Nat) Nat} {c : Nat × Nat} (h : (m.get c).getD 0 + 1 < 256) :
    countStep g m c = .ok (m.set c ((m.get c).getD 0 + 1)) := by
  have : addU g.checks 8 ((m.get c).getD 0) 1 = .ok ((m.get c).getD 0 + 1) := if_pos h
  unfold countStep Map.update
  simp only
  rw [this]
  rfl

theorem countStep_cases (g : Env) (m : Map (Nat × Nat) Nat) (c : Nat × Nat) :
    (∃ n, countStep g m c = .ok (m.set c n)) ∨ (g.checks = true ∧ countStep g m c = .panic) := by
  unfold countStep Map.update
  simp only
  unfold addU
  split
  · exact .inl ⟨_, rfl⟩
  · split
    · rename_i h; exact .inr ⟨h, rfl⟩
    · exact .inl ⟨_, rfl⟩

theorem counts_ok (g : Env) : ∀ (l : List (Nat × Nat)) (m : Map (Nat × Nat) Nat), m.keys.Nodup →
    (∀ c, (m.get c).getD 0 + l.count c < 256) → ∃ m', forR (countStep g) m l = .ok m' ∧ m'.keys.Nodup ∧
      ∀ c, m'.get c = if c ∈ l then some ((m.get c).getD 0 + l.count c) else m.get c
  | [], m, hn, _ => ⟨m, rfl, hn, fun c => by simp⟩
  | a :: l, m, hn, h => by
    have h1 : (m.get a).getD 0 + 1 < 256 := by
      have := h a
      rw [List.count_cons_self] at this
      omega
    have hstep := countStep_ok g h1
    obtain ⟨m', e, hn', hg⟩ := counts_ok g l (m.set a ((m.get a).getD 0 + 1)) (Map.nodup_set hn _ _) (by
      intro c
      have := h c
      rw [Map.get_set]
      by_cases hc : a = c
      · subst hc
        rw [List.count_cons_self] at this
        simp only [if_true, Option.getD_some]
        omega
      · rw [if_neg hc]
        rw [List.count_cons_of_ne hc] at this
        exact this)
    refine ⟨m', by simp only [forR, hstep, R.bind]; exact e, hn', ?_⟩
    intro c
    rw [hg, Map.get_set]
    by_cases hc : a = c
    · subst hc
      by_cases hm : a ∈ l
      · simp [hm]; omega
      · simp [hm, List.count_eq_zero_of_not_mem hm]
    · have hc' : c ≠ a := fun e => hc e.symm
      rw [if_neg hc, List.count_cons_of_ne hc]
      simp [hc']

theorem counts_panic (g : Env) (hc : g.checks = true) : ∀ (l : List (Nat × Nat)) (m : Map (Nat × Nat) Nat),
    (∀ c, (m.get c).getD 0 < 256) → (∃ c, 256 ≤ (m.get c).getD 0 + l.count c) → forR (countStep g) m l = .panic
  | [], m, hm, ⟨c, h⟩ => by
    have := hm c
    simp at h
    omega
  | a :: l, m, hm, ⟨c, h⟩ => by
    by_cases h1 : (m.get a).getD 0 + 1 < 256
    · have hstep := countStep_ok g h1
      simp only [forR, hstep, R.bind]
      refine counts_panic g hc l _ ?_ ⟨c, ?_⟩
      · intro c
        rw [Map.get_set]
        split
        · exact h1
        · exact hm c
      · rw [Map.get_set]
        by_cases e : a = c
        · subst e
          rw [List.count_cons_self] at h
          simp only [if_true, Option.getD_some]
          omega
        · rw [List.count_cons_of_ne e] at h
          rw [if_neg e]
          exact h
    · have : addU g.checks 8 ((m.get a).getD 0) 1 = .panic := (if_neg h1).trans (by rw [hc]; rfl)
      simp only [forR, countStep, Map.update, this, R.bind]

theorem counts_keys (g : Env) : ∀ (l : List (Nat × Nat)) (m m' : Map (Nat × Nat) Nat), forR (countStep g) m l = .ok m' →
    ∀ c ∈ m'.keys, c ∈ m.keys ∨ c ∈ l
  | [], m, m', h, c, hc => by cases h; exact .inl hc
  | a :: l, m, m', h, c, hc => by
    simp only [forR] at h
    rcases countStep_cases g m a with ⟨n, e⟩ | ⟨_, e⟩
    · rw [e] at h
      rcases counts_keys g l _ _ h c hc with h' | h'
      · rw [Map.keys_set] at h'
        split at h'
        · exact .inl h'
        · rcases List.mem_append.mp h' with h' | h'
          · exact .inl h'
          · exact .inr (by simp at h'; simp [h'])
      · exact .inr (by simp [h'])
    · rw [e] at h; cases h

theorem counts_cases (g : Env) : ∀ (l : List (Nat × Nat)) (m : Map (Nat × Nat) Nat),
    (∃ m', forR (countStep g) m l = .ok m') ∨ (g.checks = true ∧ forR (countStep g) m l = .panic)
  | [], m => .inl ⟨m, rfl⟩
  | a :: l, m => by
    simp only [forR]
    rcases countStep_cases g m a with ⟨n, e⟩ | ⟨h, e⟩
    · rw [e]; exact counts_cases g l _
    · rw [e]; exact .inr ⟨h, rfl⟩

theorem maxColor_spec : ∀ (l : List ((Nat × Nat) × Nat)) (c : Option (Nat × Nat)) (n : Nat),
    n ≤ (maxColor (c, n) l).2 ∧ (∀ e ∈ l, e.2 ≤ (maxColor (c, n) l).2) ∧
    (maxColor (c, n) l = (c, n) ∨ ∃ e ∈ l, n < e.2 ∧ maxColor (c, n) l = (some e.1, e.2))
  | [], c, n => ⟨Nat.le_refl _, by simp, .inl rfl⟩
  | (c0, n0) :: l, c, n => by
    rw [maxColor]
    by_cases h : n0 > n
    · rw [if_pos h]
      obtain ⟨h1, h2, h3⟩ := maxColor_spec l (some c0) n0
      refine ⟨by omega, ?_, .inr ?_⟩
      · intro e he
        rcases List.mem_cons.mp he with rfl | he
        · exact h1
        · exact h2 e he
      · rcases h3 with h3 | ⟨e, he, hl, h3⟩
        · exact ⟨(c0, n0), by simp, h, h3⟩
        · exact ⟨e, by simp [he], by omega, h3⟩
    · rw [if_neg h]
      obtain ⟨h1, h2, h3⟩ := maxColor_spec l c n
      refine ⟨h1, ?_, ?_⟩
      · intro e he
        rcases List.mem_cons.mp he with rfl | he
        · simp only; omega
        · exact h2 e he
      · rcases h3 with h3 | ⟨e, he, hl, h3⟩
        · exact .inl h3
        · exact .inr ⟨e, by simp [he], hl, h3⟩

/-- The color chosen is one of the colors. -/
theorem majorityColor_mem (g : Env) (seed : Nat) (colors : List (Nat × Nat)) (c : Nat × Nat)
    (h : majorityColor g seed colors = .ok (some c)) : c ∈ colors := by
  unfold majorityColor at h
  split at h
  · cases h
  · cases h; simp
  · cases h; simp
  · unfold colorCount at h
    cases hm : forR (countStep g) [] colors with
    | ok m =>
      have hm' := hm
      unfold countStep at hm'
      rw [hm'] at h
      simp only [R.bind, R.ok.injEq] at h
      rcases (maxColor_spec (g.order seed m) none 0).2.2 with e | ⟨e, he, _, e'⟩
      · rw [e] at h; cases h
      · rw [e'] at h
        cases h
        have := (g.order_perm seed m).mem_iff.mp he
        rcases counts_keys g _ _ _ hm e.1 (List.mem_map.mpr ⟨e, this, rfl⟩) with h' | h'
        · cases h'
        · exact h'
    | err e => unfold countStep at hm; rw [hm] at h; cases h
    | panic => unfold countStep at hm; rw [hm] at h; cases h
    | hang => unfold countStep at hm; rw [hm] at h; cases h

theorem majorityColor_many (g : Env) (seed : Nat) (colors : List (Nat × Nat)) (h : 3 ≤ colors.length) :
    majorityColor g seed colors =
      (forR (countStep g) [] colors).bind fun m => .ok (maxColor (none, 0) (g.order seed m)).1 := by
  match colors, h with
  | _ :: _ :: _ :: _, _ => rfl

/-- With three or more colors, none 256 times or more, the color chosen is one that occurs as often as any. -/
theorem majorityColor_max (g : Env) (seed : Nat) (colors : List (Nat × Nat)) (h : 3 ≤ colors.length)
    (hc : ∀ c, colors.count c < 256) : ∃ c, majorityColor g seed colors = .ok (some c) ∧ c ∈ colors ∧
      ∀ d, colors.count d ≤ colors.count c := by
  obtain ⟨m, e, hn, hg⟩ := counts_ok g colors [] (by simp [Map.keys]) (by simpa [Map.get] using hc)
  have hmem : ∀ c n, (c, n) ∈ m ↔ c ∈ colors ∧ n = colors.count c := by
    intro c n
    rw [Map.mem_iff_get hn, hg]
    by_cases h : c ∈ colors
    · simp [h, Map.get]
      exact eq_comm
    · simp [h, Map.get]
  have hp := g.order_perm seed m
  rw [majorityColor_many g seed colors h, e]
  simp only [R.bind, R.ok.injEq]
  obtain ⟨_, h2, h3⟩ := maxColor_spec (g.order seed m) none 0
  have hle : ∀ d, colors.count d ≤ (maxColor (none, 0) (g.order seed m)).2 := by
    intro d
    by_cases hd : d ∈ colors
    · exact h2 (d, colors.count d) (hp.mem_iff.mpr ((hmem _ _).mpr ⟨hd, rfl⟩))
    · rw [List.count_eq_zero_of_not_mem hd]; exact Nat.zero_le _
  rcases h3 with h3 | ⟨x, hx, _, h3⟩
  · exfalso
    match colors, h with
    | a :: t, _ =>
      have := hle a
      rw [h3, List.count_cons_self] at this
      omega
  · obtain ⟨hxc, hxn⟩ := (hmem x.1 x.2).mp (hp.mem_iff.mp hx)
    refine ⟨x.1, by rw [h3], hxc, ?_⟩
    intro d
    have := hle d
    rw [h3] at this
    rw [← hxn]
    exact this

theorem majorityColor_small (g : Env) (seed : Nat) (colors : List (Nat × Nat)) (h : colors.length < 3) :
    majorityColor g seed colors = .ok colors.head? := by
  match colors, h with
  | [], _ => rfl
  | [a], _ => rfl
  | [a, b], _ => rfl

theorem majorityColor_cases (g : Env) (seed : Nat) (colors : List (Nat × Nat)) :
    (∃ c, majorityColor g seed colors = .ok c) ∨
      (g.checks = true ∧ 3 ≤ colors.length ∧ (∃ c, 256 ≤ colors.count c) ∧ majorityColor g seed colors = .panic) := by
  by_cases h : colors.length < 3
  · exact .inl ⟨_, majorityColor_small g seed colors h⟩
  · by_cases hc : ∀ c, colors.count c < 256
    · obtain ⟨c, e, _⟩ := majorityColor_max g seed colors (by omega) hc
      exact .inl ⟨_, e⟩
    · rw [majorityColor_many g seed colors (by omega)]
      rcases counts_cases g colors [] with ⟨m, e⟩ | ⟨hch, e⟩
      · rw [e]; exact .inl ⟨_, rfl⟩
      · rw [e]
        refine .inr ⟨hch, by omega, ?_, rfl⟩
        simp only [not_forall, Nat.not_lt] at hc
        exact hc

/-! ### Teams -/

/-- The players of a team. -/
def membersOf (ps : List Player) (t : Str) : List Player := ps.filter fun p => p.team = t

theorem teamMap_aux : ∀ (ps : List Player) (m : Map Str (List Player)), m.keys.Nodup →
    (Map.keys (ps.foldl (fun tmap p => Map.set tmap p.team ((Map.get tmap p.team).getD [] ++ [p])) m)).Nodup ∧
    ∀ t, Map.get (ps.foldl (fun tmap p => Map.set tmap p.team ((Map.get tmap p.team).getD [] ++ [p])) m) t =
      if membersOf ps t = [] then m.get t else some ((m.get t).getD [] ++ membersOf ps t)
  | [], m, h => ⟨h, fun t => by simp [membersOf]⟩
  | p :: ps, m, h => by
    rw [List.foldl_cons]
    obtain ⟨h1, h2⟩ := teamMap_aux ps _ (Map.nodup_set h p.team ((Map.get m p.team).getD [] ++ [p]))
    refine ⟨h1, fun t => ?_⟩
    rw [h2, Map.get_set]
    by_cases e : p.team = t
    · have : membersOf (p :: ps) t = p :: membersOf ps t := by simp [membersOf, e]
      rw [this, if_pos e, if_neg (show ¬ (p :: membersOf ps t = []) by simp)]
      by_cases h0 : membersOf ps t = []
      · rw [if_pos h0, h0, e]
      · rw [if_neg h0, e]
        simp
    · have : membersOf (p :: ps) t = membersOf ps t := by simp [membersOf, e]
      rw [this, if_neg e]

theorem teamMap_nodup (ps : List Player) : (teamMap ps).keys.Nodup := (teamMap_aux ps [] (by simp [Map.keys])).1

theorem mem_teamMap {ps : List Player} {t : Str} {l : List Player} :
    (t, l) ∈ teamMap ps ↔ membersOf ps t ≠ [] ∧ l = membersOf ps t := by
  rw [Map.mem_iff_get (teamMap_nodup ps), teamMap, (teamMap_aux ps [] (by simp [Map.keys])).2]
  by_cases h : membersOf ps t = []
  · simp [h, Map.get]
  · simp [h, Map.get]
    exact eq_comm

/-- A loop that collects the results of a function. -/
theorem forR_collect {α β : Type} (f : α → R β) : ∀ (l : List α) (acc out : List β),
    forR (fun acc e => (f e).bind fun t => .ok (acc ++ [t])) acc l = .ok out →
    ∃ ts, List.Forall₂ (fun e t => f e = .ok t) l ts ∧ out = acc ++ ts
  | [], acc, out, h => by cases h; exact ⟨[], .nil, by simp⟩
  | e :: l, acc, out, h => by
    simp only [forR] at h
    cases he : f e with
    | ok t =>
      rw [he] at h
      obtain ⟨ts, h1, h2⟩ := forR_collect f l _ _ h
      exact ⟨t :: ts, .cons he h1, by rw [h2]; simp⟩
    | err x => rw [he] at h; cases h
    | panic => rw [he] at h; cases h
    | hang => rw [he] at h; cases h

theorem forR_collect_ok {α β : Type} (f : α → R β) {l : List α} {ts : List β} (h : List.Forall₂ (fun e t => f e = .ok t) l ts) :
    ∀ acc, forR (fun acc e => (f e).bind fun t => .ok (acc ++ [t])) acc l = .ok (acc ++ ts) := by
  induction h with
  | nil => intro acc; simp [forR]
  | @cons e t l ts he _ ih =>
    intro acc
    rw [forR, he]
    show forR _ (acc ++ [t]) l = _
    rw [ih]
    simp

/-- A team of given players. -/
theorem ofPlayers_eq (g : Env) (seed : Nat) (first : Player) (rest : List Player) :
    Team.ofPlayers g seed (first :: rest) =
      (forR (totalsStep g) (0, 0) (first :: rest)).bind fun r =>
      (majorityColor g seed ((first :: rest).map (·.color))).bind fun color =>
      .ok {
        name := first.team
        players := first :: rest
        frags := r.1
        ping := f32AsU32 (f32RoundHalfUp (f32Div (natAsF32 r.2) (natAsF32 (first :: rest).length)))
        color := color.getD first.color } := rfl

theorem totals_cases (g : Env) (l : List Player) : 
    (∃ r, forR (totalsStep g) (0, 0) l = .ok r) ∨ (g.checks = true ∧ ¬ TotalsFit (0, 0) l ∧ forR (totalsStep g) (0, 0) l = .panic) := by
  by_cases h : TotalsFit (0, 0) l
  · exact .inl ⟨_, totals_fits g l _ h⟩
  · cases hc : g.checks with
    | true => exact .inr ⟨rfl, h, totals_panic g hc l _ h⟩
    | false => exact .inl ⟨_, totals_wrap g hc l _ ⟨by decide, by decide⟩ (by decide)⟩

/-- What is known about a team made of given players. -/
theorem ofPlayers_ok (g : Env) (seed : Nat) {ps : List Player} {first : Player} (hf : ps.head? = some first) {t : Team}
    (h : Team.ofPlayers g seed ps = .ok t) : ∃ r c, forR (totalsStep g) (0, 0) ps = .ok r ∧
      majorityColor g seed (ps.map (·.color)) = .ok c ∧ t.name = first.team ∧ t.players = ps ∧ t.frags = r.1 ∧
      t.ping = f32AsU32 (f32RoundHalfUp (f32Div (natAsF32 r.2) (natAsF32 ps.length))) ∧ t.color = c.getD first.color := by
  match ps, hf with
  | p :: ps, hf =>
    obtain rfl : p = first := by simpa using hf
    rw [ofPlayers_eq] at h
    rcases totals_cases g (p :: ps) with ⟨r, e⟩ | ⟨_, _, e⟩
    · rw [e] at h
      simp only [R.bind] at h
      rcases majorityColor_cases g seed ((p :: ps).map (·.color)) with ⟨c, e'⟩ | ⟨_, _, _, e'⟩
      · rw [e'] at h
        cases h
        exact ⟨r, c, e, e', rfl, rfl, rfl, rfl, rfl⟩
      · rw [e'] at h; cases h
    · rw [e] at h; cases h

/-- A team is made or there is a panic; without overflow there is no panic. -/
theorem ofPlayers_cases (g : Env) (seed : Nat) (ps : List Player) :
    (∃ t, Team.ofPlayers g seed ps = .ok t) ∨ (Team.ofPlayers g seed ps = .panic ∧ g.checks = true ∧
      (¬ TotalsFit (0, 0) ps ∨ 3 ≤ ps.length ∧ ∃ c, 256 ≤ (ps.map (·.color)).count c)) := by
  match ps with
  | [] => exact .inl ⟨_, rfl⟩
  | p :: ps =>
    rw [ofPlayers_eq]
    rcases totals_cases g (p :: ps) with ⟨r, e⟩ | ⟨h1, h2, e⟩
    · rw [e]
      simp only [R.bind]
      rcases majorityColor_cases g seed ((p :: ps).map (·.color)) with ⟨c, e'⟩ | ⟨h1, h2, h3, e'⟩
      · rw [e']; exact .inl ⟨_, rfl⟩
      · rw [e']; exact .inr ⟨rfl, h1, .inr ⟨by simpa using h2, h3⟩⟩
    · rw [e]; exact .inr ⟨rfl, h1, .inl h2⟩

/-- With overflow checks, an overflow panics. -/
theorem ofPlayers_panic (g : Env) (hc : g.checks = true) (seed : Nat) (ps : List Player)
    (h : ¬ TotalsFit (0, 0) ps ∨ ∃ c, 256 ≤ (ps.map (·.color)).count c) : Team.ofPlayers g seed ps = .panic := by
  match ps with
  | [] =>
    rcases h with h | ⟨c, h⟩
    · exact absurd ⟨fun k hk hk' => absurd hk' (by simp only [List.length_nil] at hk; omega), .inl rfl⟩ h
    · simp at h
  | p :: ps =>
    rw [ofPlayers_eq]
    by_cases hf : TotalsFit (0, 0) (p :: ps)
    · rw [totals_fits g _ _ hf]
      simp only [R.bind]
      rcases h with h | ⟨c, h⟩
      · exact absurd hf h
      · have hlen : 3 ≤ ((p :: ps).map (·.color)).length := by
          have := List.count_le_length (a := c) (l := (p :: ps).map (·.color))
          omega
        rw [majorityColor_many g seed _ hlen, counts_panic g hc _ [] (by simp [Map.get]) ⟨c, by simpa [Map.get] using h⟩]
        rfl
    · rw [totals_panic g hc _ _ hf]
      rfl

theorem totalsFit_sum {l : List Player} (h : TotalsFit (0, 0) l) : InI32 (l.map (·.frags)).sum ∧ (l.map (·.ping)).sum < 2 ^ 32 := by
  obtain ⟨h1, h2⟩ := h
  by_cases hl : l = []
  · subst hl; exact ⟨by decide, by decide⟩
  · constructor
    · have := h1 l.length (Nat.le_refl _) (List.length_pos_iff.mpr hl)
      rw [List.take_length] at this
      simpa using this
    · rcases h2 with h2 | h2
      · exact absurd h2 hl
      · simpa using h2

/-- The totals, when they are computed and fit. -/
theorem totals_value (g : Env) {l : List Player} {r : Int × Nat} (h : forR (totalsStep g) (0, 0) l = .ok r) :
    (InI32 (l.map (·.frags)).sum → r.1 = (l.map (·.frags)).sum) ∧
    ((l.map (·.ping)).sum < 2 ^ 32 → r.2 = (l.map (·.ping)).sum) := by
  cases hc : g.checks with
  | true =>
    by_cases hf : TotalsFit (0, 0) l
    · rw [totals_fits g l _ hf] at h
      cases h
      simp
    · rw [totals_panic g hc l _ hf] at h; cases h
  | false =>
    rw [totals_wrap g hc l _ ⟨by decide, by decide⟩ (by decide)] at h
    cases h
    refine ⟨fun hi => ?_, fun hi => ?_⟩
    · simp only [Int.zero_add]; exact bmod_small hi
    · simp only [Nat.zero_add]; exact Nat.mod_eq_of_lt hi

/-- The unsorted teams. -/
theorem teamsFromPlayers_ok (g : Env) {ps : List Player} {ts : List Team} (h : teamsFromPlayers g ps = .ok ts) :
    ∃ us, List.Forall₂ (fun (e : (Str × List Player) × Nat) t => Team.ofPlayers g (3 + e.2) e.1.2 = .ok t)
      (g.order 2 (teamMap ps)).zipIdx us ∧
      ts = sortBy (fun a b => strCmp (g.lowercase a.name) (g.lowercase b.name)) us := by
  unfold teamsFromPlayers at h
  cases hf : forR (fun (teams : List Team) (e : (Str × List Player) × Nat) =>
    (Team.ofPlayers g (3 + e.2) e.1.2).bind fun t => .ok (teams ++ [t]))
    [] (g.order 2 (teamMap ps)).zipIdx with
  | ok us =>
    rw [hf] at h
    obtain ⟨us', h1, h2⟩ := forR_collect (fun e : (Str × List Player) × Nat => Team.ofPlayers g (3 + e.2) e.1.2) _ _ _ hf
    cases h
    refine ⟨us', h1, ?_⟩
    rw [h2]
    rfl
  | err e => rw [hf] at h; cases h
  | panic => rw [hf] at h; cases h
  | hang => rw [hf] at h; cases h

theorem mem_order {g : Env} {ps : List Player} {e : Str × List Player} (he : e ∈ g.order 2 (teamMap ps)) :
    membersOf ps e.1 ≠ [] ∧ e.2 = membersOf ps e.1 :=
  mem_teamMap.mp ((g.order_perm 2 _).mem_iff.mp he)

theorem head_members {ps : List Player} {t : Str} (h : membersOf ps t ≠ []) :
    ∃ first, (membersOf ps t).head? = some first ∧ first.team = t := by
  cases hm : membersOf ps t with
  | nil => exact absurd hm h
  | cons p l =>
    refine ⟨p, rfl, ?_⟩
    have : p ∈ membersOf ps t := by rw [hm]; simp
    simpa using (List.mem_filter.mp this).2

theorem forall2_mem_left {α β : Type} {P : α → β → Prop} {l : List α} {m : List β} (h : List.Forall₂ P l m) {a : α}
    (ha : a ∈ l) : ∃ b ∈ m, P a b := by
  induction h with
  | nil => cases ha
  | cons h1 _ ih =>
    rcases List.mem_cons.mp ha with rfl | ha
    · exact ⟨_, by simp, h1⟩
    · obtain ⟨a, ha, hp⟩ := ih ha
      exact ⟨a, by simp [ha], hp⟩

/-- What is known about each listed team. -/
theorem mem_teams (g : Env) {ps : List Player} {ts : List Team} (h : teamsFromPlayers g ps = .ok ts) {t : Team} (ht : t ∈ ts) :
    ∃ seed, Team.ofPlayers g seed (membersOf ps t.name) = .ok t ∧ membersOf ps t.name ≠ [] ∧ t.players = membersOf ps t.name := by
  obtain ⟨us, h1, rfl⟩ := teamsFromPlayers_ok g h
  have hu := (sortBy_perm _ _).mem_iff.mp ht
  obtain ⟨⟨e, i⟩, he, hp⟩ := forall2_mem_right h1 hu
  have he' : e ∈ g.order 2 (teamMap ps) := List.fst_mem_of_mem_zipIdx he
  obtain ⟨hne, hm⟩ := mem_order he'
  obtain ⟨first, hf, hft⟩ := head_members hne
  simp only [hm] at hp
  obtain ⟨_, _, _, _, hname, hpl, _⟩ := ofPlayers_ok g _ hf hp
  rw [hname, hft]
  exact ⟨_, hp, hne, hpl⟩

theorem map_forall2 {α β γ : Type} {P : α → β → Prop} {f : α → γ} {f' : β → γ} {l : List α} {m : List β}
    (h : List.Forall₂ P l m) (hf : ∀ a ∈ l, ∀ b, P a b → f a = f' b) : l.map f = m.map f' := by
  induction h with
  | nil => rfl
  | cons h1 _ ih =>
    rw [List.map_cons, List.map_cons, hf _ (by simp) _ h1, ih fun a ha => hf a (by simp [ha])]

/-- The team names are the keys of the map. -/
theorem teams_names (g : Env) {ps : List Player} {ts : List Team} (h : teamsFromPlayers g ps = .ok ts) :
    (ts.map (·.name)).Perm (teamMap ps).keys := by
  obtain ⟨us, h1, rfl⟩ := teamsFromPlayers_ok g h
  refine ((sortBy_perm _ _).map _).trans ?_
  have e : (g.order 2 (teamMap ps)).zipIdx.map (fun e => e.1.1) = us.map (·.name) := by
    refine map_forall2 h1 ?_
    rintro ⟨e, i⟩ he t hp
    have he' : e ∈ g.order 2 (teamMap ps) := List.fst_mem_of_mem_zipIdx he
    obtain ⟨hne, hm⟩ := mem_order he'
    obtain ⟨first, hf, hft⟩ := head_members hne
    simp only [hm] at hp
    obtain ⟨_, _, _, _, hname, _⟩ := ofPlayers_ok g _ hf hp
    rw [hname, hft]
  rw [← e]
  have : (g.order 2 (teamMap ps)).zipIdx.map (fun e => e.1.1) = (g.order 2 (teamMap ps)).map Prod.fst := by
    have := congrArg (List.map Prod.fst) (List.zipIdx_map_fst 0 (g.order 2 (teamMap ps)))
    rw [List.map_map] at this
    exact this
  rw [this]
  exact (g.order_perm 2 _).map _

end Mvd
