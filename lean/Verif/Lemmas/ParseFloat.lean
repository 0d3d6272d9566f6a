import Verif.Rust.ParseFloat
import Verif.Spec.FloatText
import Verif.Lemmas.Float

namespace Mvd
open Spec

theorem asciiDigit_iff {c : Char} : asciiDigit c = true ↔ '0'.toNat ≤ c.toNat ∧ c.toNat ≤ '9'.toNat := by
  simp [asciiDigit]

theorem digits?_eq : ∀ (s : Str) (acc : Nat), digits? acc s = if AllDigits s then
    some (s.foldl (fun n c => n * 10 + (c.toNat - '0'.toNat)) acc) else none := by
  intro s
  induction s with
  | nil => intro acc; simp [digits?, AllDigits]
  | cons c cs ih =>
    intro acc
    unfold digits?
    by_cases h : '0'.toNat ≤ c.toNat ∧ c.toNat ≤ '9'.toNat
    · rw [if_pos h, ih]
      by_cases h2 : AllDigits cs
      · rw [if_pos h2, if_pos (by intro d hd; rcases List.mem_cons.mp hd with rfl | hd; exacts [h, h2 d hd])]
        rfl
      · rw [if_neg h2, if_neg (fun h3 => h2 fun d hd => h3 d (List.mem_cons_of_mem _ hd))]
    · rw [if_neg h, if_neg (fun h3 => h (h3 c List.mem_cons_self))]

theorem digits1?_eq_some {s : Str} {n : Nat} : digits1? s = some n ↔ s ≠ [] ∧ AllDigits s ∧ n = digitsValue s := by
  unfold digits1?
  by_cases h : s = []
  · simp [h]
  · rw [if_neg h, digits?_eq]
    by_cases h2 : AllDigits s
    · rw [if_pos h2]
      simp only [Option.some.injEq, digitsValue]
      exact ⟨fun e => ⟨h, h2, e.symm⟩, fun e => e.2.2.symm⟩
    · rw [if_neg h2]
      simp [h2]

theorem parseExponent_eq_some {s : Str} {e : Int} : parseExponent s = some e ↔ PowerText s e := by
  unfold PowerText
  constructor
  · intro h
    cases s with
    | nil =>
      simp only [parseExponent, Option.some.injEq] at h
      exact .inl ⟨rfl, h.symm⟩
    | cons c t =>
      simp only [parseExponent] at h
      by_cases hc : c = 'e' ∨ c = 'E'
      · rw [if_pos hc] at h
        right
        split at h
        · obtain ⟨n, hn, he⟩ := Option.map_eq_some_iff.mp h
          obtain ⟨h1, h2, h3⟩ := digits1?_eq_some.mp hn
          exact ⟨c, ['-'], _, rfl, hc, h1, h2, .inr ⟨rfl, by rw [← he, h3]⟩⟩
        · obtain ⟨n, hn, he⟩ := Option.map_eq_some_iff.mp h
          obtain ⟨h1, h2, h3⟩ := digits1?_eq_some.mp hn
          exact ⟨c, ['+'], _, rfl, hc, h1, h2, .inl ⟨.inr rfl, by rw [← he, h3]⟩⟩
        · obtain ⟨n, hn, he⟩ := Option.map_eq_some_iff.mp h
          obtain ⟨h1, h2, h3⟩ := digits1?_eq_some.mp hn
          exact ⟨c, [], _, rfl, hc, h1, h2, .inl ⟨.inl rfl, by rw [← he, h3]⟩⟩
      · rw [if_neg hc] at h
        cases h
  · rintro (⟨rfl, rfl⟩ | ⟨c, sign, ds, rfl, hc, h1, h2, h3⟩)
    · rfl
    · have hd : digits1? ds = some (digitsValue ds) := digits1?_eq_some.mpr ⟨h1, h2, rfl⟩
      rcases h3 with ⟨rfl | rfl, rfl⟩ | ⟨rfl, rfl⟩
      · simp only [List.cons_append, List.nil_append, parseExponent]
        rw [if_pos hc]
        split
        · exact absurd (h2 _ List.mem_cons_self) (by decide)
        · exact absurd (h2 _ List.mem_cons_self) (by decide)
        · rw [hd]; rfl
      · simp only [List.cons_append, List.nil_append, parseExponent]
        rw [if_pos hc, hd]; rfl
      · simp only [List.cons_append, List.nil_append, parseExponent]
        rw [if_pos hc, hd]; rfl

/-- A power of ten does not begin with a digit or a point. -/
theorem power_head {s : Str} {e : Int} (h : PowerText s e) : ∀ c, s.head? = some c → asciiDigit c = false ∧ c ≠ '.' := by
  rcases h with ⟨rfl, _⟩ | ⟨c, sign, ds, rfl, hc, _⟩
  · simp
  · intro d hd
    simp only [List.cons_append, List.head?_cons, Option.some.injEq] at hd
    subst hd
    rcases hc with rfl | rfl <;> exact ⟨by decide, by decide⟩

theorem takeWhile_digits {s t : Str} (h : AllDigits s) (ht : ∀ c, t.head? = some c → asciiDigit c = false) :
    (s ++ t).takeWhile asciiDigit = s ∧ (s ++ t).dropWhile asciiDigit = t := by
  have hs : ∀ c ∈ s, asciiDigit c = true := fun c hc => asciiDigit_iff.mpr (h c hc)
  rw [List.takeWhile_append_of_pos hs, List.dropWhile_append_of_pos hs]
  cases t with
  | nil => simp
  | cons c t =>
    have := ht c rfl
    simp [this]

theorem allDigits_takeWhile (s : Str) : AllDigits (s.takeWhile asciiDigit) :=
  fun c hc => asciiDigit_iff.mp (List.all_eq_true.mp List.all_takeWhile c hc)

theorem parseNumber_eq_some {t : Str} {x : ℚ} : parseNumber t = some x ↔ NumberText t x := by
  unfold parseNumber NumberText
  constructor
  · intro h
    have e := List.takeWhile_append_dropWhile (p := asciiDigit) (l := t)
    simp only at h
    split at h
    · rename_i r hr
      obtain ⟨m, hm, h⟩ := Option.bind_eq_some_iff.mp h
      obtain ⟨p, hp, h⟩ := Option.map_eq_some_iff.mp h
      obtain ⟨k1, k2, k3⟩ := digits1?_eq_some.mp hm
      refine ⟨_, ['.'], _, _, p, ?_, allDigits_takeWhile t, allDigits_takeWhile r, k1, .inl rfl, parseExponent_eq_some.mp hp, ?_⟩
      · rw [List.append_assoc, List.takeWhile_append_dropWhile, List.append_assoc, List.singleton_append, ← hr, e]
      · rw [← h, k3]
    · obtain ⟨m, hm, h⟩ := Option.bind_eq_some_iff.mp h
      obtain ⟨p, hp, h⟩ := Option.map_eq_some_iff.mp h
      obtain ⟨k1, k2, k3⟩ := digits1?_eq_some.mp hm
      refine ⟨_, [], [], _, p, ?_, allDigits_takeWhile t, by simp [AllDigits], k1, .inr ⟨rfl, rfl⟩, parseExponent_eq_some.mp hp, ?_⟩
      · simpa using e.symm
      · rw [← h, k3]
  · rintro ⟨whole, point, frac, power, e, rfl, hw, hf, hne, hp, hpow, rfl⟩
    have hall : AllDigits (whole ++ frac) := by
      intro c hc
      rcases List.mem_append.mp hc with hc | hc
      exacts [hw c hc, hf c hc]
    have hd := digits1?_eq_some.mpr ⟨hne, hall, rfl⟩
    rcases hp with rfl | ⟨rfl, rfl⟩
    · have h1 := takeWhile_digits (t := ['.'] ++ frac ++ power) hw (by
        intro c hc
        simp only [List.append_assoc, List.cons_append, List.nil_append, List.head?_cons, Option.some.injEq] at hc
        subst hc
        decide)
      have h2 := takeWhile_digits (t := power) hf fun c hc => (power_head hpow c hc).1
      rw [show whole ++ ['.'] ++ frac ++ power = whole ++ (['.'] ++ frac ++ power) by simp, h1.1, h1.2]
      simp only [List.append_assoc, List.cons_append, List.nil_append, h2.1, h2.2, hd, Option.bind_some,
        parseExponent_eq_some.mpr hpow, Option.map_some]
    · have h1 := takeWhile_digits (t := power) hw fun c hc => (power_head hpow c hc).1
      have hdot : ∀ r, power ≠ '.' :: r := by
        rintro r rfl
        exact (power_head hpow '.' rfl).2 rfl
      rw [show whole ++ [] ++ [] ++ power = whole ++ power by simp, h1.1, h1.2]
      simp only
      rw [hd, parseExponent_eq_some.mpr hpow]
      simp

/-- The unit in the last place of a double precision number. -/
def ulp64 (x : ℚ) : ℚ := 2 ^ (max (Int.log 2 x) (-1022) - 52)

theorem ulp64_pos (x : ℚ) : 0 < ulp64 x := by unfold ulp64; exact zpow_pos (by norm_num) _

/-- The rounded value, infinity left out. -/
def round64 (x : ℚ) : ℚ := roundEven (x / ulp64 x) * ulp64 x

theorem f64Round_pos {x : ℚ} (h : 0 < x) : f64Round x = if round64 x < 2 ^ 1024 then some (round64 x) else none := by
  unfold f64Round
  rw [if_neg (ne_of_gt h)]
  rfl

theorem round64_ulp (x : ℚ) : |round64 x - x| ≤ ulp64 x / 2 := by
  have hu := ulp64_pos x
  have he := roundEven_error (x / ulp64 x)
  have e : round64 x - x = ((roundEven (x / ulp64 x) : ℚ) - x / ulp64 x) * ulp64 x := by
    unfold round64
    field_simp
  rw [e, abs_mul, abs_of_pos hu]
  nlinarith

theorem round64_nonneg {x : ℚ} (h : 0 ≤ x) : 0 ≤ round64 x := by
  have hu := ulp64_pos x
  have : 0 ≤ roundEven (x / ulp64 x) := roundEven_nonneg (by positivity)
  have : (0 : ℚ) ≤ (roundEven (x / ulp64 x) : ℚ) := by exact_mod_cast this
  unfold round64
  positivity

theorem ulp64_normal {x : ℚ} (h : 2 ^ (-1022 : ℤ) ≤ x) : ulp64 x = 2 ^ Int.log 2 x / 2 ^ 52 := by
  have h0 : 0 < x := lt_of_lt_of_le (zpow_pos (by norm_num) _) h
  have : (-1022 : ℤ) ≤ Int.log 2 x := (Int.zpow_le_iff_le_log (by norm_num) h0).mp (by exact_mod_cast h)
  unfold ulp64
  rw [max_eq_left this, zpow_sub₀ (by norm_num)]
  norm_cast

theorem ulp64_subnormal {x : ℚ} (h0 : 0 < x) (h : x < 2 ^ (-1022 : ℤ)) : ulp64 x = 2 ^ (-1074 : ℤ) := by
  have : Int.log 2 x < (-1022 : ℤ) := (Int.lt_zpow_iff_log_lt (by norm_num) h0).mp (by exact_mod_cast h)
  unfold ulp64
  rw [max_eq_right this.le]
  norm_num

/-- The relative error is at most 2^-53 for all but the smallest numbers. -/
theorem round64_error {x : ℚ} (h : 2 ^ (-1022 : ℤ) ≤ x) : |round64 x - x| ≤ x / 2 ^ 53 := by
  have h0 : 0 < x := lt_of_lt_of_le (zpow_pos (by norm_num) _) h
  refine (round64_ulp x).trans ?_
  rw [ulp64_normal h]
  have := (log_bounds h0).1
  rw [div_div]
  have e : (2 : ℚ) ^ 53 = 2 ^ 52 * 2 := by norm_num
  rw [e]
  exact div_le_div_of_nonneg_right this (by positivity)

/-- Tiny numbers stay tiny. -/
theorem round64_tiny {x : ℚ} (h0 : 0 < x) (h : x < 2 ^ (-1022 : ℤ)) : round64 x ≤ 2 ^ (-1021 : ℤ) := by
  have h1 := (abs_le.mp (round64_ulp x)).2
  rw [ulp64_subnormal h0 h] at h1
  have e1 : (2 : ℚ) ^ (-1074 : ℤ) ≤ 2 ^ (-1022 : ℤ) := zpow_le_zpow_right₀ (by norm_num) (by norm_num)
  have e2 : (2 : ℚ) ^ (-1021 : ℤ) = 2 * 2 ^ (-1022 : ℤ) := by
    rw [show (-1021 : ℤ) = 1 + -1022 by norm_num, zpow_add₀ (by norm_num)]
    norm_num
  have e3 : (0 : ℚ) < 2 ^ (-1074 : ℤ) := zpow_pos (by norm_num) _
  rw [e2]
  linarith

theorem round64_zero_iff {x : ℚ} (h : 0 < x) : round64 x = 0 ↔ x ≤ 2 ^ (-1075 : ℤ) := by
  have hu := ulp64_pos x
  have e1 : (2 : ℚ) ^ (-1074 : ℤ) = 2 * 2 ^ (-1075 : ℤ) := by
    rw [show (-1074 : ℤ) = 1 + -1075 by norm_num, zpow_add₀ (by norm_num)]
    norm_num
  have e2 : (2 : ℚ) ^ (-1075 : ℤ) < 2 ^ (-1022 : ℤ) := zpow_lt_zpow_right₀ (by norm_num) (by norm_num)
  have e3 : (0 : ℚ) < 2 ^ (-1075 : ℤ) := zpow_pos (by norm_num) _
  constructor
  · intro hz
    by_contra hc
    push Not at hc
    by_cases hn : 2 ^ (-1022 : ℤ) ≤ x
    · have h1 := (abs_le.mp (round64_error hn)).1
      rw [hz] at h1
      have : x / 2 ^ 53 < x := div_lt_self h (by norm_num)
      linarith
    · push Not at hn
      have hk : roundEven (x / ulp64 x) = 0 := by
        unfold round64 at hz
        rcases mul_eq_zero.mp hz with h1 | h1
        · exact_mod_cast h1
        · exact absurd h1 (ne_of_gt hu)
      have h1 := (abs_le.mp (roundEven_error (x / ulp64 x))).1
      rw [hk, ulp64_subnormal h hn, e1] at h1
      have : (1 : ℚ) / 2 < x / (2 * 2 ^ (-1075 : ℤ)) := by
        rw [lt_div_iff₀ (mul_pos (by norm_num) e3)]
        linarith
      simp only [Int.cast_zero, zero_sub] at h1
      linarith
  · intro hle
    have hs := ulp64_subnormal h (lt_of_le_of_lt hle e2)
    have hy : x / ulp64 x ≤ 1 / 2 := by
      rw [hs, e1, div_le_iff₀ (mul_pos (by norm_num) e3)]
      linarith
    have h1 := roundEven_mono hy
    have h2 : roundEven (1 / 2 : ℚ) = 0 := by
      unfold roundEven
      norm_num
    have h3 : 0 ≤ roundEven (x / ulp64 x) := roundEven_nonneg (by positivity)
    have : roundEven (x / ulp64 x) = 0 := by omega
    unfold round64
    rw [this]
    simp

/-- Rounding takes a number to 2^64 or more exactly from halfway between the two largest below. -/
theorem round64_large {x : ℚ} (h : 0 < x) : 2 ^ 64 ≤ round64 x ↔ 2 ^ 64 - 2 ^ 10 ≤ x := by
  have hu := ulp64_pos x
  have hn1 : (2 : ℚ) ^ (-1022 : ℤ) ≤ 1 := zpow_le_one_of_nonpos₀ (by norm_num) (by norm_num)
  by_cases h63 : x < 2 ^ 63
  · have : round64 x < 2 ^ 64 := by
      by_cases hn : 2 ^ (-1022 : ℤ) ≤ x
      · have h1 := (abs_le.mp (round64_error hn)).2
        have : x / 2 ^ 53 ≤ x := div_le_self h.le (by norm_num)
        linarith
      · push Not at hn
        have h1 := round64_tiny h hn
        have : (2 : ℚ) ^ (-1021 : ℤ) ≤ 1 := zpow_le_one_of_nonpos₀ (by norm_num) (by norm_num)
        linarith
    constructor
    · intro hc; linarith
    · intro hc; linarith
  · push Not at h63
    have hn : (2 : ℚ) ^ (-1022 : ℤ) ≤ x := by linarith
    by_cases h64 : x < 2 ^ 64
    · have hlog : Int.log 2 x = 63 := by
        have a : (63 : ℤ) ≤ Int.log 2 x := (Int.zpow_le_iff_le_log (by norm_num) h).mp (by norm_num; linarith)
        have b : Int.log 2 x < 64 := (Int.lt_zpow_iff_log_lt (by norm_num) h).mp (by norm_num; linarith)
        omega
      have hulp : ulp64 x = 2048 := by
        rw [ulp64_normal hn, hlog]
        norm_num
      unfold round64
      rw [hulp]
      constructor
      · intro hc
        have h1 : (2 : ℚ) ^ 53 ≤ (roundEven (x / 2048) : ℚ) := by linarith
        have h2 := (abs_le.mp (roundEven_error (x / 2048))).2
        have : (2 : ℚ) ^ 53 - 1 / 2 ≤ x / 2048 := by linarith
        rw [le_div_iff₀ (by norm_num)] at this
        linarith
      · intro hc
        have h1 : (9007199254740991 + 1 / 2 : ℚ) ≤ x / 2048 := by
          rw [le_div_iff₀ (by norm_num)]
          linarith
        have h2 := roundEven_mono h1
        have h3 : roundEven (9007199254740991 + 1 / 2 : ℚ) = 9007199254740992 := by
          have hf : ⌊(9007199254740991 + 1 / 2 : ℚ)⌋ = 9007199254740991 := by
            rw [Int.floor_eq_iff]
            norm_num
          unfold roundEven
          simp only [hf]
          norm_num
        rw [h3] at h2
        have h4 : (9007199254740992 : ℚ) ≤ (roundEven (x / 2048) : ℚ) := by exact_mod_cast h2
        linarith
    · push Not at h64
      refine ⟨fun _ => by linarith, fun _ => ?_⟩
      have hlog : (64 : ℤ) ≤ Int.log 2 x := (Int.zpow_le_iff_le_log (by norm_num) h).mp (by norm_num; linarith)
      have hp : (2 : ℚ) ^ 64 ≤ 2 ^ Int.log 2 x := by
        have := zpow_le_zpow_right₀ (a := (2 : ℚ)) (by norm_num) hlog
        calc (2 : ℚ) ^ 64 = 2 ^ (64 : ℤ) := by norm_num
          _ ≤ _ := this
      have hy : ((2 ^ 52 : ℤ) : ℚ) ≤ x / ulp64 x := by
        rw [le_div_iff₀ hu, ulp64_normal hn]
        have := (log_bounds h).1
        push_cast
        linarith
      have h1 := roundEven_mono hy
      rw [roundEven_int] at h1
      have h2 : ((2 ^ 52 : ℤ) : ℚ) ≤ (roundEven (x / ulp64 x) : ℚ) := by exact_mod_cast h1
      calc (2 : ℚ) ^ 64 ≤ 2 ^ Int.log 2 x := hp
        _ = ((2 ^ 52 : ℤ) : ℚ) * ulp64 x := by
          rw [ulp64_normal hn]
          push_cast
          ring
        _ ≤ _ := mul_le_mul_of_nonneg_right h2 hu.le

theorem roundEven_near {y : ℚ} {n : ℤ} (h : |y - n| < 1 / 2) : roundEven y = n := by
  have h1 := abs_le.mp (roundEven_error y)
  have h2 := abs_lt.mp h
  have a : ((roundEven y - n : ℤ) : ℚ) < 1 := by push_cast; linarith
  have b : (-1 : ℚ) < ((roundEven y - n : ℤ) : ℚ) := by push_cast; linarith
  have a' : roundEven y - n < 1 := by exact_mod_cast a
  have b' : -1 < roundEven y - n := by exact_mod_cast b
  omega

end Mvd
