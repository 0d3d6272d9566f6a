import Verif.Props.Duration
import Verif.Lemmas.ParseFloat

/-! C104: durations in match stats, written as decimal numbers. -/

namespace Mvd
open Spec

/-- A number begins with a digit or a point. -/
private theorem number_head {t : Str} {x : ℚ} (h : NumberText t x) : ∃ c r, t = c :: r ∧ c ≠ '-' ∧ c ≠ '+' := by
  obtain ⟨whole, point, frac, power, e, rfl, hw, hf, hne, hp, _, _⟩ := h
  cases whole with
  | cons c w =>
    refine ⟨c, _, rfl, ?_, ?_⟩ <;> (rintro rfl; exact absurd (hw _ List.mem_cons_self) (by decide))
  | nil =>
    rcases hp with rfl | ⟨rfl, rfl⟩
    · exact ⟨'.', _, rfl, by decide, by decide⟩
    · exact absurd rfl hne

private theorem splitSign_plain {sign t : Str} (hs : NoSign sign) (h : ∃ c r, t = c :: r ∧ c ≠ '-' ∧ c ≠ '+') :
    splitSign (sign ++ t) = (false, t) := by
  rcases hs with rfl | rfl
  · obtain ⟨c, r, rfl, h1, h2⟩ := h
    simp only [List.nil_append]
    unfold splitSign
    split
    · rename_i e; injection e with e _; exact absurd e h1
    · rename_i e; injection e with e _; exact absurd e h2
    · rfl
  · rfl

private theorem parse_plain {sign t : Str} {x : ℚ} (hs : NoSign sign) (h : NumberText t x) :
    parseF64 (sign ++ t) = some (signedF64 false x) := by
  unfold parseF64 parseUnsigned
  rw [splitSign_plain hs (number_head h)]
  simp only [parseNumber_eq_some.mpr h]

private theorem parse_minus {t : Str} {x : ℚ} (h : NumberText t x) : parseF64 ('-' :: t) = some (signedF64 true x) := by
  unfold parseF64 parseUnsigned splitSign
  simp only [parseNumber_eq_some.mpr h]

private theorem toLower_head {t : Str} (h : SpecialText t) : ∃ c r, t = c :: r ∧ (c.toLower = 'i' ∨ c.toLower = 'n') := by
  cases t with
  | nil => rcases h with h | h | h <;> cases h
  | cons c r =>
    refine ⟨c, r, rfl, ?_⟩
    rcases h with h | h | h <;> (rw [List.map_cons] at h; injection h with h _)
    exacts [.inl h, .inl h, .inr h]

/-- The words are no numbers. -/
private theorem special_number {t : Str} (h : SpecialText t) : parseNumber t = none := by
  cases hp : parseNumber t with
  | none => rfl
  | some x =>
    exfalso
    obtain ⟨whole, point, frac, power, e, rfl, hw, hf, hne, hpt, _, _⟩ := parseNumber_eq_some.mp hp
    obtain ⟨c, r, he, hc⟩ := toLower_head h
    have hd : asciiDigit c = true ∨ c = '.' := by
      cases whole with
      | cons d w =>
        injection he with he _
        exact .inl (asciiDigit_iff.mpr (he ▸ hw d List.mem_cons_self))
      | nil =>
        rcases hpt with rfl | ⟨rfl, rfl⟩
        · injection he with he _
          exact .inr he.symm
        · exact absurd rfl hne
    have hlow : c.toLower = c := by
      rcases hd with hd | rfl
      · have := asciiDigit_iff.mp hd
        unfold Char.toLower
        rw [dif_neg]
        rintro ⟨h1, _⟩
        have : 'A'.toNat ≤ c.toNat := h1
        have e1 : 'A'.toNat = 65 := rfl
        have e2 : '9'.toNat = 57 := rfl
        omega
      · decide
    rw [hlow] at hc
    rcases hd with hd | rfl
    · rcases hc with rfl | rfl <;> exact absurd hd (by decide)
    · rcases hc with hc | hc <;> exact absurd hc (by decide)

private theorem parse_special {sign t : Str} (hs : NoSign sign ∨ sign = ['-']) (h : SpecialText t) :
    ∃ v, parseF64 (sign ++ t) = some v ∧ ∀ q, v ≠ .finite q := by
  have key : ∃ negative, splitSign (sign ++ t) = (negative, t) := by
    rcases hs with hs | rfl
    · refine ⟨false, splitSign_plain hs ?_⟩
      obtain ⟨c, r, rfl, hc⟩ := toLower_head h
      exact ⟨c, r, rfl, by rintro rfl; revert hc; decide, by rintro rfl; revert hc; decide⟩
    · exact ⟨true, rfl⟩
  obtain ⟨negative, e⟩ := key
  unfold parseF64 parseUnsigned
  rw [e]
  simp only [special_number h]
  by_cases h1 : t.map Char.toLower = chars!"inf" ∨ t.map Char.toLower = chars!"infinity"
  · rw [if_pos h1]
    exact ⟨_, rfl, fun q hq => by cases hq⟩
  · rw [if_neg h1, if_pos (by rcases h with h | h | h; exacts [absurd (.inl h) h1, absurd (.inr h) h1, h])]
    exact ⟨_, rfl, fun q hq => by cases hq⟩

private theorem splitSign_cases (t : Str) : ∃ sign, t = sign ++ (splitSign t).2 ∧ (NoSign sign ∨ sign = ['-']) := by
  unfold splitSign
  split
  · exact ⟨['-'], rfl, .inr rfl⟩
  · exact ⟨['+'], rfl, .inl (.inr rfl)⟩
  · exact ⟨[], rfl, .inl (.inl rfl)⟩

/-- What a recorded duration comes to. -/
private theorem of_value {g : Env} {data : Bytes} {s t : Str} {v : F64} (hl : 1280 ≤ data.length) (hh : ¬ Hoonymode g data)
    (hs : ktxstatsString g data = .ok s) (ht : RecordedDuration s t) (hx : g.parseF64 t = some v) :
    matchDuration g data = durationFromSecsF64 v := by
  obtain ⟨i, j, hij, hsl⟩ := recorded_offsets ht
  unfold matchDuration
  rw [isHoonymode_false g hl hh]
  simp only [R.bind]
  unfold matchDurationFromKtxstats
  rw [hs]
  simp only [R.bind]
  rw [hij]
  simp only
  rw [hsl]
  simp only [hx]
  cases v with
  | finite q =>
    unfold durationFromSecsF64
    by_cases h : q < 0 ∨ 2 ^ 64 ≤ q
    · simp only [if_pos h]; rfl
    · simp only [if_neg h]; rfl
  | inf => rfl
  | nan => rfl

/-- The rounded number, if it is not too large. -/
private theorem signed_small {x : ℚ} (h0 : 0 ≤ x) (h : x < 2 ^ 64 - 2 ^ 10) (negative : Bool) :
    ∃ r : ℚ, signedF64 negative x = .finite (if negative then -r else r) ∧ 0 ≤ r ∧ r < 2 ^ 64 ∧
      (x = 0 → r = 0) ∧ (0 < x → r = round64 x) := by
  rcases lt_or_eq_of_le h0 with h0 | rfl
  · have h1 : round64 x < 2 ^ 64 := by
      by_contra hc
      exact absurd ((round64_large h0).mp (not_lt.mp hc)) (not_le.mpr h)
    refine ⟨round64 x, ?_, round64_nonneg h0.le, h1, fun e => absurd e (ne_of_gt h0), fun _ => rfl⟩
    have h2 : (2 : ℚ) ^ 64 ≤ 2 ^ 1024 := pow_le_pow_right₀ (by norm_num) (by norm_num)
    unfold signedF64
    rw [f64Round_pos h0, if_pos (lt_of_lt_of_le h1 h2)]
  · exact ⟨0, by unfold signedF64 f64Round; rw [if_pos rfl], le_refl _, by norm_num, fun _ => rfl, fun h => absurd h (lt_irrefl _)⟩

private theorem number_nonneg {t : Str} {x : ℚ} (h : NumberText t x) : 0 ≤ x := by
  obtain ⟨whole, point, frac, power, e, rfl, hw, hf, hne, hp, _, rfl⟩ := h
  exact mul_nonneg (Nat.cast_nonneg _) (zpow_nonneg (by norm_num) _)

/-- Any number of seconds is read up to rounding. -/
private theorem close {x : ℚ} (h0 : 0 ≤ x) (h : x < 2 ^ 64 - 2 ^ 10) : ∃ ns : ℕ, durationFromSecsF64 (signedF64 false x) = .ok ns ∧
    ∃ r : ℚ, |(ns : ℚ) - r * 10 ^ 9| ≤ 1 / 2 ∧ ((2 ^ (-1022 : ℤ) ≤ x ∨ x = 0) → |r - x| ≤ x / 2 ^ 53) ∧
      (x < 2 ^ (-1022 : ℤ) → ns = 0) := by
  obtain ⟨r, hr, h1, h2, h3, h4⟩ := signed_small h0 h false
  refine ⟨(roundEven (r * 10 ^ 9)).toNat, ?_, r, ?_, ?_, ?_⟩
  · rw [hr]
    simp only [durationFromSecsF64, Bool.false_eq_true, if_false]
    rw [if_neg (by simp only [not_or, not_lt, not_le]; exact ⟨h1, h2⟩)]
  · have k1 : 0 ≤ roundEven (r * 10 ^ 9) := roundEven_nonneg (by positivity)
    have k2 : (((roundEven (r * 10 ^ 9)).toNat : ℕ) : ℚ) = (roundEven (r * 10 ^ 9) : ℚ) := by
      exact_mod_cast congrArg (fun z : ℤ => (z : ℚ)) (Int.toNat_of_nonneg k1)
    rw [k2]
    exact roundEven_error _
  · rintro (hx | rfl)
    · have : 0 < x := lt_of_lt_of_le (zpow_pos (by norm_num) _) hx
      rw [h4 this]
      exact round64_error hx
    · rw [h3 rfl]
      simp
  · intro hx
    have hr0 : r ≤ 2 ^ (-1021 : ℤ) := by
      rcases lt_or_eq_of_le h0 with h0 | h0
      · rw [h4 h0]
        exact round64_tiny h0 hx
      · rw [h3 h0.symm]
        exact (zpow_pos (by norm_num) _).le
    have hsmall : (2 : ℚ) ^ (-1021 : ℤ) ≤ 2 ^ (-40 : ℤ) := zpow_le_zpow_right₀ (by norm_num) (by norm_num)
    have hnum : (2 : ℚ) ^ (-40 : ℤ) * 10 ^ 9 < 1 / 2 := by norm_num
    have : roundEven (r * 10 ^ 9) = 0 := by
      refine roundEven_near ?_
      simp only [Int.cast_zero, sub_zero]
      rw [abs_of_nonneg (by positivity)]
      exact lt_of_le_of_lt (mul_le_mul_of_nonneg_right (hr0.trans hsmall) (by norm_num)) hnum
    rw [this]
    rfl

/-- C104: seconds with up to nine digits after the point are reported to the nanosecond, up to 48 days. -/
theorem C104_exact (g : Env) (hp : g.parseF64 = parseF64) (data : Bytes) (s t : Str) (ns : ℕ) (hl : 1280 ≤ data.length)
    (hh : ¬ Hoonymode g data) (hs : ktxstatsString g data = .ok s) (ht : RecordedDuration s t) (hw : WritesSeconds t ns)
    (hlt : ns < 2 ^ 22 * 10 ^ 9) : matchDuration g data = .ok ns := by
  obtain ⟨whole, point, frac, rfl, h1, h2, h3, h4, h5, h6⟩ := hw
  obtain ⟨x, hx⟩ : ∃ x : ℚ, x = digitsValue (whole ++ frac) * 10 ^ ((0 : ℤ) - frac.length) := ⟨_, rfl⟩
  have hn : NumberText (whole ++ point ++ frac) x :=
    ⟨whole, point, frac, [], 0, by simp, h1, h2, h3, h4, .inl ⟨rfl, rfl⟩, hx⟩
  have hxns : x * 10 ^ 9 = (ns : ℚ) := by
    rw [hx, h6]
    push_cast
    rw [mul_assoc, zero_sub, zpow_neg, zpow_natCast]
    congr 1
    have : (10 : ℚ) ^ 9 = 10 ^ frac.length * 10 ^ (9 - frac.length) := by rw [← pow_add]; congr 1; omega
    rw [this]
    field_simp
  have hnsq : (ns : ℚ) < 2 ^ 22 * 10 ^ 9 := by exact_mod_cast hlt
  have hx22 : x < 2 ^ 22 := by nlinarith
  have hx0 := number_nonneg hn
  rw [of_value hl hh hs ht (by rw [hp]; exact parse_plain (sign := []) (.inl rfl) hn)]
  obtain ⟨m, hm, r, k1, k2, -⟩ := close hx0 (lt_trans hx22 (by norm_num))
  rw [hm]
  have hbig : 2 ^ (-1022 : ℤ) ≤ x ∨ x = 0 := by
    rcases Nat.eq_zero_or_pos ns with hz | hz
    · right
      rw [hz] at hxns
      simpa using hxns
    · left
      have : (1 : ℚ) ≤ ns := by exact_mod_cast hz
      have hsmall : (2 : ℚ) ^ (-1022 : ℤ) ≤ 2 ^ (-30 : ℤ) := zpow_le_zpow_right₀ (by norm_num) (by norm_num)
      have hnum : (2 : ℚ) ^ (-30 : ℤ) * 10 ^ 9 < 1 := by norm_num
      nlinarith
  have k3 := k2 hbig
  have a := abs_le.mp k1
  have b := abs_le.mp k3
  have h53 : x / 2 ^ 53 * 10 ^ 9 < 1 / 2 := by
    have : x / 2 ^ 53 < 2 ^ 22 / 2 ^ 53 := div_lt_div_of_pos_right hx22 (by norm_num)
    have : x / 2 ^ 53 * 10 ^ 9 < 2 ^ 22 / 2 ^ 53 * 10 ^ 9 := by nlinarith
    refine lt_trans this ?_
    norm_num
  have c1 : ((m : ℤ) - ns : ℚ) < 1 := by push_cast; linarith
  have c2 : (-1 : ℚ) < ((m : ℤ) - ns : ℚ) := by push_cast; linarith
  have d1 : (m : ℤ) - ns < 1 := by exact_mod_cast c1
  have d2 : -1 < (m : ℤ) - ns := by exact_mod_cast c2
  have : m = ns := by omega
  rw [this]

/-- C104: any other decimal number below 2^64 is reported up to rounding: once to a double precision number, once to a
nanosecond. -/
theorem C104_close (g : Env) (hp : g.parseF64 = parseF64) (data : Bytes) (s sign t : Str) (x : ℚ) (hl : 1280 ≤ data.length)
    (hh : ¬ Hoonymode g data) (hs : ktxstatsString g data = .ok s) (ht : RecordedDuration s (sign ++ t)) (hsign : NoSign sign)
    (hn : NumberText t x) (hlt : x < 2 ^ 64 - 2 ^ 10) :
    ∃ ns, matchDuration g data = .ok ns ∧ |(ns : ℚ) - x * 10 ^ 9| ≤ 1 / 2 + x * 10 ^ 9 / 2 ^ 53 := by
  have hx0 := number_nonneg hn
  rw [of_value hl hh hs ht (by rw [hp]; exact parse_plain hsign hn)]
  obtain ⟨m, hm, r, k1, k2, k3⟩ := close hx0 hlt
  refine ⟨m, hm, ?_⟩
  by_cases hbig : 2 ^ (-1022 : ℤ) ≤ x
  · have a := abs_le.mp k1
    have b := abs_le.mp (k2 (.inl hbig))
    rw [abs_le]
    constructor <;> linarith
  · push Not at hbig
    rw [k3 hbig]
    have hsmall : (2 : ℚ) ^ (-1022 : ℤ) ≤ 2 ^ (-40 : ℤ) := zpow_le_zpow_right₀ (by norm_num) (by norm_num)
    have hnum : (2 : ℚ) ^ (-40 : ℤ) * 10 ^ 9 < 1 / 2 := by norm_num
    have : 0 ≤ x * 10 ^ 9 / 2 ^ 53 := by positivity
    simp only [Nat.cast_zero, zero_sub, abs_neg]
    rw [abs_of_nonneg (by positivity)]
    have h9 : x * 10 ^ 9 ≤ 2 ^ (-40 : ℤ) * 10 ^ 9 := mul_le_mul_of_nonneg_right (hbig.le.trans hsmall) (by norm_num)
    exact ((h9.trans hnum.le).trans (le_add_of_nonneg_right this))

/-- C104: a duration panics if it rounds to 2^64 or more, if it is negative, unless so small that it rounds to zero, and if it is
the word for infinity or for what is no number, with any sign. -/
theorem C104_panic (g : Env) (hp : g.parseF64 = parseF64) (data : Bytes) (s sign t : Str) (hl : 1280 ≤ data.length)
    (hh : ¬ Hoonymode g data) (hs : ktxstatsString g data = .ok s) (ht : RecordedDuration s (sign ++ t))
    (hbad : (NoSign sign ∨ sign = ['-']) ∧ SpecialText t ∨ NoSign sign ∧ (∃ x, NumberText t x ∧ 2 ^ 64 - 2 ^ 10 ≤ x) ∨
      sign = ['-'] ∧ ∃ x, NumberText t x ∧ 2 ^ (-1075 : ℤ) < x) : matchDuration g data = .panic := by
  have key : ∃ v, parseF64 (sign ++ t) = some v ∧ ∀ q, v = .finite q → q < 0 ∨ 2 ^ 64 ≤ q := by
    rcases hbad with ⟨h1, h2⟩ | ⟨h1, x, h2, h3⟩ | ⟨rfl, x, h2, h3⟩
    · obtain ⟨v, k1, k2⟩ := parse_special h1 h2
      exact ⟨v, k1, fun q hq => absurd hq (k2 q)⟩
    · refine ⟨_, parse_plain h1 h2, fun q hq => .inr ?_⟩
      have h0 : 0 < x := lt_of_lt_of_le (by norm_num) h3
      have hr := (round64_large h0).mpr h3
      unfold signedF64 at hq
      rw [f64Round_pos h0] at hq
      split at hq
      · rename_i r hr'
        split at hr'
        · injection hr' with hr'
          injection hq with hq
          rw [← hq, ← hr']
          simpa using hr
        · cases hr'
      · cases hq
    · refine ⟨_, parse_minus h2, fun q hq => .inl ?_⟩
      have h0 : 0 < x := lt_trans (zpow_pos (by norm_num) _) h3
      have hr : 0 < round64 x := by
        rcases lt_or_eq_of_le (round64_nonneg h0.le) with h | h
        · exact h
        · exact absurd ((round64_zero_iff h0).mp h.symm) (not_le.mpr h3)
      unfold signedF64 at hq
      rw [f64Round_pos h0] at hq
      split at hq
      · rename_i r hr'
        split at hr'
        · injection hr' with hr'
          injection hq with hq
          rw [← hq, ← hr']
          simpa using hr
        · cases hr'
      · cases hq
  obtain ⟨v, hv, hq⟩ := key
  exact C39_panic g data s _ v hl hh hs ht (by rw [hp]; exact hv) hq

/-- C104: negative numbers so small that they round to zero are zero. -/
theorem C104_tiny (g : Env) (hp : g.parseF64 = parseF64) (data : Bytes) (s t : Str) (x : ℚ) (hl : 1280 ≤ data.length)
    (hh : ¬ Hoonymode g data) (hs : ktxstatsString g data = .ok s) (ht : RecordedDuration s ('-' :: t))
    (hn : NumberText t x) (hx : x ≤ 2 ^ (-1075 : ℤ)) : matchDuration g data = .ok 0 := by
  rw [of_value hl hh hs ht (by rw [hp]; exact parse_minus hn)]
  have hx0 := number_nonneg hn
  have hsmall : (2 : ℚ) ^ (-1075 : ℤ) ≤ 1 := zpow_le_one_of_nonpos₀ (by norm_num) (by norm_num)
  obtain ⟨r, hr, h1, h2, h3, h4⟩ := signed_small hx0 (lt_of_le_of_lt (hx.trans hsmall) (by norm_num)) true
  have : r = 0 := by
    rcases lt_or_eq_of_le hx0 with h0 | h0
    · rw [h4 h0]
      exact (round64_zero_iff h0).mpr hx
    · exact h3 h0.symm
  subst this
  rw [hr]
  simp only [if_true, neg_zero, durationFromSecsF64]
  rw [if_neg (by norm_num), zero_mul]
  have := roundEven_int 0
  simp only [Int.cast_zero] at this
  rw [this]
  rfl

/-- C104: any other text is ignored, and the duration measured from the frames. -/
theorem C104_other (g : Env) (hp : g.parseF64 = parseF64) (data : Bytes) (s t : Str) (hl : 1280 ≤ data.length)
    (hh : ¬ Hoonymode g data) (hs : ktxstatsString g data = .ok s) (ht : RecordedDuration s t)
    (hno : ∀ sign u, t = sign ++ u → (NoSign sign ∨ sign = ['-']) → ¬ SpecialText u ∧ ¬ ∃ x, NumberText u x) :
    matchDuration g data = matchDurationFromSeeking g data := by
  refine C39_fallback g data hl hh (.inr ⟨s, hs, .inr ⟨t, ht, ?_⟩⟩)
  obtain ⟨sign, e, hsign⟩ := splitSign_cases t
  obtain ⟨h1, h2⟩ := hno sign _ e hsign
  have h3 : parseNumber (splitSign t).2 = none := by
    cases hx : parseNumber (splitSign t).2 with
    | none => rfl
    | some x => exact absurd ⟨x, parseNumber_eq_some.mp hx⟩ h2
  rw [hp]
  unfold parseF64 parseUnsigned
  simp only [h3]
  rw [if_neg (by rintro (h | h); exacts [h1 (.inl h), h1 (.inr (.inl h))]), if_neg fun h => h1 (.inr (.inr h))]

namespace Example

/-- An environment that reads numbers as the standard library does. -/
def std : Env := { debug with parseF64 := parseF64 }

/-- Stats with the given text as duration. -/
def lasting (text : Bytes) : Bytes := statsWith (bytes!"{\"version\": 3, \"duration\": " ++ text ++ bytes!", }")

theorem lasting_recorded (text : Str) (h : text ≠ []) (hc : ',' ∉ text) :
    RecordedDuration (chars!"{\"version\": 3, \"duration\": " ++ text ++ chars!", }") text :=
  ⟨chars!"{\"version\": 3, ", chars!" }", by simp, find_eq_some_iff.mp (by simp [find, List.isPrefixOf]), h, hc⟩

end Example

/-- The hypotheses of `C104_exact` are met: ten minutes and a quarter of a second. -/
example : Example.std.parseF64 = parseF64 ∧ 1280 ≤ (Example.lasting bytes!"600.25").length ∧
    ¬ Hoonymode Example.std (Example.lasting bytes!"600.25") ∧
    ktxstatsString Example.std (Example.lasting bytes!"600.25") = .ok chars!"{\"version\": 3, \"duration\": 600.25, }" ∧
    RecordedDuration chars!"{\"version\": 3, \"duration\": 600.25, }" chars!"600.25" ∧
    WritesSeconds chars!"600.25" 600250000000 := by
  refine ⟨rfl, by decide +kernel, not_hoonymode _ (by decide +kernel) (by decide +kernel), by decide +kernel,
    Example.lasting_recorded chars!"600.25" (by decide) (by decide),
    chars!"600", ['.'], chars!"25", rfl, by decide, by decide, by decide, .inl rfl, by decide, by decide⟩

/-- Those of the other theorems: a number with a power of ten, one that is too large, a negative one, a very small negative
one, the word for infinity. -/
example : NumberText chars!"6.5e-1" (65 * 10 ^ ((-1 : ℤ) - 1)) ∧ (65 * 10 ^ ((-1 : ℤ) - 1) : ℚ) < 2 ^ 64 - 2 ^ 10 ∧
    NumberText chars!"1E20" (1 * 10 ^ (20 : ℤ)) ∧ (2 ^ 64 - 2 ^ 10 : ℚ) ≤ 1 * 10 ^ (20 : ℤ) ∧
    NumberText chars!".5" (5 * 10 ^ (-1 : ℤ)) ∧ (2 : ℚ) ^ (-1075 : ℤ) < 5 * 10 ^ (-1 : ℤ) ∧
    NumberText chars!"0." 0 ∧ SpecialText chars!"Inf" := by
  have small : (2 : ℚ) ^ (-1075 : ℤ) ≤ 2 ^ (-2 : ℤ) := zpow_le_zpow_right₀ (by norm_num) (by norm_num)
  have d1 : digitsValue (['6'] ++ ['5']) = 65 := by decide
  have d2 : digitsValue (['1'] ++ []) = 1 := by decide
  have d3 : digitsValue ([] ++ ['5']) = 5 := by decide
  have d4 : digitsValue (['0'] ++ []) = 0 := by decide
  refine ⟨⟨['6'], ['.'], ['5'], chars!"e-1", -1, rfl, by decide, by decide, by decide, .inl rfl,
      .inr ⟨'e', ['-'], ['1'], rfl, .inl rfl, by decide, by decide, .inr ⟨rfl, by decide⟩⟩, by rw [d1]; norm_num⟩, by norm_num,
    ⟨['1'], [], [], chars!"E20", 20, rfl, by decide, by decide, by decide, .inr ⟨rfl, rfl⟩,
      .inr ⟨'E', [], ['2', '0'], rfl, .inr rfl, by decide, by decide, .inl ⟨.inl rfl, by decide⟩⟩, by rw [d2]; norm_num⟩, by norm_num,
    ⟨[], ['.'], ['5'], [], 0, rfl, by decide, by decide, by decide, .inl rfl, .inl ⟨rfl, rfl⟩, by rw [d3]; norm_num⟩,
    lt_of_le_of_lt small (by norm_num),
    ⟨['0'], ['.'], [], [], 0, rfl, by decide, by decide, by decide, .inl rfl, .inl ⟨rfl, rfl⟩, by rw [d4]; norm_num⟩,
    .inl (by decide)⟩

/-- And a text that is none of these. -/
example : ∀ sign u, chars!"10 min" = sign ++ u → (NoSign sign ∨ sign = ['-']) → ¬ SpecialText u ∧ ¬ ∃ x, NumberText u x := by
  have h : parseF64 chars!"10 min" = none := by decide +kernel
  intro sign u e hs
  refine ⟨fun hu => ?_, fun ⟨x, hx⟩ => ?_⟩
  · obtain ⟨v, hv, _⟩ := parse_special hs hu
    rw [← e, h] at hv
    cases hv
  · rcases hs with hs | rfl
    · have := parse_plain hs hx
      rw [← e, h] at this
      cases this
    · cases e

/-- C104, witness: what some texts come to. -/
theorem C104_witness :
    matchDuration Example.std (Example.lasting bytes!"600.25") = .ok 600250000000 ∧
    matchDuration Example.std (Example.lasting bytes!"+6.5e-1") = .ok 650000000 ∧
    matchDuration Example.std (Example.lasting bytes!"0.0000000005") = .ok 1 ∧
    matchDuration Example.std (Example.lasting bytes!"-.5") = .panic ∧
    matchDuration Example.std (Example.lasting bytes!"-0.0") = .ok 0 ∧
    matchDuration Example.std (Example.lasting bytes!"18446744073709550591") = .ok 18446744073709549568000000000 ∧
    matchDuration Example.std (Example.lasting bytes!"18446744073709550592") = .panic ∧
    matchDuration Example.std (Example.lasting bytes!"-INFINITY") = .panic ∧
    matchDuration Example.std (Example.lasting bytes!"10 min") = matchDurationFromSeeking Example.std (Example.lasting bytes!"10 min") := by
  decide +kernel

end Mvd
