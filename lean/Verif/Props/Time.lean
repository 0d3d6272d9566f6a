import Verif.Lemmas.Time
import Verif.Lemmas.Duration
import Verif.Props.Info

/-! C53–C57. -/

namespace Spec
open Mvd

/-- What is relied on about `chrono`: an existing date and time with a signed offset (below 24 hours) is read as the
instant it denotes. -/
def ReadsDates (parse : Str → Option Int) : Prop :=
  ∀ t : DateTime, t.Valid → ∀ offset minutes, OffsetText offset minutes → parse (t.text ++ offset) = some (t.instant minutes)

end Spec

namespace Mvd
open Spec

/-! ### C53 -/

/-- C53: every abbreviation of the table gives a text that stands for its offset. -/
theorem C53_abbreviation (abbr : String) (minutes : Int) (h : (abbr, minutes) ∈ zones) :
    ∃ text, utcOffset abbr.toList = .ok (some text) ∧ OffsetText text minutes := by
  have := table_zones _ h
  simp only at this
  cases ht : utcOffsetByAbbr abbr.toList with
  | none => rw [ht] at this; cases this
  | some t =>
    rw [ht] at this
    exact ⟨t, by rw [utcOffset, ht], offsetMinutes_sound this⟩

/-- C53: any other text that does not begin with a sign is no time zone. -/
theorem C53_other (s : Str) (h : ∀ z ∈ zones, z.1.toList ≠ s) (h1 : s.head? ≠ some '+') (h2 : s.head? ≠ some '-') :
    utcOffset s = .ok none := by
  rw [utcOffset_other h1 h2]
  cases ht : utcOffsetByAbbr s with
  | none => rfl
  | some t =>
    obtain ⟨z, hz, e⟩ := List.mem_map.mp (table_keys _ (utcOffsetByAbbr_mem ht))
    exact absurd e (h z hz)

/-- C53: no abbreviation is ambiguous. -/
theorem C53_functional (abbr : String) (m n : Int) (h : (abbr, m) ∈ zones) (h' : (abbr, n) ∈ zones) : m = n := by
  have e1 := table_zones _ h
  have e2 := table_zones _ h'
  simp only at e1 e2
  rw [e1] at e2
  exact Option.some.inj e2

/-- C53: the second listings of AST and LHST (`-04:00`, `+11:00`) are never used. -/
theorem C53_shadowed : (chars!"AST", chars!"-04:00") ∈ UTC_OFFSET_BY_ABBR ∧ (chars!"LHST", chars!"+11:00") ∈ UTC_OFFSET_BY_ABBR ∧
    utcOffset chars!"AST" = .ok (some chars!"+03:00") ∧ utcOffset chars!"LHST" = .ok (some chars!"+10:30") := by decide +kernel

/-- C53: an offset text stands for one number of minutes. -/
theorem C53_denotes (t : Str) (m n : Int) (h : OffsetText t m) (h' : OffsetText t n) : m = n := by
  obtain ⟨s, a, b, c, d, rfl, _, _, _, _, _, _, hs⟩ := h
  obtain ⟨s', a', b', c', d', e, _, _, _, _, _, _, hs'⟩ := h'
  simp only [List.cons.injEq, and_true] at e
  obtain ⟨rfl, rfl, rfl, _, rfl, rfl⟩ := e
  rcases hs with ⟨rfl, rfl⟩ | ⟨hs, rfl⟩ <;> rcases hs' with ⟨e, rfl⟩ | ⟨hs', rfl⟩
  · rfl
  · rcases hs' with e | e <;> exact absurd e (by decide)
  · subst e; rcases hs with e | e <;> exact absurd e (by decide)
  · rfl

example : ("CEST", 120) ∈ zones ∧ ("NST", -210) ∈ zones ∧ utcOffset chars!"NST" = .ok (some chars!"−03:30") ∧
    (∀ z ∈ zones, z.1.toList ≠ chars!"FOO") ∧ utcOffset chars!"FOO" = .ok none := by decide +kernel

/-! ### C54 -/

/-- C54: which signed texts are accepted, and as what: colons are dropped, zeros are added at the end up to four
characters. -/
theorem C54_accepted (sign : Char) (hs : sign = '+' ∨ sign = '-') (rest text : Str) :
    utcOffset (sign :: rest) = .ok (some text) ↔
      ∃ n a b c d, rest.filter (· ≠ ':') ++ List.replicate n '0' = [a, b, c, d] ∧ Accepted a b c d ∧
        text = [sign, a, b, ':', c, d] := (utcOffset_sign hs rest).2 text

/-- C54: the lookup never panics. -/
theorem C54_total (s : Str) : ∃ r, utcOffset s = .ok r := utcOffset_ok s

theorem digit_ne_colon {c : Char} (h : IsDigit c) : c ≠ ':' := by
  rintro rfl
  exact absurd h (by unfold IsDigit; decide)

theorem filter_digits : ∀ {l : Str}, (∀ c ∈ l, IsDigit c) → l.filter (· ≠ ':') = l
  | [], _ => rfl
  | c :: l, h => by
    rw [List.filter_cons, filter_digits fun c hc => h c (by simp [hc])]
    have := digit_ne_colon (h c (by simp))
    simp [this]

/-- C54: hours and minutes with and without colon, and hours alone, up to 1200. -/
theorem C54_normalised (sign : Char) (hs : sign = '+' ∨ sign = '-') (a b c d : Char) (ha : IsDigit a) (hb : IsDigit b)
    (hc : IsDigit c) (hd : IsDigit d) (hle : 1000 * digit a + 100 * digit b + 10 * digit c + digit d ≤ 1200) :
    utcOffset [sign, a, b, c, d] = .ok (some [sign, a, b, ':', c, d]) ∧
    utcOffset [sign, a, b, ':', c, d] = .ok (some [sign, a, b, ':', c, d]) ∧
    utcOffset [sign, a, b] = .ok (some [sign, a, b, ':', '0', '0']) := by
  have hz : IsDigit '0' := by unfold IsDigit; decide
  have hz0 : digit '0' = 0 := rfl
  refine ⟨?_, ?_, ?_⟩
  · rw [C54_accepted sign hs]
    refine ⟨0, a, b, c, d, ?_, .inl ⟨ha, hb, hc, hd, hle⟩, rfl⟩
    rw [filter_digits (by simp [ha, hb, hc, hd])]
    rfl
  · rw [C54_accepted sign hs]
    refine ⟨0, a, b, c, d, ?_, .inl ⟨ha, hb, hc, hd, hle⟩, rfl⟩
    have : [a, b, ':', c, d] = [a, b] ++ ':' :: [c, d] := rfl
    have hab : [a, b].filter (· ≠ ':') = [a, b] := filter_digits (by simp [ha, hb])
    have hcd : [c, d].filter (· ≠ ':') = [c, d] := filter_digits (by simp [hc, hd])
    have h5 : (':' :: [c, d]).filter (· ≠ ':') = [c, d].filter (· ≠ ':') := List.filter_cons_of_neg (by simp)
    rw [this, List.filter_append, h5, hab, hcd]
    rfl
  · rw [C54_accepted sign hs]
    refine ⟨2, a, b, '0', '0', ?_, .inl ⟨ha, hb, hz, hz, by omega⟩, rfl⟩
    rw [filter_digits (by simp [ha, hb])]
    rfl

/-- C54: when the minutes are below 60 the result stands for the offset written. -/
theorem C54_denotes (sign : Char) (hs : sign = '+' ∨ sign = '-') (a b c d : Char) (ha : IsDigit a) (hb : IsDigit b)
    (hc : IsDigit c) (hd : IsDigit d) (hle : 1000 * digit a + 100 * digit b + 10 * digit c + digit d ≤ 1200)
    (hm : 10 * digit c + digit d < 60) :
    OffsetText [sign, a, b, ':', c, d] ((if sign = '+' then 1 else -1) * (60 * (10 * digit a + digit b) + (10 * digit c + digit d))) := by
  refine ⟨sign, a, b, c, d, rfl, ha, hb, hc, hd, by omega, hm, ?_⟩
  rcases hs with rfl | rfl
  · exact .inl ⟨rfl, by simp⟩
  · exact .inr ⟨.inl rfl, by simp⟩

/-- C54: four digits above 1200 are rejected, as are texts of more than four digits. -/
theorem C54_rejected (sign : Char) (hs : sign = '+' ∨ sign = '-') (ds : Str) (hd : ∀ c ∈ ds, IsDigit c)
    (h : 4 < ds.length ∨ ∃ a b c d, ds = [a, b, c, d] ∧ 1200 < 1000 * digit a + 100 * digit b + 10 * digit c + digit d) :
    utcOffset (sign :: ds) = .ok none := by
  obtain ⟨r, hr⟩ := C54_total (sign :: ds)
  rw [hr]
  cases r with
  | none => rfl
  | some t =>
    obtain ⟨n, a, b, c, d, e, hacc, _⟩ := (C54_accepted sign hs ds t).mp hr
    rw [filter_digits hd] at e
    rcases h with h | ⟨a', b', c', d', rfl, h⟩
    · have := congrArg List.length e
      rw [List.length_append, List.length_replicate] at this
      simp only [List.length_cons, List.length_nil] at this
      omega
    · have : n = 0 := by
        have := congrArg List.length e
        rw [List.length_append, List.length_replicate] at this
        simp only [List.length_cons, List.length_nil] at this
        omega
      subst this
      simp only [List.replicate_zero, List.append_nil, List.cons.injEq, and_true] at e
      obtain ⟨rfl, rfl, rfl, rfl⟩ := e
      have ha := hd a' (by simp)
      rcases hacc with ⟨_, _, _, _, hle⟩ | ⟨rfl, _⟩ | ⟨rfl, _⟩
      · omega
      · exact absurd ha (by unfold IsDigit; decide)
      · exact absurd ha (by unfold IsDigit; decide)

example : utcOffset chars!"+0530" = .ok (some chars!"+05:30") ∧ utcOffset chars!"-12" = .ok (some chars!"-12:00") ∧
    utcOffset chars!"+1201" = .ok none := by decide +kernel

/-- C54: accepted texts that give no proper offset, or not the one expected. -/
theorem C54_witness : utcOffset chars!"++100" = .ok (some chars!"++1:00") ∧ utcOffset chars!"+-000" = .ok (some chars!"+-0:00") ∧
    utcOffset chars!"+0199" = .ok (some chars!"+01:99") ∧ utcOffset chars!"+1" = .ok (some chars!"+10:00") ∧
    (¬ ∃ m, OffsetText chars!"++1:00" m) ∧ ¬ ∃ m, OffsetText chars!"+01:99" m := by
  refine ⟨by decide +kernel, by decide +kernel, by decide +kernel, by decide +kernel, ?_, ?_⟩
  · rintro ⟨m, s, a, b, c, d, e, ha, _⟩
    simp only [List.cons.injEq, and_true] at e
    obtain ⟨_, rfl, _⟩ := e
    exact absurd ha (by unfold IsDigit; decide)
  · rintro ⟨m, s, a, b, c, d, e, _, _, _, _, _, h60, _⟩
    simp only [List.cons.injEq, and_true] at e
    obtain ⟨_, _, _, _, rfl, rfl⟩ := e
    exact absurd h60 (by decide)

/-! ### C55 -/

theorem needle_eq : MATCHDATE_NEEDLE = matchdatePrint := matchdatePrint_eq

theorem matchdateString_missing (data : Bytes) (h : ¬ Occurs matchdatePrint data) :
    matchdateString data = .err .matchdateNotFound := by
  unfold matchdateString
  rw [needle_eq, find_eq_none_iff.mpr h]

/-- C55: if no newline follows, the match date is invalid. -/
theorem C55_no_newline (pre post : Bytes) (hf : FirstAt matchdatePrint (pre ++ matchdatePrint ++ post) pre.length)
    (h : 10 ∉ post) : matchdateString (pre ++ matchdatePrint ++ post) = .err .invalidMatchdate := by
  unfold matchdateString
  rw [needle_eq, find_eq_some_iff.mpr hf]
  simp only
  have hd : (pre ++ matchdatePrint ++ post).drop (pre.length + matchdatePrint.length) = post := by
    rw [← List.length_append]; simp
  rw [hd, findByte_eq_none_iff.mpr h]

theorem matchdateString_eq (pre text post : Bytes)
    (hf : FirstAt matchdatePrint (pre ++ matchdatePrint ++ (text ++ 10 :: post)) pre.length) (h : 10 ∉ text) :
    matchdateString (pre ++ matchdatePrint ++ (text ++ 10 :: post)) =
      if 22 ≤ text.length ∧ text.length ≤ 25 then
        (match fromUtf8 text with
        | some s => .ok s
        | none => .err .utf8)
      else .err .invalidMatchdate := by
  unfold matchdateString
  rw [needle_eq, find_eq_some_iff.mpr hf]
  simp only
  have hd : (pre ++ matchdatePrint ++ (text ++ 10 :: post)).drop (pre.length + matchdatePrint.length) = text ++ 10 :: post := by
    rw [← List.length_append]; simp
  rw [hd, findByte_eq_some_iff.mpr ⟨text, post, rfl, rfl, h⟩]
  simp only
  rw [show text.length + (pre.length + matchdatePrint.length) - (pre.length + matchdatePrint.length) = text.length by omega,
    show MATCHDATE_MIN_LEN = 22 by decide, show MATCHDATE_MAX_LEN = 25 by decide]
  by_cases hl : 22 ≤ text.length ∧ text.length ≤ 25
  · rw [if_pos hl, if_pos hl]
    have : slice (pre ++ matchdatePrint ++ (text ++ 10 :: post)) (pre.length + matchdatePrint.length)
        (text.length + (pre.length + matchdatePrint.length)) = .ok text := by
      unfold slice
      rw [if_pos (by constructor <;> simp <;> omega), hd]
      rw [show text.length + (pre.length + matchdatePrint.length) - (pre.length + matchdatePrint.length) = text.length by omega]
      simp
    rw [this]
    rfl
  · rw [if_neg hl, if_neg hl]

/-- C55: the text up to the newline, if it has 22 to 25 bytes. -/
theorem C55_text (pre post : Bytes) (s : Str)
    (hf : FirstAt matchdatePrint (pre ++ matchdatePrint ++ (utf8 s ++ 10 :: post)) pre.length) (h : 10 ∉ utf8 s)
    (hl : 22 ≤ (utf8 s).length ∧ (utf8 s).length ≤ 25) :
    matchdateString (pre ++ matchdatePrint ++ (utf8 s ++ 10 :: post)) = .ok s := by
  rw [matchdateString_eq _ _ _ hf h, if_pos hl, fromUtf8_eq_some_iff.mpr rfl]

/-- C55: a text of another length is invalid, one that is not UTF-8 is a decoding error. -/
theorem C55_bad (pre text post : Bytes)
    (hf : FirstAt matchdatePrint (pre ++ matchdatePrint ++ (text ++ 10 :: post)) pre.length) (h : 10 ∉ text) :
    (text.length < 22 ∨ 25 < text.length →
      matchdateString (pre ++ matchdatePrint ++ (text ++ 10 :: post)) = .err .invalidMatchdate) ∧
    (22 ≤ text.length → text.length ≤ 25 → (¬ ∃ s, utf8 s = text) →
      matchdateString (pre ++ matchdatePrint ++ (text ++ 10 :: post)) = .err .utf8) := by
  rw [matchdateString_eq _ _ _ hf h]
  constructor
  · intro hb
    rw [if_neg (by omega)]
  · intro h1 h2 hb
    rw [if_pos ⟨h1, h2⟩, fromUtf8_eq_none_iff.mpr hb]

/-- C55: there is no other case, and in particular no panic. -/
theorem C55_outcome (data : Bytes) :
    (∃ e, matchdateString data = .err e ∧
      (e = .matchdateNotFound ∧ ¬ Occurs matchdatePrint data ∨ e = .invalidMatchdate ∧ Occurs matchdatePrint data ∨
        e = .utf8 ∧ Occurs matchdatePrint data)) ∨
    ∃ pre s post, data = pre ++ matchdatePrint ++ (utf8 s ++ 10 :: post) ∧ FirstAt matchdatePrint data pre.length ∧
      10 ∉ utf8 s ∧ 22 ≤ (utf8 s).length ∧ (utf8 s).length ≤ 25 ∧ matchdateString data = .ok s := by
  by_cases ho : Occurs matchdatePrint data
  · cases hf : find matchdatePrint data with
    | none => exact absurd ho (find_eq_none_iff.mp hf)
    | some i =>
      have hfa := find_eq_some_iff.mp hf
      obtain ⟨pre, rest, rfl, rfl⟩ := hfa.1
      by_cases hn : 10 ∈ rest
      · cases hb : findByte 10 rest with
        | none => exact absurd hn (findByte_eq_none_iff.mp hb)
        | some k =>
          obtain ⟨text, post, rfl, _, hnt⟩ := findByte_eq_some_iff.mp hb
          have hbad := C55_bad _ _ _ hfa hnt
          by_cases hlen : text.length < 22 ∨ 25 < text.length
          · exact .inl ⟨_, hbad.1 hlen, .inr (.inl ⟨rfl, ho⟩)⟩
          · by_cases h3 : ∃ s, utf8 s = text
            · obtain ⟨s, rfl⟩ := h3
              exact .inr ⟨pre, s, post, rfl, hfa, hnt, by omega, by omega, C55_text _ _ _ hfa hnt ⟨by omega, by omega⟩⟩
            · exact .inl ⟨_, hbad.2 (by omega) (by omega) h3, .inr (.inr ⟨rfl, ho⟩)⟩
      · exact .inl ⟨_, C55_no_newline _ _ hfa hn, .inr (.inl ⟨rfl, ho⟩)⟩
  · exact .inl ⟨_, matchdateString_missing data ho, .inl ⟨rfl, ho⟩⟩

/-- C55: "not found" exactly when there is no match date print. -/
theorem C55_missing (data : Bytes) : matchdateString data = .err .matchdateNotFound ↔ ¬ Occurs matchdatePrint data := by
  refine ⟨fun h ho => ?_, matchdateString_missing data⟩
  rcases C55_outcome data with ⟨e, he, ⟨rfl, hn⟩ | ⟨rfl, _⟩ | ⟨rfl, _⟩⟩ | ⟨_, s, _, _, _, _, _, _, hs⟩
  · exact hn ho
  · rw [h] at he; cases he
  · rw [h] at he; cases he
  · rw [h] at hs; cases hs

namespace Example

/-- A demo with a match date. -/
def dated (text : Bytes) : Bytes := [1, 2, 3] ++ matchdatePrint ++ (text ++ 10 :: [0, 7])

instance (needle hay : Bytes) : Decidable (FirstAt needle hay 3) :=
  decidable_of_iff (find needle hay = some 3) find_eq_some_iff

end Example

example : FirstAt matchdatePrint (Example.dated bytes!"2024-04-02 21:02:17 CEST") 3 ∧
    matchdateString (Example.dated bytes!"2024-04-02 21:02:17 CEST") = .ok chars!"2024-04-02 21:02:17 CEST" ∧
    FirstAt matchdatePrint (Example.dated bytes!"2024-04-02 21:02:17 CESTXY") 3 ∧
    matchdateString (Example.dated bytes!"2024-04-02 21:02:17 CESTXY") = .err .invalidMatchdate ∧
    matchdateString (Example.dated bytes!"2024-04-02 21:02:17") = .err .invalidMatchdate ∧
    matchdateString ([1, 2, 3] ++ matchdatePrint ++ bytes!"2024-04-02 21:02:17 CEST") = .err .invalidMatchdate ∧
    matchdateString (matchdatePrint.drop 1 ++ bytes!"2024-04-02 21:02:17 CEST" ++ [10]) = .err .matchdateNotFound := by
  decide +kernel

/-! ### C56 -/

theorem matchdate_of_text (g : Env) {data : Bytes} {s : Str} (h : matchdateString data = .ok s) :
    matchdate g data = (replaceTzAbbrWithOffset s).bind fun fixed =>
      match g.parseDate fixed with
      | some t => .ok t
      | none => .err .parseDate := by
  unfold matchdate
  rw [h]
  rfl

/-- C56: an error in finding the text is an error. -/
theorem C56_no_text (g : Env) (data : Bytes) (e : Err) (h : matchdateString data = .err e) : matchdate g data = .err e := by
  unfold matchdate
  rw [h]
  rfl

/-- C56: the date and time (19 bytes), a character of one byte, then the time zone. What is read is the date and time
followed by the offset of the time zone. -/
theorem C56_conversion (g : Env) (data : Bytes) (date zone offset : Str) (c : Char)
    (h : matchdateString data = .ok (date ++ c :: zone)) (hl : (utf8 date).length = 19) (hc : (utf8 [c]).length = 1)
    (hz : utcOffset zone = .ok (some offset)) :
    matchdate g data = match g.parseDate (date ++ offset) with
      | some t => .ok t
      | none => .err .parseDate := by
  rw [matchdate_of_text g h]
  unfold replaceTzAbbrWithOffset
  have h1 : strFrom (date ++ c :: zone) (DATETIME_LEN + 1) = .ok zone := by
    refine strFrom_ok_iff.mpr ⟨date ++ [c], by simp, ?_⟩
    rw [utf8_append, List.length_append, hl, hc]
    decide
  have h2 : strTo (date ++ c :: zone) DATETIME_LEN = .ok date := strTo_ok_iff.mpr ⟨c :: zone, rfl, by rw [hl]; decide⟩
  rw [h1]
  simp only [R.bind]
  rw [hz]
  simp only [h2]

/-- C56: an unknown time zone is an error. -/
theorem C56_unknown_zone (g : Env) (data : Bytes) (front zone : Str)
    (h : matchdateString data = .ok (front ++ zone)) (hl : (utf8 front).length = 20) (hz : utcOffset zone = .ok none) :
    matchdate g data = .err .invalidTimezone := by
  rw [matchdate_of_text g h]
  unfold replaceTzAbbrWithOffset
  have h1 : strFrom (front ++ zone) (DATETIME_LEN + 1) = .ok zone :=
    strFrom_ok_iff.mpr ⟨front, rfl, by rw [hl]; decide⟩
  rw [h1]
  simp only [R.bind]
  rw [hz]

/-- C56: the panics: byte 20 is inside a character, or byte 19 is and the time zone is known. -/
theorem C56_panic_iff (g : Env) (data : Bytes) :
    matchdate g data = .panic ↔ ∃ s, matchdateString data = .ok s ∧
      ((¬ ∃ a b, s = a ++ b ∧ (utf8 a).length = 20) ∨
       ((¬ ∃ a b, s = a ++ b ∧ (utf8 a).length = 19) ∧
          ∃ a b offset, s = a ++ b ∧ (utf8 a).length = 20 ∧ utcOffset b = .ok (some offset))) := by
  rcases C55_outcome data with ⟨e, he, -⟩ | ⟨_, s, _, _, _, _, _, _, hs⟩
  · constructor
    · intro h; rw [C56_no_text g data e he] at h; cases h
    · rintro ⟨s, hs, _⟩; rw [he] at hs; cases hs
  · rw [hs]
    simp only [R.ok.injEq, exists_eq_left']
    rw [matchdate_of_text g hs]
    unfold replaceTzAbbrWithOffset
    have h20 : DATETIME_LEN + 1 = 20 := by decide
    have h19 : DATETIME_LEN = 19 := by decide
    by_cases b20 : ∃ a b, s = a ++ b ∧ (utf8 a).length = 20
    · obtain ⟨a, b, hab, ha⟩ := b20
      have h1 : strFrom s (DATETIME_LEN + 1) = .ok b := by rw [h20]; exact strFrom_ok_iff.mpr ⟨a, hab, ha⟩
      have huniq : ∀ a' b', s = a' ++ b' → (utf8 a').length = 20 → b' = b := by
        intro a' b' h h'
        have := strFrom_ok_iff.mpr ⟨a', h, h'⟩
        rw [← h20, h1] at this
        cases this
        rfl
      rw [h1]
      simp only [R.bind]
      obtain ⟨r, hr⟩ := utcOffset_ok b
      rw [hr]
      cases r with
      | none =>
        simp only [reduceCtorEq, false_iff]
        rintro (hn | ⟨_, a', b', o, h, h', ho⟩)
        · exact hn ⟨a, b, hab, ha⟩
        · rw [huniq a' b' h h', hr] at ho; cases ho
      | some o =>
        simp only
        by_cases b19 : ∃ a b, s = a ++ b ∧ (utf8 a).length = 19
        · obtain ⟨a', b', hab', ha'⟩ := b19
          have h2 : strTo s DATETIME_LEN = .ok a' := by rw [h19]; exact strTo_ok_iff.mpr ⟨b', hab', ha'⟩
          rw [h2]
          simp only
          constructor
          · intro h
            cases hp : g.parseDate (a' ++ o) with
            | none => rw [hp] at h; cases h
            | some t => rw [hp] at h; cases h
          · rintro (hn | ⟨hn, _⟩)
            · exact absurd ⟨a, b, hab, ha⟩ hn
            · exact absurd ⟨a', b', hab', ha'⟩ hn
        · have h2 : strTo s DATETIME_LEN = .panic := by rw [h19]; exact strTo_panic_iff.mpr b19
          rw [h2]
          simp only [true_iff]
          exact .inr ⟨b19, a, b, o, hab, ha, hr⟩
    · have h1 : strFrom s (DATETIME_LEN + 1) = .panic := by rw [h20]; exact strFrom_panic_iff.mpr b20
      rw [h1]
      simp only [R.bind, true_iff]
      exact .inl b20

theorem two_ascii (n : Nat) : ∀ c ∈ two n, c.toNat < 0x80 := by
  have : ∀ k : Nat, (digitChar k).toNat < 0x80 := by
    intro k
    unfold digitChar
    have h0 : '0'.toNat = 48 := rfl
    rw [toNat_ofNat (.inl (by omega))]
    omega
  intro c hc
  simp only [two, List.mem_cons, List.not_mem_nil, or_false] at hc
  rcases hc with rfl | rfl <;> exact this _

theorem text_ascii (t : DateTime) : ∀ c ∈ t.text, c.toNat < 0x80 := by
  intro c hc
  have hl : ∀ x ∈ (['-', ' ', ':'] : List Char), x.toNat < 0x80 := by decide
  unfold DateTime.text at hc
  simp only [List.mem_append, List.mem_singleton] at hc
  rcases hc with ((((((((((hc | hc) | rfl) | hc) | rfl) | hc) | rfl) | hc) | rfl) | hc) | rfl) | hc
  all_goals first
    | exact two_ascii _ _ hc
    | exact hl _ (by simp)

/-- C56: the match date of a demo whose match date print has an existing date and time and a known time zone. -/
theorem C56_instant (g : Env) (hg : ReadsDates g.parseDate) (data : Bytes) (t : DateTime) (ht : t.Valid) (zone offset : Str)
    (minutes : Int) (h : matchdateString data = .ok (t.text ++ ' ' :: zone)) (hz : utcOffset zone = .ok (some offset))
    (ho : OffsetText offset minutes) : matchdate g data = .ok (t.instant minutes) := by
  rw [C56_conversion g data t.text zone offset ' ' h ?_ (by decide) hz, hg t ht offset minutes ho]
  rw [utf8_length_ascii _ (text_ascii t)]
  rfl

namespace Example

/-- A reader of dates. -/
def readDate : Str → Option Int
  | y1 :: y2 :: y3 :: y4 :: _ :: m1 :: m2 :: _ :: d1 :: d2 :: _ :: h1 :: h2 :: _ :: n1 :: n2 :: _ :: s1 :: s2 :: offset =>
    (offsetMinutes? offset).map (DateTime.mk (1000 * digit y1 + 100 * digit y2 + 10 * digit y3 + digit y4)
      (10 * digit m1 + digit m2) (10 * digit d1 + digit d2) (10 * digit h1 + digit h2) (10 * digit n1 + digit n2)
      (10 * digit s1 + digit s2)).instant
  | _ => none

/-- The environment of examples with a reader of dates. -/
def dates (checks : Bool) : Env := { env checks false true with parseDate := readDate }

theorem offsetMinutes_complete {t : Str} {m : Int} (h : OffsetText t m) : offsetMinutes? t = some m := by
  obtain ⟨s, a, b, c, d, rfl, ha, hb, hc, hd, h14, h60, hs⟩ := h
  unfold offsetMinutes?
  simp only
  rw [if_pos ⟨trivial, ha, hb, hc, hd, h14, h60⟩]
  rcases hs with ⟨rfl, rfl⟩ | ⟨hs, rfl⟩
  · rw [if_pos rfl]
  · rw [if_neg (by rcases hs with rfl | rfl <;> decide), if_pos hs]

theorem digit_digitChar (n : Nat) : digit (digitChar n) = n % 10 := by
  unfold digit digitChar
  have h0 : '0'.toNat = 48 := rfl
  rw [toNat_ofNat (.inl (by omega))]
  omega

/-- The assumption on the reader of dates can be met. -/
theorem readsDates : ReadsDates readDate := by
  intro t ht offset m ho
  obtain ⟨hy, _, hm, _, hd, hh, hn, hs⟩ := ht
  have hd' : t.day < 100 := by
    unfold daysInMonth at hd
    split at hd
    · split at hd <;> omega
    · split at hd <;> omega
  unfold DateTime.text two
  simp only [List.cons_append, List.nil_append, readDate, digit_digitChar, offsetMinutes_complete ho, Option.map_some]
  have e1 : 1000 * (t.year / 100 / 10 % 10) + 100 * (t.year / 100 % 10) + 10 * (t.year / 10 % 10) + t.year % 10 = t.year := by omega
  have e2 : 10 * (t.month / 10 % 10) + t.month % 10 = t.month := by omega
  have e3 : 10 * (t.day / 10 % 10) + t.day % 10 = t.day := by omega
  have e4 : 10 * (t.hour / 10 % 10) + t.hour % 10 = t.hour := by omega
  have e5 : 10 * (t.minute / 10 % 10) + t.minute % 10 = t.minute := by omega
  have e6 : 10 * (t.second / 10 % 10) + t.second % 10 = t.second := by omega
  rw [e1, e2, e3, e4, e5, e6]

end Example

/-- A date of the repository's tests (matchdate.rs:141, timestamp.rs:43), and a date before the epoch. -/
example : (DateTime.mk 2024 4 26 16 59 29).Valid ∧ (DateTime.mk 2024 4 26 16 59 29).text = chars!"2024-04-26 16:59:29" ∧
    (DateTime.mk 2024 4 26 16 59 29).instant 120 = 1714143569 ∧ (DateTime.mk 1969 12 31 23 59 59).instant 0 = -1 := by
  refine ⟨?_, ?_⟩
  · unfold DateTime.Valid; decide +kernel
  · decide +kernel

example : ReadsDates (Example.dates true).parseDate ∧
    matchdateString (Example.dated bytes!"2024-04-02 21:02:17 CEST") = .ok ((DateTime.mk 2024 4 2 21 2 17).text ++ ' ' :: chars!"CEST") ∧
    utcOffset chars!"CEST" = .ok (some chars!"+02:00") ∧
    matchdate (Example.dates true) (Example.dated bytes!"2024-04-02 21:02:17 CEST") = .ok 1712084537 ∧
    matchdate (Example.dates true) (Example.dated bytes!"2024-04-02 21:02:17 FOO") = .err .invalidTimezone :=
  ⟨Example.readsDates, by decide +kernel, by decide +kernel, by decide +kernel, by decide +kernel⟩

/-- C56, both panics: a two-byte character across byte 20, and one across byte 19 before a known time zone; before an
unknown one there is an error. -/
theorem C56_panic_witness : matchdate Example.release (Example.dated (utf8 chars!"2024-04-02 21:02:17é CET")) = .panic ∧
    matchdate Example.release (Example.dated (utf8 chars!"2024-04-02 21:02:1éCEST")) = .panic ∧
    matchdate Example.release (Example.dated (utf8 chars!"2024-04-02 21:02:1éCEXX")) = .err .invalidTimezone := by decide +kernel

/-! ### C57 -/

/-- C57: the epoch of the serverinfo, when there is one. -/
theorem C57_epoch (g : Env) (data text : Bytes) (hl : 1280 ≤ data.length) (h : ServerinfoText data text) (epoch : Int)
    (he : (g.settings (g.toUtf8 text)).epoch = some epoch) : timestamp g data = .ok epoch := by
  have := (C14_serverinfo_string g data hl _).mpr ⟨text, h, rfl⟩
  unfold timestamp timestampFromEpoch serverinfo
  rw [this]
  simp only [R.bind, he, R.orElse]

/-- C57: the epoch alone: found exactly when the serverinfo has one. -/
theorem C57_epoch_exact (g : Env) (data : Bytes) (hl : 1280 ≤ data.length) (epoch : Int) :
    (timestampFromEpoch g data = .ok epoch ↔
      ∃ text, ServerinfoText data text ∧ (g.settings (g.toUtf8 text)).epoch = some epoch) ∧
    (timestampFromEpoch g data = .err .serverinfoNotFound ↔ ¬ ∃ text, ServerinfoText data text) ∧
    (timestampFromEpoch g data = .err .epochNotFound ↔
      ∃ text, ServerinfoText data text ∧ (g.settings (g.toUtf8 text)).epoch = none) := by
  unfold timestampFromEpoch serverinfo
  by_cases h : ∃ text, ServerinfoText data text
  · obtain ⟨text, ht⟩ := h
    have key : ∀ P : Bytes → Prop, (∃ t, ServerinfoText data t ∧ P t) ↔ P text := by
      refine fun P => ⟨?_, fun h => ⟨text, ht, h⟩⟩
      rintro ⟨t, h1, h⟩
      rwa [(C14_serverinfo_error g data hl).2 _ _ ht h1]
    rw [(C14_serverinfo_string g data hl _).mpr ⟨text, ht, rfl⟩, key, key]
    cases he : (g.settings (g.toUtf8 text)).epoch <;> simp [R.bind, he, show ∃ t, ServerinfoText data t from ⟨text, ht⟩]
  · rw [(C14_serverinfo_error g data hl).1.mpr h]
    have : ∀ P : Bytes → Prop, ¬ ∃ t, ServerinfoText data t ∧ P t := fun P ⟨t, h1, _⟩ => h ⟨t, h1⟩
    simp [R.bind, this, h]

/-- C57: otherwise the match date, with its outcome. -/
theorem C57_matchdate (g : Env) (data : Bytes) (hl : 1280 ≤ data.length)
    (h : ∀ text, ServerinfoText data text → (g.settings (g.toUtf8 text)).epoch = none) :
    timestamp g data = matchdate g data := by
  unfold timestamp timestampFromEpoch serverinfo
  by_cases ht : ∃ text, ServerinfoText data text
  · obtain ⟨text, ht⟩ := ht
    rw [(C14_serverinfo_string g data hl _).mpr ⟨text, ht, rfl⟩]
    simp only [R.bind, h text ht, R.orElse]
  · rw [(C14_serverinfo_error g data hl).1.mpr ht]
    rfl

/-- C57: shorter data panics. -/
theorem C57_short (g : Env) (data : Bytes) (h : data.length < 1280) : timestamp g data = .panic :=
  (C15_short_data_derived g data h).1

/-- C57: the epoch wins over the match date; without it the match date is used. -/
theorem C57_example :
    timestamp (Example.dates true) (Example.serverinfoData ++ Example.dated bytes!"2024-04-02 21:02:17 CEST") = .ok 77 ∧
    timestamp (Example.dates true) (List.replicate 1280 10 ++ Example.dated bytes!"2024-04-02 21:02:17 CEST") = .ok 1712084537 ∧
    timestamp (Example.dates true) (bytes!"fullserverinfo \"\\mode\\1on1\"" ++ List.replicate 1280 10 ++
      Example.dated bytes!"2024-04-02 21:02:17 CEST") = .ok 1712084537 ∧
    timestamp (Example.dates true) (Example.dated bytes!"2024-04-02 21:02:17 CEST") = .panic := by decide +kernel

/-- The cases of `C57_epoch_exact`. -/
example : timestampFromEpoch (Example.dates true) Example.serverinfoData = .ok 77 ∧
    timestampFromEpoch (Example.dates true) (bytes!"fullserverinfo \"\\mode\\1on1\"" ++ List.replicate 1280 10) =
      .err .epochNotFound ∧
    timestampFromEpoch (Example.dates true) (List.replicate 1280 10) = .err .serverinfoNotFound := by decide +kernel

end Mvd
