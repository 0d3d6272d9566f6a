import Verif.Model.Matchdate
import Verif.Lemmas.Utf8
import Verif.Lemmas.Search
import Verif.Spec.Time

/-! Time zones and match dates. -/

namespace Mvd
open Spec

/-! ### The table -/

/-- The minutes a text of the table stands for. -/
def offsetMinutes? : Str → Option Int
  | [sign, a, b, colon, c, d] =>
    if colon = ':' ∧ ('0'.toNat ≤ a.toNat ∧ a.toNat ≤ '9'.toNat) ∧ ('0'.toNat ≤ b.toNat ∧ b.toNat ≤ '9'.toNat) ∧
        ('0'.toNat ≤ c.toNat ∧ c.toNat ≤ '9'.toNat) ∧ ('0'.toNat ≤ d.toNat ∧ d.toNat ≤ '9'.toNat) ∧
        10 * digit a + digit b ≤ 14 ∧ 10 * digit c + digit d < 60 then
      if sign = '+' then some (60 * (10 * digit a + digit b) + (10 * digit c + digit d))
      else if sign = '-' ∨ sign = '−' then some (-(60 * (10 * digit a + digit b) + (10 * digit c + digit d)))
      else none
    else none
  | _ => none

theorem offsetMinutes_sound {t : Str} {m : Int} (h : offsetMinutes? t = some m) : OffsetText t m := by
  unfold offsetMinutes? at h
  split at h
  · rename_i sign a b colon c d
    split at h
    · rename_i hc
      obtain ⟨rfl, h1, h2, h3, h4, h5, h6⟩ := hc
      refine ⟨sign, a, b, c, d, rfl, h1, h2, h3, h4, h5, h6, ?_⟩
      split at h
      · rename_i hs
        exact .inl ⟨hs, (Option.some.inj h).symm⟩
      · split at h
        · rename_i hs
          exact .inr ⟨hs, (Option.some.inj h).symm⟩
        · cases h
    · cases h
  · cases h

theorem table_zones : ∀ z ∈ zones, (utcOffsetByAbbr z.1.toList).bind offsetMinutes? = some z.2 := by decide +kernel

theorem table_keys : ∀ e ∈ UTC_OFFSET_BY_ABBR, e.1 ∈ zones.map fun z => z.1.toList := by decide +kernel

theorem table_letters : ∀ e ∈ UTC_OFFSET_BY_ABBR, e.1.head? ≠ some '+' ∧ e.1.head? ≠ some '-' := by decide +kernel

theorem utcOffsetByAbbr_mem {s t : Str} (h : utcOffsetByAbbr s = some t) : (s, t) ∈ UTC_OFFSET_BY_ABBR := by
  unfold utcOffsetByAbbr at h
  obtain ⟨e, he, h⟩ := List.exists_of_findSome?_eq_some h
  split at h
  rename_i a o
  split at h
  · rename_i hs
    cases h
    cases hs
    exact he
  · cases h

theorem utcOffsetByAbbr_sign {op : Char} (hop : op = '+' ∨ op = '-') (tail : Str) : utcOffsetByAbbr (op :: tail) = none := by
  cases h : utcOffsetByAbbr (op :: tail) with
  | none => rfl
  | some t =>
    have := table_letters _ (utcOffsetByAbbr_mem h)
    rcases hop with rfl | rfl
    · exact absurd rfl this.1
    · exact absurd rfl this.2

/-! ### Numeric offsets -/

theorem utf8_length_ge : ∀ s : Str, s.length ≤ (utf8 s).length
  | [] => Nat.zero_le _
  | c :: s => by
    rw [utf8_cons, List.length_append, List.length_cons]
    have := utf8Char_pos c
    have := utf8_length_ge s
    omega

theorem utf8_length_ascii : ∀ s : Str, (∀ c ∈ s, c.toNat < 0x80) → (utf8 s).length = s.length
  | [], _ => rfl
  | c :: s, h => by
    rw [utf8_cons, List.length_append, List.length_cons, utf8Char_ascii (h c (by simp)),
      utf8_length_ascii s fun c hc => h c (by simp [hc])]
    simp only [List.length_singleton]
    omega

theorem utf8Char_length_ascii {c : Char} (h : (utf8Char c).length = 1) : c.toNat < 0x80 := by
  by_contra hc
  unfold utf8Char at h
  simp only at h
  rw [if_neg hc] at h
  split at h
  · simp at h
  · split at h <;> simp at h

/-- Four bytes of at least four characters are four ASCII characters. -/
theorem utf8_four {s : Str} (h4 : 4 ≤ s.length) (h : (utf8 s).length = 4) :
    ∃ a b c d, s = [a, b, c, d] ∧ a.toNat < 0x80 ∧ b.toNat < 0x80 ∧ c.toNat < 0x80 ∧ d.toNat < 0x80 := by
  match s, h4 with
  | a :: b :: c :: d :: t, _ =>
    simp only [utf8_cons, List.length_append] at h
    have ha := utf8Char_pos a
    have hb := utf8Char_pos b
    have hc := utf8Char_pos c
    have hd := utf8Char_pos d
    have ht := utf8_length_ge t
    have : t = [] := List.length_eq_zero_iff.mp (by omega)
    subst this
    refine ⟨a, b, c, d, rfl, ?_, ?_, ?_, ?_⟩ <;> exact utf8Char_length_ascii (by omega)

theorem digits?_cons (acc : Nat) (c : Char) (cs : Str) :
    digits? acc (c :: cs) = if '0'.toNat ≤ c.toNat ∧ c.toNat ≤ '9'.toNat then digits? (acc * 10 + (c.toNat - '0'.toNat)) cs else none := rfl

theorem digits_three {b c d : Char} {n : Nat} {acc : Nat} : digits? acc [b, c, d] = some n ↔
    IsDigit b ∧ IsDigit c ∧ IsDigit d ∧ n = 1000 * acc + (100 * digit b + 10 * digit c + digit d) := by
  simp only [digits?_cons]
  unfold IsDigit digit
  by_cases hb : '0'.toNat ≤ b.toNat ∧ b.toNat ≤ '9'.toNat
  · rw [if_pos hb]
    by_cases hc : '0'.toNat ≤ c.toNat ∧ c.toNat ≤ '9'.toNat
    · rw [if_pos hc]
      by_cases hd : '0'.toNat ≤ d.toNat ∧ d.toNat ≤ '9'.toNat
      · rw [if_pos hd]
        simp only [digits?, Option.some.injEq, hb, hc, hd, true_and, and_self]
        omega
      · exact ⟨fun h => (by rw [if_neg hd] at h; cases h), fun ⟨x, y, z, _⟩ => absurd (by first | exact x | exact y | exact z) hd⟩
    · exact ⟨fun h => (by rw [if_neg hc] at h; cases h), fun ⟨x, y, z, _⟩ => absurd (by first | exact x | exact y | exact z) hc⟩
  · exact ⟨fun h => (by rw [if_neg hb] at h; cases h), fun ⟨x, y, z, _⟩ => absurd (by first | exact x | exact y | exact z) hb⟩

theorem isDigit_zero {c : Char} (h : IsDigit c) (h0 : digit c = 0) : c = '0' :=
  Char.toNat_inj.mp (by unfold IsDigit digit at *; omega)

theorem parse_accepted (a b c d : Char) :
    (∃ n, parseI32 [a, b, c, d] = some n ∧ 0 ≤ n ∧ n ≤ 1200) ↔ Accepted a b c d := by
  have h9 : '9'.toNat = '0'.toNat + 9 := rfl
  unfold parseI32 Accepted
  by_cases hp : a = '+'
  · subst hp
    have hnd : ¬ IsDigit '+' := by unfold IsDigit; decide
    have hpm : ¬ ('+' = '-') := by decide
    simp only [if_true, hnd, hpm, false_and, false_or, or_false, true_and, reduceCtorEq, if_false]
    constructor
    · rintro ⟨n, h, _⟩
      cases hd : digits? 0 [b, c, d] with
      | none => rw [hd] at h; cases h
      | some k =>
        obtain ⟨h1, h2, h3, _⟩ := digits_three.mp hd
        exact ⟨h1, h2, h3⟩
    · rintro ⟨h1, h2, h3⟩
      have := (digits_three (n := 1000 * 0 + (100 * digit b + 10 * digit c + digit d)) (acc := 0)).mpr ⟨h1, h2, h3, rfl⟩
      rw [this]
      unfold IsDigit at h1 h2 h3
      unfold digit
      refine ⟨_, if_pos ?_, ?_, ?_⟩ <;> omega
  · by_cases hm : a = '-'
    · subst hm
      have hnd : ¬ IsDigit '-' := by unfold IsDigit; decide
      simp only [if_true, hnd, hp, false_and, false_or, true_and, reduceCtorEq, if_false]
      constructor
      · rintro ⟨n, h, h0, _⟩
        cases hd : digits? 0 [b, c, d] with
        | none => rw [hd] at h; cases h
        | some k =>
          obtain ⟨h1, h2, h3, hk⟩ := digits_three.mp hd
          rw [hd] at h
          simp only [Option.bind] at h
          split at h
          · cases h
            exact ⟨isDigit_zero h1 (by omega), isDigit_zero h2 (by omega), isDigit_zero h3 (by omega)⟩
          · cases h
      · rintro ⟨rfl, rfl, rfl⟩
        exact ⟨0, by decide, by decide, by decide⟩
    · simp only
      rw [if_neg hp, if_neg hm]
      simp only [hp, hm, false_and, or_false]
      constructor
      · rintro ⟨n, h, _, hn⟩
        cases hd : digits? 0 [a, b, c, d] with
        | none => rw [hd] at h; cases h
        | some k =>
          rw [hd] at h
          rw [digits?_cons] at hd
          by_cases ha : '0'.toNat ≤ a.toNat ∧ a.toNat ≤ '9'.toNat
          · rw [if_pos ha] at hd
            obtain ⟨h1, h2, h3, hk⟩ := digits_three.mp hd
            refine ⟨ha, h1, h2, h3, ?_⟩
            simp only [Option.bind] at h
            split at h
            · simp only [Option.some.injEq] at h
              unfold digit at hk ⊢
              omega
            · cases h
          · rw [if_neg ha] at hd; cases hd
      · rintro ⟨ha, h1, h2, h3, hle⟩
        have : digits? 0 [a, b, c, d] = some (1000 * digit a + 100 * digit b + 10 * digit c + digit d) := by
          rw [digits?_cons, if_pos (show '0'.toNat ≤ a.toNat ∧ a.toNat ≤ '9'.toNat from ha), digits_three]
          refine ⟨h1, h2, h3, ?_⟩
          unfold digit
          omega
        rw [this]
        refine ⟨_, if_pos ?_, ?_, ?_⟩ <;> omega

theorem slice_front {a b c d : Char} (ha : a.toNat < 0x80) (hb : b.toNat < 0x80) : strSlice [a, b, c, d] 0 2 = .ok [a, b] := by
  have := strSlice_mid [] [a, b] [c, d]
  have hl := utf8_length_ascii [a, b] (by simp [ha, hb])
  rw [hl] at this
  exact this

theorem slice_back {a b c d : Char} (ha : a.toNat < 0x80) (hb : b.toNat < 0x80) (hc : c.toNat < 0x80) (hd : d.toNat < 0x80) :
    strSlice [a, b, c, d] 2 4 = .ok [c, d] := by
  have := strSlice_mid [a, b] [c, d] []
  rw [utf8_length_ascii [a, b] (by simp [ha, hb]), utf8_length_ascii [c, d] (by simp [hc, hd])] at this
  exact this

/-- The numeric case. -/
theorem utcOffset_sign {op : Char} (hop : op = '+' ∨ op = '-') (tail : Str) :
    (∃ r, utcOffset (op :: tail) = .ok r) ∧ ∀ r, utcOffset (op :: tail) = .ok (some r) ↔
      ∃ n a b c d, tail.filter (· ≠ ':') ++ List.replicate n '0' = [a, b, c, d] ∧ Accepted a b c d ∧ r = [op, a, b, ':', c, d] := by
  unfold utcOffset
  rw [utcOffsetByAbbr_sign hop]
  simp only
  unfold utcOffsetByOffset
  simp only
  rw [if_pos hop]
  have hstrip : ∀ n a b c d, tail.filter (· ≠ ':') ++ List.replicate n '0' = [a, b, c, d] →
      padRight4 (tail.filter (· ≠ ':')) = [a, b, c, d] := by
    intro n a b c d h
    have hl := congrArg List.length h
    rw [List.length_append, List.length_replicate] at hl
    simp only [List.length_cons, List.length_nil] at hl
    unfold padRight4
    rw [show 4 - (tail.filter (· ≠ ':')).length = n by omega]
    exact h
  have h4 : 4 ≤ (padRight4 (tail.filter (· ≠ ':'))).length := by
    unfold padRight4
    rw [List.length_append, List.length_replicate]
    omega
  by_cases hlen : (asBytes (padRight4 (tail.filter (· ≠ ':')))).length ≠ 4
  · rw [if_pos hlen]
    refine ⟨⟨_, rfl⟩, fun r => ?_⟩
    simp only [R.ok.injEq, reduceCtorEq, false_iff]
    rintro ⟨n, a, b, c, d, h, hacc, _⟩
    apply hlen
    rw [hstrip n a b c d h, asBytes_eq, utf8_length_ascii]
    · rfl
    · have dig : ∀ {c : Char}, IsDigit c → c.toNat < 0x80 := by
        intro c hc
        unfold IsDigit at hc
        have h9 : '9'.toNat = 57 := rfl
        omega
      intro x hx
      simp only [List.mem_cons, List.not_mem_nil, or_false] at hx
      rcases hacc with ⟨h1, h2, h3, h4, _⟩ | ⟨h1, h2, h3, h4⟩ | ⟨h1, h2, h3, h4⟩
      · rcases hx with rfl | rfl | rfl | rfl
        · exact dig h1
        · exact dig h2
        · exact dig h3
        · exact dig h4
      · subst h1
        rcases hx with rfl | rfl | rfl | rfl
        · decide
        · exact dig h2
        · exact dig h3
        · exact dig h4
      · subst h1 h2 h3 h4
        rcases hx with rfl | rfl | rfl | rfl <;> decide
  · rw [if_neg hlen]
    rw [Decidable.not_not, asBytes_eq] at hlen
    obtain ⟨a, b, c, d, e, ha, hb, hc, hd⟩ := utf8_four h4 hlen
    have hpad : tail.filter (· ≠ ':') ++ List.replicate (4 - (tail.filter (· ≠ ':')).length) '0' = [a, b, c, d] := e
    rw [e]
    have hacc := parse_accepted a b c d
    have huniq : ∀ n a' b' c' d', tail.filter (· ≠ ':') ++ List.replicate n '0' = [a', b', c', d'] →
        a' = a ∧ b' = b ∧ c' = c ∧ d' = d := by
      intro n a' b' c' d' h
      have := (hstrip n a' b' c' d' h).symm.trans e
      simpa using this
    cases hp : parseI32 [a, b, c, d] with
    | none =>
      refine ⟨⟨_, rfl⟩, fun r => ?_⟩
      simp only [R.ok.injEq, reduceCtorEq, false_iff]
      rintro ⟨n, a', b', c', d', h, hacc', _⟩
      obtain ⟨rfl, rfl, rfl, rfl⟩ := huniq _ _ _ _ _ h
      obtain ⟨k, hk, _⟩ := hacc.mpr hacc'
      rw [hk] at hp
      cases hp
    | some k =>
      simp only
      by_cases hk : 0 ≤ k ∧ k ≤ 1200
      · rw [if_pos hk, slice_front ha hb, slice_back ha hb hc hd]
        simp only [R.bind]
        refine ⟨⟨_, rfl⟩, fun r => ?_⟩
        constructor
        · intro h
          simp only [R.ok.injEq, Option.some.injEq] at h
          exact ⟨_, a, b, c, d, hpad, hacc.mp ⟨k, hp, hk⟩, h.symm⟩
        · rintro ⟨n, a', b', c', d', h, hacc', rfl⟩
          obtain ⟨rfl, rfl, rfl, rfl⟩ := huniq _ _ _ _ _ h
          rfl
      · rw [if_neg hk]
        refine ⟨⟨_, rfl⟩, fun r => ?_⟩
        simp only [R.ok.injEq, reduceCtorEq, false_iff]
        rintro ⟨n, a', b', c', d', h, hacc', _⟩
        obtain ⟨rfl, rfl, rfl, rfl⟩ := huniq _ _ _ _ _ h
        obtain ⟨k', hk', hr⟩ := hacc.mpr hacc'
        rw [hk', Option.some.injEq] at hp
        subst hp
        exact hk hr

theorem utcOffset_other {s : Str} (h1 : s.head? ≠ some '+') (h2 : s.head? ≠ some '-') : utcOffset s = .ok (utcOffsetByAbbr s) := by
  unfold utcOffset
  cases h : utcOffsetByAbbr s with
  | some t => rfl
  | none =>
    simp only
    match s with
    | [] => rfl
    | c :: t =>
      unfold utcOffsetByOffset
      simp only
      rw [if_neg]
      rintro (rfl | rfl)
      · exact h1 rfl
      · exact h2 rfl

theorem utcOffset_ok (s : Str) : ∃ r, utcOffset s = .ok r := by
  match s with
  | [] => exact ⟨_, utcOffset_other (by simp) (by simp)⟩
  | c :: t =>
    by_cases hop : c = '+' ∨ c = '-'
    · exact (utcOffset_sign hop t).1
    · rw [not_or] at hop
      exact ⟨_, utcOffset_other (by simp [hop.1]) (by simp [hop.2])⟩

end Mvd
