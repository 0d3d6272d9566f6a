import Verif.Rust.Str
import Verif.Spec.Utf8
import Verif.Lemmas.Search

/-! UTF-8 encoding and decoding. -/

namespace Mvd
open Spec

theorem char_valid (c : Char) : c.toNat < 0xD800 ∨ (0xDFFF < c.toNat ∧ c.toNat < 0x110000) := c.valid

theorem char_ofNat_toNat (c : Char) : Char.ofNat c.toNat = c := by simp

theorem toNat_ofNat {n : Nat} (h : n < 0xD800 ∨ (0xDFFF < n ∧ n < 0x110000)) : (Char.ofNat n).toNat = n := by
  have hv : n.isValidChar := h
  unfold Char.ofNat
  rw [dif_pos hv]
  simp [Char.ofNatAux, Char.toNat, UInt32.toNat]

theorem utf8Char_eq (c : Char) : utf8Char c = String.utf8EncodeChar c := by
  have hv := char_valid c
  have hn : c.val.toNat = c.toNat := rfl
  unfold utf8Char String.utf8EncodeChar
  simp only [hn]
  generalize c.toNat = n at *
  by_cases h1 : n < 0x80
  · rw [if_pos h1, if_pos (show n ≤ 0x7f by omega)]
  · rw [if_neg h1, if_neg (show ¬ n ≤ 0x7f by omega)]
    by_cases h2 : n < 0x800
    · rw [if_pos h2, if_pos (show n ≤ 0x7ff by omega)]
      rw [Nat.mod_eq_of_lt (by omega : n / 64 < 32), Nat.add_comm 0xC0, Nat.add_comm 0x80]
    · rw [if_neg h2, if_neg (show ¬ n ≤ 0x7ff by omega)]
      by_cases h3 : n < 0x10000
      · rw [if_pos h3, if_pos (show n ≤ 0xffff by omega)]
        rw [Nat.mod_eq_of_lt (by omega : n / 4096 < 16), Nat.add_comm 0xE0, Nat.add_comm 0x80, Nat.add_comm 0x80]
      · rw [if_neg h3, if_neg (show ¬ n ≤ 0xffff by omega)]
        rw [Nat.mod_eq_of_lt (by omega : n / 262144 < 8), Nat.add_comm 0xF0, Nat.add_comm 0x80, Nat.add_comm 0x80,
          Nat.add_comm 0x80]

theorem asBytes_eq (s : Str) : asBytes s = utf8 s := by
  unfold asBytes utf8
  congr 1
  funext c
  exact utf8Char_eq c

theorem ofNat_toNat_small {n : Nat} (h : n < 256) : (UInt8.ofNat n).toNat = n := by
  simp only [UInt8.toNat_ofNat']
  omega

theorem cont_ofNat {k : Nat} (h : k < 64) : cont? (UInt8.ofNat (0x80 + k)) = some k := by
  unfold cont?
  have e := ofNat_toNat_small (n := 0x80 + k) (by omega)
  rw [if_pos ⟨by rw [e]; omega, by rw [e]; omega⟩, e]
  simp

theorem cont_some {b : UInt8} {k : Nat} (h : cont? b = some k) : k < 64 ∧ b = UInt8.ofNat (0x80 + k) := by
  unfold cont? at h
  split at h
  · rename_i hb
    simp only [Option.some.injEq] at h
    subst h
    have e : 0x80 + (b.toNat - 0x80) = b.toNat := by omega
    refine ⟨by omega, ?_⟩
    rw [e]
    simp
  · cases h

theorem fromUtf8_utf8Char (c : Char) (t : Bytes) : fromUtf8 (utf8Char c ++ t) = (fromUtf8 t).map (c :: ·) := by
  have hv := char_valid c
  have hc := char_ofNat_toNat c
  unfold utf8Char
  simp only
  generalize hn : c.toNat = n at *
  subst hc
  clear hn
  by_cases h1 : n < 0x80
  · rw [if_pos h1]
    simp only [List.cons_append, List.nil_append]
    rw [fromUtf8.eq_def]
    simp only
    rw [ofNat_toNat_small (by omega), if_pos h1]
  · rw [if_neg h1]
    by_cases h2 : n < 0x800
    · rw [if_pos h2]
      simp only [List.cons_append, List.nil_append]
      rw [fromUtf8.eq_def]
      simp only
      rw [ofNat_toNat_small (by omega)]
      rw [if_neg (by omega), if_neg (by omega), if_pos (by omega)]
      rw [cont_ofNat (by omega)]
      simp only [Option.bind_eq_bind, Option.bind_some]
      rw [show (0xC0 + n / 0x40 - 0xC0) * 0x40 + n % 0x40 = n by omega, if_neg h1]
    · rw [if_neg h2]
      by_cases h3 : n < 0x10000
      · rw [if_pos h3]
        simp only [List.cons_append, List.nil_append]
        rw [fromUtf8.eq_def]
        simp only
        rw [ofNat_toNat_small (by omega)]
        rw [if_neg (by omega), if_neg (by omega), if_neg (by omega), if_pos (by omega)]
        rw [cont_ofNat (by omega), cont_ofNat (by omega)]
        simp only [Option.bind_eq_bind, Option.bind_some]
        rw [show (0xE0 + n / 0x1000 - 0xE0) * 0x1000 + n / 0x40 % 0x40 * 0x40 + n % 0x40 = n by omega, if_neg (by omega)]
      · rw [if_neg h3]
        simp only [List.cons_append, List.nil_append]
        rw [fromUtf8.eq_def]
        simp only
        rw [ofNat_toNat_small (by omega)]
        rw [if_neg (by omega), if_neg (by omega), if_neg (by omega), if_neg (by omega), if_pos (by omega)]
        rw [cont_ofNat (by omega), cont_ofNat (by omega), cont_ofNat (by omega)]
        simp only [Option.bind_eq_bind, Option.bind_some]
        rw [show (0xF0 + n / 0x40000 - 0xF0) * 0x40000 + n / 0x1000 % 0x40 * 0x1000 + n / 0x40 % 0x40 * 0x40 + n % 0x40
          = n by omega, if_neg (by omega)]

theorem fromUtf8_asBytes : ∀ s : Str, fromUtf8 (asBytes s) = some s
  | [] => by simp [asBytes, fromUtf8]
  | c :: s => by
    have : asBytes (c :: s) = utf8Char c ++ asBytes s := by simp [asBytes]
    rw [this, fromUtf8_utf8Char, fromUtf8_asBytes s]
    rfl

theorem fromUtf8_sound : ∀ (n : Nat) (b : Bytes) (s : Str), b.length ≤ n → fromUtf8 b = some s → asBytes s = b
  | 0, b, s, hl, h => by
    have : b = [] := List.length_eq_zero_iff.mp (by omega)
    subst this
    simp only [fromUtf8, Option.some.injEq] at h
    subst h
    rfl
  | n + 1, [], s, _, h => by
    simp only [fromUtf8, Option.some.injEq] at h
    subst h
    rfl
  | n + 1, b0 :: t, s, hl, h => by
    have ih := fromUtf8_sound n
    have hb0 : UInt8.ofNat b0.toNat = b0 := by simp
    have hlt := b0.toNat_lt
    simp only [List.length_cons] at hl
    have step : ∀ {t : Bytes} {c : Char} {pre : Bytes}, t.length ≤ n → (fromUtf8 t).map (c :: ·) = some s →
        utf8Char c = pre → asBytes s = pre ++ t := by
      intro t c pre ht h e
      cases hf : fromUtf8 t with
      | none => simp [hf] at h
      | some s' =>
        simp only [hf, Option.map_some, Option.some.injEq] at h
        subst h
        have := ih t s' ht hf
        simp [asBytes] at this ⊢
        rw [this, e]
    rw [fromUtf8.eq_def] at h
    simp only at h
    split at h
    · rename_i h1
      have := step (pre := [b0]) (by omega) h (by
        unfold utf8Char
        simp only
        rw [toNat_ofNat (by omega), if_pos h1, hb0])
      simpa using this
    · rename_i h1
      split at h
      · cases h
      · rename_i h2
        split at h
        · rename_i h3
          cases t with
          | nil => simp at h
          | cons b1 t =>
            simp only [Option.bind_eq_bind] at h
            cases hc1 : cont? b1 with
            | none => simp [hc1] at h
            | some x1 =>
              simp only [hc1, Option.bind_some] at h
              obtain ⟨hx1, e1⟩ := cont_some hc1
              split at h
              · cases h
              · rename_i h4
                simp only [List.length_cons] at hl
                have := step (pre := [b0, b1]) (by omega) h (by
                  unfold utf8Char
                  simp only
                  rw [toNat_ofNat (by omega), if_neg h4, if_pos (by omega), e1]
                  rw [show 0xC0 + ((b0.toNat - 0xC0) * 0x40 + x1) / 0x40 = b0.toNat by omega, hb0]
                  rw [show ((b0.toNat - 0xC0) * 0x40 + x1) % 0x40 = x1 by omega])
                simpa using this
        · rename_i h3
          split at h
          · rename_i h4
            match t, h with
            | [], h => simp at h
            | [_], h => simp at h
            | b1 :: b2 :: t, h =>
              simp only [Option.bind_eq_bind] at h
              cases hc1 : cont? b1 with
              | none => simp [hc1] at h
              | some x1 =>
                cases hc2 : cont? b2 with
                | none => simp [hc1, hc2] at h
                | some x2 =>
                  simp only [hc1, hc2, Option.bind_some] at h
                  obtain ⟨hx1, e1⟩ := cont_some hc1
                  obtain ⟨hx2, e2⟩ := cont_some hc2
                  split at h
                  · cases h
                  · rename_i h5
                    simp only [List.length_cons] at hl
                    have := step (pre := [b0, b1, b2]) (by omega) h (by
                      unfold utf8Char
                      simp only
                      rw [toNat_ofNat (by omega), if_neg (by omega), if_neg (by omega), if_pos (by omega), e1, e2]
                      rw [show 0xE0 + ((b0.toNat - 0xE0) * 0x1000 + x1 * 0x40 + x2) / 0x1000 = b0.toNat by omega, hb0]
                      rw [show ((b0.toNat - 0xE0) * 0x1000 + x1 * 0x40 + x2) / 0x40 % 0x40 = x1 by omega]
                      rw [show ((b0.toNat - 0xE0) * 0x1000 + x1 * 0x40 + x2) % 0x40 = x2 by omega])
                    simpa using this
          · rename_i h4
            split at h
            · rename_i h5
              match t, h with
              | [], h => simp at h
              | [_], h => simp at h
              | [_, _], h => simp at h
              | b1 :: b2 :: b3 :: t, h =>
                simp only [Option.bind_eq_bind] at h
                cases hc1 : cont? b1 with
                | none => simp [hc1] at h
                | some x1 =>
                  cases hc2 : cont? b2 with
                  | none => simp [hc1, hc2] at h
                  | some x2 =>
                    cases hc3 : cont? b3 with
                    | none => simp [hc1, hc2, hc3] at h
                    | some x3 =>
                      simp only [hc1, hc2, hc3, Option.bind_some] at h
                      obtain ⟨hx1, e1⟩ := cont_some hc1
                      obtain ⟨hx2, e2⟩ := cont_some hc2
                      obtain ⟨hx3, e3⟩ := cont_some hc3
                      split at h
                      · cases h
                      · rename_i h6
                        simp only [List.length_cons] at hl
                        have := step (pre := [b0, b1, b2, b3]) (by omega) h (by
                          unfold utf8Char
                          simp only
                          rw [toNat_ofNat (by omega), if_neg (by omega), if_neg (by omega), if_neg (by omega), e1, e2, e3]
                          rw [show 0xF0 + ((b0.toNat - 0xF0) * 0x40000 + x1 * 0x1000 + x2 * 0x40 + x3) / 0x40000
                            = b0.toNat by omega, hb0]
                          rw [show ((b0.toNat - 0xF0) * 0x40000 + x1 * 0x1000 + x2 * 0x40 + x3) / 0x1000 % 0x40 = x1
                            by omega]
                          rw [show ((b0.toNat - 0xF0) * 0x40000 + x1 * 0x1000 + x2 * 0x40 + x3) / 0x40 % 0x40 = x2
                            by omega]
                          rw [show ((b0.toNat - 0xF0) * 0x40000 + x1 * 0x1000 + x2 * 0x40 + x3) % 0x40 = x3 by omega])
                        simpa using this
            · cases h

/-- Strict decoding inverts encoding. -/
theorem fromUtf8_eq_some_iff {b : Bytes} {s : Str} : fromUtf8 b = some s ↔ utf8 s = b := by
  rw [← asBytes_eq]
  constructor
  · exact fromUtf8_sound _ b s (Nat.le_refl _)
  · rintro rfl
    exact fromUtf8_asBytes s

theorem fromUtf8_eq_none_iff {b : Bytes} : fromUtf8 b = none ↔ ¬ ∃ s, utf8 s = b := by
  constructor
  · rintro h ⟨s, hs⟩
    rw [fromUtf8_eq_some_iff.mpr hs] at h
    cases h
  · intro h
    cases hf : fromUtf8 b with
    | none => rfl
    | some s => exact absurd ⟨s, fromUtf8_eq_some_iff.mp hf⟩ h

/-! ### Lengths and offsets -/

theorem utf8_append (a b : Str) : utf8 (a ++ b) = utf8 a ++ utf8 b := by simp [utf8]

theorem utf8_cons (c : Char) (s : Str) : utf8 (c :: s) = utf8Char c ++ utf8 s := by simp [utf8, utf8Char_eq]

theorem utf8_nil : utf8 [] = [] := rfl

theorem utf8_inj {a b : Str} (h : utf8 a = utf8 b) : a = b := by
  have h1 := fromUtf8_eq_some_iff.mpr (rfl : utf8 a = utf8 a)
  rw [fromUtf8_eq_some_iff.mpr h.symm] at h1
  exact (Option.some.inj h1).symm

theorem utf8Char_pos (c : Char) : 0 < (utf8Char c).length := by
  unfold utf8Char
  simp only
  split
  · simp
  · split
    · simp
    · split <;> simp

theorem splitAtByte_iff : ∀ {s : Str} {n : Nat} {a b : Str},
    splitAtByte s n = some (a, b) ↔ s = a ++ b ∧ (utf8 a).length = n
  | s, 0, a, b => by
    simp only [splitAtByte, Option.some.injEq, Prod.mk.injEq]
    constructor
    · rintro ⟨rfl, rfl⟩; simp [utf8]
    · rintro ⟨rfl, h⟩
      cases a with
      | nil => simp
      | cons c a =>
        rw [utf8_cons] at h
        have := utf8Char_pos c
        simp only [List.length_append] at h
        omega
  | [], n + 1, a, b => by
    simp only [splitAtByte, reduceCtorEq, false_iff, not_and]
    intro h
    have := List.append_eq_nil_iff.mp h.symm
    rw [this.1]
    simp [utf8]
  | c :: cs, n + 1, a, b => by
    have hp := utf8Char_pos c
    simp only [splitAtByte]
    split
    · rename_i hle
      constructor
      · intro h
        cases hr : splitAtByte cs (n + 1 - (utf8Char c).length) with
        | none => simp [hr] at h
        | some p =>
          obtain ⟨x, y⟩ := p
          simp only [hr, Option.map_some, Option.some.injEq, Prod.mk.injEq] at h
          obtain ⟨rfl, rfl⟩ := h
          obtain ⟨h1, h2⟩ := splitAtByte_iff.mp hr
          refine ⟨by simp [h1], ?_⟩
          rw [utf8_cons]
          simp
          omega
      · rintro ⟨h1, h2⟩
        cases a with
        | nil => simp [utf8] at h2
        | cons d a =>
          simp only [List.cons_append, List.cons.injEq] at h1
          obtain ⟨rfl, rfl⟩ := h1
          rw [utf8_cons] at h2
          simp only [List.length_append] at h2
          rw [splitAtByte_iff.mpr ⟨rfl, by omega⟩]
          rfl
    · rename_i hle
      simp only [reduceCtorEq, false_iff, not_and]
      intro h1 h2
      cases a with
      | nil => simp [utf8] at h2
      | cons d a =>
        simp only [List.cons_append, List.cons.injEq] at h1
        obtain ⟨rfl, rfl⟩ := h1
        rw [utf8_cons] at h2
        simp only [List.length_append] at h2
        omega

theorem strFrom_ok_iff {s : Str} {n : Nat} {b : Str} :
    strFrom s n = .ok b ↔ ∃ a, s = a ++ b ∧ (utf8 a).length = n := by
  unfold strFrom
  cases h : splitAtByte s n with
  | none =>
    simp only [reduceCtorEq, false_iff, not_exists]
    intro a ha
    rw [splitAtByte_iff.mpr ha] at h
    cases h
  | some p =>
    obtain ⟨x, y⟩ := p
    simp only [R.ok.injEq]
    constructor
    · rintro rfl; exact ⟨x, splitAtByte_iff.mp h⟩
    · rintro ⟨a, ha⟩
      rw [splitAtByte_iff.mpr ha] at h
      simp at h
      exact h.2.symm

theorem strTo_ok_iff {s : Str} {n : Nat} {a : Str} :
    strTo s n = .ok a ↔ ∃ b, s = a ++ b ∧ (utf8 a).length = n := by
  unfold strTo
  cases h : splitAtByte s n with
  | none =>
    simp only [reduceCtorEq, false_iff, not_exists]
    intro a ha
    rw [splitAtByte_iff.mpr ha] at h
    cases h
  | some p =>
    obtain ⟨x, y⟩ := p
    simp only [R.ok.injEq]
    constructor
    · rintro rfl; exact ⟨y, splitAtByte_iff.mp h⟩
    · rintro ⟨a, ha⟩
      rw [splitAtByte_iff.mpr ha] at h
      simp at h
      exact h.1.symm

theorem strFrom_panic_iff {s : Str} {n : Nat} :
    strFrom s n = .panic ↔ ¬ ∃ a b, s = a ++ b ∧ (utf8 a).length = n := by
  constructor
  · rintro h ⟨a, b, hab⟩
    rw [strFrom_ok_iff.mpr ⟨a, hab⟩] at h
    cases h
  · intro h
    unfold strFrom
    cases hs : splitAtByte s n with
    | none => rfl
    | some p => exact absurd ⟨p.1, p.2, splitAtByte_iff.mp hs⟩ h

theorem strTo_panic_iff {s : Str} {n : Nat} :
    strTo s n = .panic ↔ ¬ ∃ a b, s = a ++ b ∧ (utf8 a).length = n := by
  constructor
  · rintro h ⟨a, b, hab⟩
    rw [strTo_ok_iff.mpr ⟨b, hab⟩] at h
    cases h
  · intro h
    unfold strTo
    cases hs : splitAtByte s n with
    | none => rfl
    | some p => exact absurd ⟨p.1, p.2, splitAtByte_iff.mp hs⟩ h

theorem strSlice_mid (a m b : Str) :
    strSlice (a ++ m ++ b) (utf8 a).length ((utf8 a).length + (utf8 m).length) = .ok m := by
  unfold strSlice
  rw [if_pos (by omega), strFrom_ok_iff.mpr ⟨a, List.append_assoc a m b, rfl⟩]
  simp only
  rw [strTo_ok_iff.mpr ⟨b, rfl, by omega⟩]

/-! ### ASCII -/

theorem utf8Char_ascii {c : Char} (h : c.toNat < 0x80) : utf8Char c = [UInt8.ofNat c.toNat] := by
  unfold utf8Char
  simp only
  rw [if_pos h]

theorem utf8Char_high {c : Char} (h : ¬ c.toNat < 0x80) : ∀ b ∈ utf8Char c, 0x80 ≤ b.toNat := by
  have hv := char_valid c
  unfold utf8Char
  simp only
  rw [if_neg h]
  generalize c.toNat = n at *
  intro b hb
  split at hb
  · simp only [List.mem_cons, List.not_mem_nil, or_false] at hb
    rcases hb with rfl | rfl <;> rw [ofNat_toNat_small (by omega)] <;> omega
  · split at hb
    · simp only [List.mem_cons, List.not_mem_nil, or_false] at hb
      rcases hb with rfl | rfl | rfl <;> rw [ofNat_toNat_small (by omega)] <;> omega
    · simp only [List.mem_cons, List.not_mem_nil, or_false] at hb
      rcases hb with rfl | rfl | rfl | rfl <;> rw [ofNat_toNat_small (by omega)] <;> omega

/-- An ASCII byte in encoded text is a character. -/
theorem utf8_split_ascii : ∀ {s : Str} {x y : Bytes} {b : UInt8}, utf8 s = x ++ b :: y → b.toNat < 0x80 →
    ∃ u v, s = u ++ Char.ofNat b.toNat :: v ∧ utf8 u = x ∧ utf8 v = y
  | [], x, y, b, h, _ => by simp [utf8] at h
  | c :: s, x, y, b, h, hb => by
    rw [utf8_cons] at h
    rcases List.append_eq_append_iff.mp h with ⟨as, h1, h2⟩ | ⟨bs, h1, h2⟩
    · obtain ⟨u, v, e, hu, hv⟩ := utf8_split_ascii h2 hb
      refine ⟨c :: u, v, by simp [e], ?_, hv⟩
      rw [utf8_cons, hu, h1]
    · cases bs with
      | nil =>
        simp only [List.append_nil, List.nil_append] at h1 h2
        obtain ⟨u, v, e, hu, hv⟩ := utf8_split_ascii (x := []) h2.symm hb
        refine ⟨c :: u, v, by simp [e], ?_, hv⟩
        rw [utf8_cons, hu, h1]
        simp
      | cons d bs =>
        simp only [List.cons_append, List.cons.injEq] at h2
        obtain ⟨rfl, h2⟩ := h2
        by_cases hc : c.toNat < 0x80
        · rw [utf8Char_ascii hc] at h1
          have hx : x = [] := by
            have := congrArg List.length h1
            simp at this
            exact List.length_eq_zero_iff.mp (by omega)
          subst hx
          simp only [List.nil_append, List.cons.injEq] at h1
          obtain ⟨h1, rfl⟩ := h1
          refine ⟨[], s, ?_, rfl, by simpa using h2.symm⟩
          rw [← h1, ofNat_toNat_small (by omega)]
          simp
        · have := utf8Char_high hc b (by rw [h1]; simp)
          omega

/-- An ASCII text. -/
def Ascii (p : Str) : Prop := ∀ c ∈ p, c.toNat < 0x80

theorem utf8_prefix_ascii : ∀ {p : Str} {s : Str} {y : Bytes}, Ascii p → utf8 s = utf8 p ++ y → ∃ v, s = p ++ v ∧ utf8 v = y
  | [], s, y, _, h => ⟨s, rfl, by simpa [utf8] using h⟩
  | c :: p, s, y, hp, h => by
    have hc := hp c (by simp)
    rw [utf8_cons, utf8Char_ascii hc] at h
    simp only [List.cons_append, List.nil_append] at h
    obtain ⟨u, v, e, hu, hv⟩ := utf8_split_ascii (x := []) h (by rw [ofNat_toNat_small (by omega)]; exact hc)
    have hu : u = [] := utf8_inj (by rw [hu]; rfl)
    subst hu
    rw [ofNat_toNat_small (by omega), char_ofNat_toNat] at e
    obtain ⟨w, e', hw⟩ := utf8_prefix_ascii (fun d hd => hp d (by simp [hd])) hv
    refine ⟨w, ?_, hw⟩
    rw [e, e']
    rfl

/-- Occurrences of an ASCII word in the bytes are occurrences in the text. -/
theorem utf8_occurs_ascii {p : Str} (hp : Ascii p) (hne : p ≠ []) {s : Str} {x y : Bytes} (h : utf8 s = x ++ utf8 p ++ y) :
    ∃ u v, s = u ++ p ++ v ∧ utf8 u = x ∧ utf8 v = y := by
  cases p with
  | nil => exact absurd rfl hne
  | cons c p =>
    have hc := hp c (by simp)
    rw [utf8_cons, utf8Char_ascii hc] at h
    obtain ⟨u, v, e, hu, hv⟩ := utf8_split_ascii (x := x) (y := utf8 p ++ y) (b := UInt8.ofNat c.toNat) (by
      rw [h]; simp) (by rw [ofNat_toNat_small (by omega)]; exact hc)
    rw [ofNat_toNat_small (by omega), char_ofNat_toNat] at e
    obtain ⟨w, e', hw⟩ := utf8_prefix_ascii (fun d hd => hp d (by simp [hd])) hv
    exact ⟨u, w, by rw [e, e']; simp, hu, hw⟩

theorem prefix_length_le {α : Type} {a b c d : List α} (h : a ++ b = c ++ d) (hl : a.length ≤ c.length) : ∃ e, c = a ++ e ∧ b = e ++ d := by
  rcases List.append_eq_append_iff.mp h with ⟨as, h1, h2⟩ | ⟨bs, h1, h2⟩
  · exact ⟨as, h1, h2⟩
  · have : bs = [] := by
      have := congrArg List.length h1
      simp at this
      exact List.length_eq_zero_iff.mp (by omega)
    subst this
    exact ⟨[], by simpa using h1.symm, by simpa using h2.symm⟩

/-- The first occurrence of an ASCII word in the bytes is the first occurrence in the text. -/
theorem firstAt_utf8 {p : Str} (hp : Ascii p) (hne : p ≠ []) {u v : Str} :
    FirstAt (utf8 p) (utf8 (u ++ p ++ v)) (utf8 u).length ↔ FirstAt p (u ++ p ++ v) u.length := by
  constructor
  · rintro ⟨_, h⟩
    refine ⟨⟨u, v, rfl, rfl⟩, ?_⟩
    rintro j ⟨a, b, e, rfl⟩
    have h1 := h (utf8 a).length ⟨utf8 a, utf8 b, by rw [e, utf8_append, utf8_append], rfl⟩
    refine Nat.le_of_not_lt fun hlt => ?_
    obtain ⟨w, hw, _⟩ := prefix_length_le (a := a) (b := p ++ b) (c := u) (d := p ++ v) (by
      rw [← List.append_assoc, ← List.append_assoc, e]) (by omega)
    subst hw
    rw [utf8_append] at h1
    have hw : w ≠ [] := by rintro rfl; simp at hlt
    cases w with
    | nil => exact hw rfl
    | cons c w =>
      rw [utf8_cons] at h1
      have := utf8Char_pos c
      simp at h1
      omega
  · rintro ⟨_, h⟩
    refine ⟨⟨utf8 u, utf8 v, by rw [utf8_append, utf8_append], rfl⟩, ?_⟩
    rintro j ⟨x, y, e, rfl⟩
    obtain ⟨a, b, e', rfl, rfl⟩ := utf8_occurs_ascii hp hne e
    have h1 := h a.length ⟨a, b, e', rfl⟩
    obtain ⟨w, hw, _⟩ := prefix_length_le (a := u) (b := p ++ v) (c := a) (d := p ++ b) (by
      rw [← List.append_assoc, ← List.append_assoc, e']) h1
    rw [hw, utf8_append]
    simp

theorem occurs_utf8 {p : Str} (hp : Ascii p) (hne : p ≠ []) {s : Str} : Occurs (utf8 p) (utf8 s) ↔ Occurs p s := by
  constructor
  · rintro ⟨x, y, e⟩
    obtain ⟨a, b, e', _, _⟩ := utf8_occurs_ascii hp hne e
    exact ⟨a, b, e'⟩
  · rintro ⟨a, b, rfl⟩
    exact ⟨utf8 a, utf8 b, by rw [utf8_append, utf8_append]⟩

end Mvd
