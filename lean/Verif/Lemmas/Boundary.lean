import Verif.Lemmas.Utf8

/-! UTF-8 is self-synchronising: the encoding of a text occurs in the encoding of another one only at character
boundaries. -/

namespace Mvd
open Spec

/-- A continuation byte. -/
def IsCont (b : UInt8) : Prop := 0x80 ≤ b.toNat ∧ b.toNat < 0xC0

theorem utf8Char_shape (c : Char) : ∃ b t, utf8Char c = b :: t ∧ ¬ IsCont b ∧ ∀ x ∈ t, IsCont x := by
  have hv := char_valid c
  unfold utf8Char IsCont
  simp only
  generalize c.toNat = n at *
  split
  · refine ⟨_, _, rfl, ?_, by simp⟩
    rw [ofNat_toNat_small (by omega)]; omega
  · split
    · refine ⟨_, _, rfl, ?_, ?_⟩
      · rw [ofNat_toNat_small (by omega)]; omega
      · simp only [List.mem_singleton, forall_eq]
        rw [ofNat_toNat_small (by omega)]; omega
    · split
      · refine ⟨_, _, rfl, ?_, ?_⟩
        · rw [ofNat_toNat_small (by omega)]; omega
        · simp only [List.mem_cons, List.not_mem_nil, or_false, forall_eq_or_imp, forall_eq]
          rw [ofNat_toNat_small (by omega), ofNat_toNat_small (by omega)]; omega
      · refine ⟨_, _, rfl, ?_, ?_⟩
        · rw [ofNat_toNat_small (by omega)]; omega
        · simp only [List.mem_cons, List.not_mem_nil, or_false, forall_eq_or_imp, forall_eq]
          rw [ofNat_toNat_small (by omega), ofNat_toNat_small (by omega), ofNat_toNat_small (by omega)]; omega

/-- The first byte tells the number of bytes. -/
theorem utf8Char_length_lead {c : Char} {b : UInt8} {s : Bytes} (h : utf8Char c = b :: s) :
    s.length = if b.toNat < 0x80 then 0 else if b.toNat < 0xE0 then 1 else if b.toNat < 0xF0 then 2 else 3 := by
  have hv := char_valid c
  unfold utf8Char at h
  simp only at h
  generalize c.toNat = n at *
  split at h
  · simp only [List.cons.injEq] at h
    obtain ⟨rfl, rfl⟩ := h
    rw [ofNat_toNat_small (by omega), if_pos (by omega)]
    rfl
  · split at h
    · simp only [List.cons.injEq] at h
      obtain ⟨rfl, rfl⟩ := h
      rw [ofNat_toNat_small (by omega), if_neg (by omega), if_pos (by omega)]
      rfl
    · split at h
      · simp only [List.cons.injEq] at h
        obtain ⟨rfl, rfl⟩ := h
        rw [ofNat_toNat_small (by omega), if_neg (by omega), if_neg (by omega), if_pos (by omega)]
        rfl
      · simp only [List.cons.injEq] at h
        obtain ⟨rfl, rfl⟩ := h
        rw [ofNat_toNat_small (by omega), if_neg (by omega), if_neg (by omega), if_neg (by omega)]
        rfl

/-- A character can be read off the front. -/
theorem utf8Char_append_inj {c d : Char} {x y : Bytes} (h : utf8Char c ++ x = utf8Char d ++ y) : c = d ∧ x = y := by
  obtain ⟨b, s, hc, -, -⟩ := utf8Char_shape c
  obtain ⟨b', t, hd, -, -⟩ := utf8Char_shape d
  have hb : b = b' := by
    rw [hc, hd] at h
    simp only [List.cons_append, List.cons.injEq] at h
    exact h.1
  subst hb
  have hl : (utf8Char c).length = (utf8Char d).length := by
    rw [hc, hd, List.length_cons, List.length_cons, utf8Char_length_lead hc, utf8Char_length_lead hd]
  obtain ⟨h1, h2⟩ := List.append_inj h hl
  refine ⟨?_, h2⟩
  have : utf8 [c] = utf8 [d] := by simp [utf8_cons, utf8_nil, h1]
  simpa using utf8_inj this

/-- Encodings of prefixes are prefixes of encodings, and the other way round. -/
theorem utf8_append_eq : ∀ {p s : Str} {r : Bytes}, utf8 p ++ r = utf8 s → ∃ t, s = p ++ t ∧ r = utf8 t
  | [], s, r, h => ⟨s, rfl, by simpa [utf8_nil] using h⟩
  | c :: p, [], r, h => by
    have := utf8Char_pos c
    have h2 := congrArg List.length h
    simp only [utf8_cons, utf8_nil, List.length_append, List.length_nil] at h2
    omega
  | c :: p, d :: s, r, h => by
    rw [utf8_cons, utf8_cons, List.append_assoc] at h
    obtain ⟨rfl, h2⟩ := utf8Char_append_inj h
    obtain ⟨t, rfl, rfl⟩ := utf8_append_eq h2
    exact ⟨t, rfl, rfl⟩

/-- A byte that starts a character is at a character boundary. -/
theorem boundary : ∀ {s : Str} {a : Bytes} {b : UInt8} {r : Bytes}, ¬ IsCont b → utf8 s = a ++ b :: r →
    ∃ x y, s = x ++ y ∧ utf8 x = a
  | [], a, b, r, _, h => by simp [utf8_nil] at h
  | c :: s, a, b, r, hb, h => by
    rw [utf8_cons] at h
    obtain ⟨f, t, hc, -, ht⟩ := utf8Char_shape c
    rcases List.append_eq_append_iff.mp h with ⟨u, e1, e2⟩ | ⟨u, e1, e2⟩
    · obtain ⟨x, y, rfl, rfl⟩ := boundary hb e2
      exact ⟨c :: x, y, rfl, by rw [utf8_cons, e1]⟩
    · cases u with
      | nil => exact ⟨[c], s, rfl, by rw [utf8_cons, utf8_nil, List.append_nil, e1, List.append_nil]⟩
      | cons b' u =>
        simp only [List.cons_append, List.cons.injEq] at e2
        obtain ⟨rfl, -⟩ := e2
        cases a with
        | nil => exact ⟨[], c :: s, rfl, rfl⟩
        | cons a0 a =>
          rw [hc] at e1
          simp only [List.cons_append, List.cons.injEq] at e1
          exact absurd (ht b (by rw [e1.2]; simp)) hb

/-- The encoding of a non-empty text occurs in the encoding of a text just where the text occurs. -/
theorem utf8_occurs {p s : Str} (hp : p ≠ []) {a r : Bytes} (h : utf8 s = a ++ utf8 p ++ r) :
    ∃ x y, s = x ++ p ++ y ∧ utf8 x = a ∧ utf8 y = r := by
  obtain ⟨c, p', rfl⟩ := List.exists_cons_of_ne_nil hp
  obtain ⟨f, t, hc, hf, -⟩ := utf8Char_shape c
  have h' : utf8 s = a ++ f :: (t ++ utf8 p' ++ r) := by rw [h, utf8_cons, hc]; simp
  obtain ⟨x, y, rfl, rfl⟩ := boundary hf h'
  rw [utf8_append, List.append_assoc] at h
  obtain ⟨z, rfl, rfl⟩ := utf8_append_eq (List.append_cancel_left h).symm
  exact ⟨x, z, by simp, rfl, rfl⟩

end Mvd
