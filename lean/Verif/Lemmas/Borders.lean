import Verif.Lemmas.Names

/-! Phrases at the border between a name and what follows. -/

namespace Mvd
open Spec

/-- The ways to cut a text in two parts that are not empty. -/
def cuts (q : Str) : List (Str × Str) := (List.range (q.length - 1)).map fun i => (q.take (i + 1), q.drop (i + 1))

theorem mem_cuts {u v : Str} (hu : u ≠ []) (hv : v ≠ []) : (u, v) ∈ cuts (u ++ v) := by
  have h1 := List.length_pos_iff.mpr hu
  have h2 := List.length_pos_iff.mpr hv
  refine List.mem_map.mpr ⟨u.length - 1, List.mem_range.mpr (by simp; omega), ?_⟩
  rw [show u.length - 1 + 1 = u.length from by omega, List.take_left, List.drop_left]

/-- A phrase that occurs in a text of two parts, and begins in the first. -/
theorem occursAt_left {q s t : Str} {i : Nat} (h : OccursAt q (s ++ t) i) (hi : i < s.length) :
    Occurs q s ∨ ∃ c ∈ cuts q, c.1 <:+ s ∧ c.2 <+: t := by
  obtain ⟨pre, post, e, rfl⟩ := h
  rw [List.append_assoc] at e
  rcases List.append_eq_append_iff.mp e with ⟨a, rfl, _⟩ | ⟨a, rfl, e'⟩
  · simp at hi
  · rcases List.append_eq_append_iff.mp e' with ⟨b, rfl, _⟩ | ⟨b, rfl, e''⟩
    · exact .inl ⟨pre, b, by simp⟩
    · by_cases hb : b = []
      · subst hb
        exact .inl ⟨pre, [], by simp⟩
      · have ha : a ≠ [] := by
          rintro rfl
          simp at hi
        exact .inr ⟨(a, b), mem_cuts ha hb, ⟨pre, rfl⟩, ⟨post, e''.symm⟩⟩

theorem occursAt_right {q s t : Str} {i : Nat} (h : OccursAt q (s ++ t) i) (hi : s.length ≤ i) :
    OccursAt q t (i - s.length) := by
  obtain ⟨pre, post, e, rfl⟩ := h
  rw [List.append_assoc] at e
  rcases List.append_eq_append_iff.mp e with ⟨a, rfl, e'⟩ | ⟨a, rfl, e'⟩
  · exact ⟨a, post, by rw [e']; simp, by simp⟩
  · have : a = [] := by simpa using hi
    subst this
    exact ⟨[], post, by simpa using e'.symm, by simp⟩

theorem occurs_append {q s t : Str} (h : Occurs q (s ++ t)) :
    Occurs q s ∨ (∃ c ∈ cuts q, c.1 <:+ s ∧ c.2 <+: t) ∨ Occurs q t := by
  obtain ⟨i, h⟩ := occurs_iff.mp h
  rcases Nat.lt_or_ge i s.length with hi | hi
  · rcases occursAt_left h hi with h | h
    · exact .inl h
    · exact .inr (.inl h)
  · exact .inr (.inr (occurs_iff.mpr ⟨_, occursAt_right h hi⟩))

theorem suffix_append {q s t : Str} (h : q <:+ s ++ t) : q <:+ t ∨ ∃ u, q = u ++ t ∧ u <:+ s := by
  obtain ⟨a, e⟩ := h
  rcases List.append_eq_append_iff.mp e with ⟨b, rfl, rfl⟩ | ⟨b, rfl, rfl⟩
  · exact .inr ⟨b, rfl, ⟨a, rfl⟩⟩
  · exact .inl ⟨b, rfl⟩

theorem prefix_append {q s t : Str} (h : q <+: s ++ t) : q <+: s ∨ s <+: q := by
  obtain ⟨a, e⟩ := h
  exact prefix_comparable e.symm

/-! ### After the first name -/

/-- A phrase does not begin in the first part of a text. -/
def NotEarly (q x t : Str) : Prop := ∀ i, OccursAt q (x ++ t) i → x.length ≤ i

theorem NotEarly.occurs {q x t : Str} (h : NotEarly q x t) (ho : Occurs q (x ++ t)) : Occurs q t := by
  obtain ⟨i, hi⟩ := occurs_iff.mp ho
  exact occurs_iff.mpr ⟨_, occursAt_right hi (h i hi)⟩

theorem NotEarly.firstAt {q x t : Str} (h : NotEarly q x t) (hf : FirstAt q t 0) : FirstAt q (x ++ t) x.length := by
  obtain ⟨⟨pre, post, e, hl⟩, _⟩ := hf
  have : pre = [] := by simpa using hl
  subst this
  exact ⟨⟨x, post, by rw [e]; simp, rfl⟩, h⟩

theorem notEarly_noPhrase {L : List Str} {x t : Str} (hx : ∀ q ∈ L, NotEarly q x t) (h : findAny L t = none) :
    NoPhrase L (x ++ t) :=
  fun q hq ho => findAny_none_iff.mp h q hq ((hx q hq).occurs ho)

theorem notEarly_firstPhrase {L : List Str} {x t : Str} (hx : ∀ q ∈ L, NotEarly q x t) (h : findAny L t = some 0) :
    FirstPhrase L (x ++ t) x.length := by
  obtain ⟨b, p, a, rfl, hn, hf⟩ := findAny_some_iff.mp h
  exact ⟨b, p, a, rfl, fun q hq ho => hn q hq ((hx q (by simp [hq])).occurs ho), (hx p (by simp)).firstAt hf⟩

/-- Only certain beginnings of phrases are completed by what follows a name. -/
def edges (L B : List Str) (ok : Str × Str → Bool) : Bool :=
  L.all fun q => (cuts q).all fun c => ok c || B.all fun b => !(c.2.isPrefixOf b || b.isPrefixOf c.2)

theorem edges_spec {L B : List Str} {ok : Str × Str → Bool} (h : edges L B ok = true) {q b t : Str} {c : Str × Str} (hq : q ∈ L)
    (hb : b ∈ B) (hc : c ∈ cuts q) (hp : c.2 <+: b ++ t) : ok c = true := by
  simp only [edges, List.all_eq_true, Bool.or_eq_true, Bool.not_eq_true', Bool.or_eq_false_iff] at h
  rcases h q hq c hc with h | h
  · exact h
  · obtain ⟨h1, h2⟩ := h b hb
    rcases prefix_append hp with hp | hp
    · rw [List.isPrefixOf_iff_prefix.mpr hp] at h1
      cases h1
    · rw [List.isPrefixOf_iff_prefix.mpr hp] at h2
      cases h2

theorem cuts_append {q : Str} {c : Str × Str} (h : c ∈ cuts q) : q = c.1 ++ c.2 := by
  obtain ⟨i, _, rfl⟩ := List.mem_map.mp h
  simp

end Mvd
