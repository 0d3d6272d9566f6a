import Mathlib.Logic.Basic
import Verif.Rust.Search
import Verif.Spec.Text

/-! The search functions meet their specification. -/

namespace Mvd
open Spec

variable {α : Type}

theorem occursAt_cons {needle : List α} {h : α} {t : List α} {i : Nat} :
    OccursAt needle (h :: t) (i + 1) ↔ OccursAt needle t i := by
  constructor
  · rintro ⟨pre, post, e, hl⟩
    cases pre with
    | nil => simp at hl
    | cons a pre =>
      simp at e hl
      exact ⟨pre, post, by simp [e.2], hl⟩
  · rintro ⟨pre, post, e, hl⟩
    exact ⟨h :: pre, post, by simp [e], by simp [hl]⟩

theorem occursAt_zero {needle hay : List α} : OccursAt needle hay 0 ↔ needle <+: hay := by
  constructor
  · rintro ⟨pre, post, e, hl⟩
    have : pre = [] := List.length_eq_zero_iff.mp hl
    subst this
    exact ⟨post, by simp [e]⟩
  · rintro ⟨post, e⟩
    exact ⟨[], post, by simp [e], rfl⟩

theorem occurs_iff {needle hay : List α} : Occurs needle hay ↔ ∃ i, OccursAt needle hay i := by
  constructor
  · rintro ⟨pre, post, e⟩
    exact ⟨pre.length, pre, post, e, rfl⟩
  · rintro ⟨i, pre, post, e, _⟩
    exact ⟨pre, post, e⟩

theorem _root_.Spec.OccursAt.bound {needle hay : List α} {i : Nat} (h : OccursAt needle hay i) :
    i + needle.length ≤ hay.length := by
  obtain ⟨pre, post, e, hl⟩ := h
  subst e; simp; omega

theorem occursAt_nil {needle : List α} {i : Nat} : OccursAt needle [] i ↔ needle = [] ∧ i = 0 := by
  constructor
  · intro h
    have := h.bound
    simp at this
    exact ⟨this.2, this.1⟩
  · rintro ⟨rfl, rfl⟩
    exact ⟨[], [], rfl, rfl⟩

theorem _root_.Spec.FirstAt.unique {needle hay : List α} {i j : Nat} (h : FirstAt needle hay i) (k : FirstAt needle hay j) : i = j :=
  Nat.le_antisymm (h.2 _ k.1) (k.2 _ h.1)

theorem _root_.Spec.LastAt.unique {needle hay : List α} {i j : Nat} (h : LastAt needle hay i) (k : LastAt needle hay j) : i = j :=
  Nat.le_antisymm (k.2 _ h.1) (h.2 _ k.1)

variable [DecidableEq α]

theorem find_some {needle : List α} : ∀ {hay : List α} {i : Nat}, find needle hay = some i → FirstAt needle hay i
  | [], i, h => by
    simp only [find] at h
    split at h
    · rename_i hp
      simp at h hp
      subst h; subst hp
      exact ⟨occursAt_nil.mpr ⟨rfl, rfl⟩, fun _ _ => Nat.zero_le _⟩
    · simp at h
  | a :: t, i, h => by
    simp only [find] at h
    split at h
    · rename_i hp
      simp at h
      subst h
      exact ⟨occursAt_zero.mpr (List.isPrefixOf_iff_prefix.mp hp), fun _ _ => Nat.zero_le _⟩
    · rename_i hp
      simp only [Option.map_eq_some_iff] at h
      obtain ⟨k, hk, rfl⟩ := h
      obtain ⟨h1, h2⟩ := find_some hk
      refine ⟨occursAt_cons.mpr h1, fun j hj => ?_⟩
      cases j with
      | zero => exact absurd (List.isPrefixOf_iff_prefix.mpr (occursAt_zero.mp hj)) hp
      | succ j => exact Nat.succ_le_succ (h2 j (occursAt_cons.mp hj))

theorem find_none {needle : List α} : ∀ {hay : List α}, find needle hay = none → ∀ i, ¬ OccursAt needle hay i
  | [], h, i => by
    simp only [find] at h
    split at h
    · simp at h
    · rename_i hp
      intro ho
      simp [(occursAt_nil.mp ho).1] at hp
  | a :: t, h, i => by
    simp only [find] at h
    split at h
    · simp at h
    · rename_i hp
      simp only [Option.map_eq_none_iff] at h
      intro ho
      cases i with
      | zero => exact hp (List.isPrefixOf_iff_prefix.mpr (occursAt_zero.mp ho))
      | succ i => exact find_none h i (occursAt_cons.mp ho)

theorem find_eq_some_iff {needle hay : List α} {i : Nat} : find needle hay = some i ↔ FirstAt needle hay i := by
  constructor
  · exact find_some
  · intro h
    cases hf : find needle hay with
    | none => exact absurd h.1 (find_none hf i)
    | some j => rw [FirstAt.unique (find_some hf) h]

theorem find_eq_none_iff {needle hay : List α} : find needle hay = none ↔ ¬ Occurs needle hay := by
  constructor
  · intro h ho
    obtain ⟨i, hi⟩ := occurs_iff.mp ho
    exact find_none h i hi
  · intro h
    cases hf : find needle hay with
    | none => rfl
    | some j => exact absurd (occurs_iff.mpr ⟨j, (find_some hf).1⟩) h

theorem find_isSome_iff {needle hay : List α} : (find needle hay).isSome ↔ Occurs needle hay := by
  rw [← not_iff_not, ← find_eq_none_iff]
  cases find needle hay <;> simp

theorem rfind_none {needle : List α} : ∀ {hay : List α}, rfind needle hay = none → ∀ i, ¬ OccursAt needle hay i
  | [], h, i => by
    simp only [rfind] at h
    split at h
    · simp at h
    · rename_i hp
      intro ho
      simp [(occursAt_nil.mp ho).1] at hp
  | a :: t, h, i => by
    simp only [rfind] at h
    split at h
    · simp at h
    · rename_i hr
      split at h
      · simp at h
      · rename_i hp
        intro ho
        cases i with
        | zero => exact hp (List.isPrefixOf_iff_prefix.mpr (occursAt_zero.mp ho))
        | succ i => exact rfind_none hr i (occursAt_cons.mp ho)

theorem rfind_some {needle : List α} : ∀ {hay : List α} {i : Nat}, rfind needle hay = some i → LastAt needle hay i
  | [], i, h => by
    simp only [rfind] at h
    split at h
    · rename_i hp
      simp at h hp
      subst h; subst hp
      exact ⟨occursAt_nil.mpr ⟨rfl, rfl⟩, fun j hj => (occursAt_nil.mp hj).2 ▸ Nat.le_refl _⟩
    · simp at h
  | a :: t, i, h => by
    simp only [rfind] at h
    split at h
    · rename_i k hk
      simp at h
      subst h
      obtain ⟨h1, h2⟩ := rfind_some hk
      refine ⟨occursAt_cons.mpr h1, fun j hj => ?_⟩
      cases j with
      | zero => exact Nat.zero_le _
      | succ j => exact Nat.succ_le_succ (h2 j (occursAt_cons.mp hj))
    · rename_i hr
      split at h
      · rename_i hp
        simp at h
        subst h
        refine ⟨occursAt_zero.mpr (List.isPrefixOf_iff_prefix.mp hp), fun j hj => ?_⟩
        cases j with
        | zero => exact Nat.le_refl _
        | succ j => exact absurd (occursAt_cons.mp hj) (rfind_none hr j)
      · simp at h

theorem rfind_eq_some_iff {needle hay : List α} {i : Nat} : rfind needle hay = some i ↔ LastAt needle hay i := by
  constructor
  · exact rfind_some
  · intro h
    cases hf : rfind needle hay with
    | none => exact absurd h.1 (rfind_none hf i)
    | some j => rw [LastAt.unique (rfind_some hf) h]

theorem rfind_eq_none_iff {needle hay : List α} : rfind needle hay = none ↔ ¬ Occurs needle hay := by
  constructor
  · intro h ho
    obtain ⟨i, hi⟩ := occurs_iff.mp ho
    exact rfind_none h i hi
  · intro h
    cases hf : rfind needle hay with
    | none => rfl
    | some j => exact absurd (occurs_iff.mpr ⟨j, (rfind_some hf).1⟩) h

theorem rfind_isSome_iff {needle hay : List α} : (rfind needle hay).isSome ↔ Occurs needle hay := by
  rw [← not_iff_not, ← rfind_eq_none_iff]
  cases rfind needle hay <;> simp

/-- The first occurrence of one element splits the sequence. -/
theorem findByte_eq_some_iff {b : α} {hay : List α} {i : Nat} :
    findByte b hay = some i ↔ ∃ pre post, hay = pre ++ b :: post ∧ pre.length = i ∧ b ∉ pre := by
  unfold findByte
  rw [find_eq_some_iff]
  constructor
  · rintro ⟨⟨pre, post, e, hl⟩, hmin⟩
    refine ⟨pre, post, by simp [e], hl, fun hb => ?_⟩
    obtain ⟨p1, p2, rfl⟩ := List.append_of_mem hb
    have := hmin p1.length ⟨p1, p2 ++ [b] ++ post, by simp [e], rfl⟩
    simp at hl
    omega
  · rintro ⟨pre, post, e, hl, hb⟩
    refine ⟨⟨pre, post, by simp [e], hl⟩, fun j hj => ?_⟩
    obtain ⟨p1, p2, e2, hl2⟩ := hj
    refine Nat.le_of_not_lt fun hlt => hb ?_
    subst hl hl2
    have h1 : hay[p1.length]? = some b := by simp [e2]
    rw [e, List.getElem?_append_left hlt] at h1
    exact List.mem_of_getElem? h1

theorem findByte_eq_none_iff {b : α} {hay : List α} : findByte b hay = none ↔ b ∉ hay := by
  unfold findByte
  rw [find_eq_none_iff, not_iff_not]
  constructor
  · rintro ⟨pre, post, e⟩
    simp [e]
  · intro h
    obtain ⟨p1, p2, rfl⟩ := List.append_of_mem h
    exact ⟨p1, p2, by simp⟩

/-- The last occurrence of one element splits the sequence. -/
theorem rfindByte_eq_some_iff {b : α} {hay : List α} {i : Nat} :
    rfindByte b hay = some i ↔ ∃ pre post, hay = pre ++ b :: post ∧ pre.length = i ∧ b ∉ post := by
  unfold rfindByte
  rw [rfind_eq_some_iff]
  constructor
  · rintro ⟨⟨pre, post, e, hl⟩, hmax⟩
    refine ⟨pre, post, by simp [e], hl, fun hb => ?_⟩
    obtain ⟨p1, p2, rfl⟩ := List.append_of_mem hb
    have := hmax (pre ++ b :: p1).length ⟨pre ++ b :: p1, p2, by simp [e], rfl⟩
    simp at this
    omega
  · rintro ⟨pre, post, e, hl, hb⟩
    refine ⟨⟨pre, post, by simp [e], hl⟩, fun j hj => ?_⟩
    obtain ⟨p1, p2, e2, hl2⟩ := hj
    refine Nat.le_of_not_lt fun hlt => hb ?_
    subst hl hl2
    have h1 : hay[p1.length]? = some b := by simp [e2]
    rw [e, List.getElem?_append_right (Nat.le_of_lt hlt)] at h1
    have : p1.length - pre.length = (p1.length - pre.length - 1) + 1 := by omega
    rw [this, List.getElem?_cons_succ] at h1
    exact List.mem_of_getElem? h1

theorem rfindByte_eq_none_iff {b : α} {hay : List α} : rfindByte b hay = none ↔ b ∉ hay := by
  unfold rfindByte
  rw [rfind_eq_none_iff, ← find_eq_none_iff]
  exact findByte_eq_none_iff

theorem dedup_sublist : ∀ l : List α, (dedup l).Sublist l
  | [] => by simp [dedup]
  | [a] => by simp [dedup]
  | a :: b :: t => by
    rw [dedup]
    split
    · exact (dedup_sublist (b :: t)).trans (List.sublist_cons_self _ _)
    · exact (dedup_sublist (b :: t)).cons_cons _

theorem dedup_collapses : ∀ l : List α, Collapses l (dedup l)
  | [] => ⟨by simp [dedup], [], by simp [dedup], by simp [dedup]⟩
  | [a] => ⟨by simp [dedup], [0], by simp [dedup], by simp [dedup]⟩
  | a :: b :: t => by
    obtain ⟨h1, extra, h2, h3⟩ := dedup_collapses (b :: t)
    simp only [dedup]
    split
    · rename_i hab
      subst hab
      refine ⟨h1, ?_⟩
      cases extra with
      | nil =>
        rw [List.zipWith_nil_left] at h3
        simp at h3
      | cons n ns =>
        cases hd : dedup (a :: t) with
        | nil => rw [hd] at h2; simp at h2
        | cons x xs =>
          rw [hd] at h2 h3
          simp [List.replicate_succ] at h3
          refine ⟨(n + 1) :: ns, by simpa using h2, ?_⟩
          simp [List.replicate_succ, ← h3.1, h3.2]
    · rename_i hab
      refine ⟨?_, 0 :: extra, by simp [h2], by simp [← h3]⟩
      intro i h
      cases i with
      | zero =>
        have : ∀ (l : List α) (x : α), (dedup (x :: l)).head? = some x := by
          intro l
          induction l with
          | nil => intro x; simp [dedup]
          | cons y l ih =>
            intro x
            simp only [dedup]
            split
            · rename_i e; rw [e]; exact ih y
            · simp
        have hb := this t b
        simp only [List.getElem_cons_zero]
        intro e
        rw [List.head?_eq_getElem?] at hb
        simp at h
        rw [List.getElem?_eq_getElem (by omega)] at hb
        simp at hb
        apply hab
        rw [e]
        simp [hb]
      | succ i =>
        simp at h ⊢
        exact h1 i h

theorem splitOnce_eq_some_iff {s delim x y : List α} :
    splitOnce s delim = some (x, y) ↔ s = x ++ delim ++ y ∧ FirstAt delim s x.length := by
  unfold splitOnce
  simp only [Option.map_eq_some_iff, Prod.mk.injEq, find_eq_some_iff]
  constructor
  · rintro ⟨i, hf, rfl, rfl⟩
    obtain ⟨pre, post, e, hl⟩ := hf.1
    subst hl
    have h1 : s.take pre.length = pre := by simp [e]
    have h2 : s.drop (pre.length + delim.length) = post := by
      rw [e]; simp [List.drop_append, List.drop_eq_nil_of_le]
    rw [h1, h2]
    exact ⟨e, hf⟩
  · rintro ⟨e, hf⟩
    refine ⟨x.length, hf, by simp [e], ?_⟩
    rw [e]; simp [List.drop_append, List.drop_eq_nil_of_le]

theorem splitOnce_eq_none_iff {s delim : List α} : splitOnce s delim = none ↔ ¬ Occurs delim s := by
  simp [splitOnce, find_eq_none_iff]

/-! ### Uniqueness of collapsing -/

omit [DecidableEq α] in
theorem collapses_cons {long : List α} {a : α} {short : List α} (h : Collapses long (a :: short)) :
    ∃ n long', long = List.replicate (n + 1) a ++ long' ∧ Collapses long' short ∧ long'.head? ≠ some a := by
  obtain ⟨h1, extra, h2, h3⟩ := h
  cases extra with
  | nil => simp at h2
  | cons n extra =>
    have hc : Collapses (List.zipWith (fun n a => List.replicate (n + 1) a) extra short).flatten short := by
      refine ⟨fun i hi => ?_, extra, by simpa using h2, rfl⟩
      have := h1 (i + 1) (by simpa using hi)
      simpa using this
    refine ⟨n, _, by simpa using h3, hc, ?_⟩
    cases short with
    | nil => simp
    | cons b short =>
      cases extra with
      | nil => simp at h2
      | cons m extra =>
        have := h1 0 (by simp)
        simp [List.replicate_succ] at this ⊢
        exact fun e => this e.symm

omit [DecidableEq α] in
theorem replicate_append_inj {a : α} : ∀ {n m : Nat} {x y : List α}, List.replicate n a ++ x = List.replicate m a ++ y →
    x.head? ≠ some a → y.head? ≠ some a → x = y
  | 0, 0, x, y, h, _, _ => by simpa using h
  | 0, m + 1, x, y, h, hx, _ => by simp [List.replicate_succ] at h; simp [h] at hx
  | n + 1, 0, x, y, h, _, hy => by simp [List.replicate_succ] at h; simp [← h] at hy
  | n + 1, m + 1, x, y, h, hx, hy => by
    simp only [List.replicate_succ, List.cons_append, List.cons.injEq, true_and] at h
    exact replicate_append_inj h hx hy

omit [DecidableEq α] in
theorem collapses_unique : ∀ {long a b : List α}, Collapses long a → Collapses long b → a = b
  | long, [], [], _, _ => rfl
  | long, [], b :: bs, ⟨_, e, _, h⟩, hb => by
    obtain ⟨n, l', e', _⟩ := collapses_cons hb
    cases e <;> simp [h, List.replicate_succ] at e'
  | long, a :: as, [], ha, ⟨_, e, _, h⟩ => by
    obtain ⟨n, l', e', _⟩ := collapses_cons ha
    cases e <;> simp [h, List.replicate_succ] at e'
  | long, a :: as, b :: bs, ha, hb => by
    obtain ⟨n, l, e, hc, hh⟩ := collapses_cons ha
    obtain ⟨m, k, e', hc', hh'⟩ := collapses_cons hb
    have e2 := e.symm.trans e'
    have hab : a = b := by
      simp only [List.replicate_succ, List.cons_append, List.cons.injEq] at e2
      exact e2.1
    subst hab
    have : l = k := replicate_append_inj e2 hh hh'
    subst this
    rw [collapses_unique hc hc']

omit [DecidableEq α] in
theorem collapses_mem : ∀ {long short : List α}, Collapses long short → ∀ {a}, a ∈ short → a ∈ long
  | _, [], _, a, h => by simp at h
  | long, b :: short, hc, a, h => by
    obtain ⟨n, l, e, hc', _⟩ := collapses_cons hc
    simp only [List.mem_cons] at h
    rcases h with rfl | h
    · simp [e]
    · simp [e, collapses_mem hc' h]

omit [DecidableEq α] in
theorem collapses_mem' : ∀ {long short : List α}, Collapses long short → ∀ {a}, a ∈ long → a ∈ short
  | _, [], ⟨_, e, _, h⟩, a, ha => by cases e <;> simp [h] at ha
  | long, b :: short, hc, a, h => by
    obtain ⟨n, l, e, hc', _⟩ := collapses_cons hc
    rw [e] at h
    simp only [List.mem_append, List.mem_replicate] at h
    rcases h with ⟨_, rfl⟩ | h
    · simp
    · simp [collapses_mem' hc' h]

omit [DecidableEq α] in
theorem collapses_nodup : ∀ {long short : List α}, Collapses long short →
    (∀ i j k, ∀ hk : k < long.length, ∀ hij : i ≤ j, ∀ hjk : j ≤ k, long[i] = long[k] → long[j] = long[k]) → short.Nodup
  | _, [], _, _ => by simp
  | long, b :: short, hc, hadj => by
    obtain ⟨n, l, e, hc', hh⟩ := collapses_cons hc
    subst e
    rw [List.nodup_cons]
    constructor
    · intro hb
      have hl := collapses_mem hc' hb
      obtain ⟨k, hk, hkb⟩ := List.mem_iff_getElem.mp hl
      have hpos : 0 < l.length := by omega
      have h1 := hadj 0 (n + 1) (n + 1 + k) (by simp; omega) (by omega) (by omega)
      simp only [List.getElem_append, List.length_replicate, List.getElem_replicate] at h1
      simp [hkb] at h1
      apply hh
      rw [List.head?_eq_getElem?, List.getElem?_eq_getElem hpos, h1]
    · apply collapses_nodup hc'
      intro i j k hk hij hjk he
      have h1 := hadj (n + 1 + i) (n + 1 + j) (n + 1 + k) (by simp; omega) (by omega) (by omega)
      simpa [List.getElem_append_right, he] using h1

end Mvd
