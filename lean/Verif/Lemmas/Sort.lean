import Verif.Lemmas.Utf8
import Verif.Rust.Map
import Verif.Spec.Order

/-! Comparison of strings and stable sorting. -/

namespace Mvd
open Spec

/-! ### Comparison of strings -/

theorem bytesCmp_self : ∀ a : Bytes, bytesCmp a a = .eq
  | [] => rfl
  | x :: a => by
    rw [bytesCmp, if_neg (by omega), if_neg (by omega)]
    exact bytesCmp_self a

theorem bytesCmp_append : ∀ (p a b : Bytes), bytesCmp (p ++ a) (p ++ b) = bytesCmp a b
  | [], _, _ => rfl
  | x :: p, a, b => by
    rw [List.cons_append, List.cons_append, bytesCmp, if_neg (by omega), if_neg (by omega)]
    exact bytesCmp_append p a b

theorem bytesCmp_prefix (a : Bytes) {b : Bytes} (h : b ≠ []) : bytesCmp a (a ++ b) = .lt := by
  have := bytesCmp_append a [] b
  rw [List.append_nil] at this
  rw [this]
  cases b with
  | nil => exact absurd rfl h
  | cons x b => rfl

theorem bytesCmp_prefix' (a : Bytes) {b : Bytes} (h : b ≠ []) : bytesCmp (a ++ b) a = .gt := by
  have := bytesCmp_append a b []
  rw [List.append_nil] at this
  rw [this]
  cases b with
  | nil => exact absurd rfl h
  | cons x b => rfl

theorem bytesCmp_lt {x y : UInt8} (h : x.toNat < y.toNat) (a b : Bytes) : bytesCmp (x :: a) (y :: b) = .lt := by
  rw [bytesCmp, if_pos h]

theorem bytesCmp_gt {x y : UInt8} (h : x.toNat < y.toNat) (a b : Bytes) : bytesCmp (y :: a) (x :: b) = .gt := by
  rw [bytesCmp, if_neg (by omega), if_pos h]

/-- The encodings of two characters differ first in a byte that orders them like their code points. -/
theorem utf8Char_lt {c d : Char} (h : c.toNat < d.toNat) :
    ∃ p x y s t, utf8Char c = p ++ x :: s ∧ utf8Char d = p ++ y :: t ∧ x.toNat < y.toNat := by
  have hd : d.toNat < 0x110000 := by have := char_valid d; omega
  unfold utf8Char
  generalize c.toNat = m at h
  generalize d.toNat = n at h hd
  have e : ∀ k, k < 256 → (UInt8.ofNat k).toNat = k := fun k hk => ofNat_toNat_small hk
  have first : ∀ {x y : Nat} {s t : Bytes}, x < y → y < 256 → ∃ p x' y' s' t', UInt8.ofNat x :: s = p ++ x' :: s' ∧
      UInt8.ofNat y :: t = p ++ y' :: t' ∧ x'.toNat < y'.toNat := by
    intro x y s t hxy hy
    exact ⟨[], _, _, _, _, rfl, rfl, by rw [e x (by omega), e y hy]; exact hxy⟩
  have next : ∀ {x y : Nat} {s t : Bytes}, x = y → (∃ p x' y' s' t', s = p ++ x' :: s' ∧ t = p ++ y' :: t' ∧
      x'.toNat < y'.toNat) → ∃ p x' y' s' t', UInt8.ofNat x :: s = p ++ x' :: s' ∧
      UInt8.ofNat y :: t = p ++ y' :: t' ∧ x'.toNat < y'.toNat := by
    rintro x y s t rfl ⟨p, x', y', s', t', rfl, rfl, h⟩
    exact ⟨UInt8.ofNat x :: p, _, _, _, _, rfl, rfl, h⟩
  simp only
  by_cases h1 : n < 0x80
  · rw [if_pos h1, if_pos (by omega)]
    exact first (by omega) (by omega)
  · rw [if_neg h1]
    by_cases h2 : n < 0x800
    · rw [if_pos h2]
      by_cases m1 : m < 0x80
      · rw [if_pos m1]; exact first (by omega) (by omega)
      · rw [if_neg m1, if_pos (by omega)]
        by_cases q : m / 0x40 = n / 0x40
        · exact next (by omega) (first (by omega) (by omega))
        · exact first (by omega) (by omega)
    · rw [if_neg h2]
      by_cases h3 : n < 0x10000
      · rw [if_pos h3]
        by_cases m1 : m < 0x80
        · rw [if_pos m1]; exact first (by omega) (by omega)
        · rw [if_neg m1]
          by_cases m2 : m < 0x800
          · rw [if_pos m2]; exact first (by omega) (by omega)
          · rw [if_neg m2, if_pos (by omega)]
            by_cases q : m / 0x1000 = n / 0x1000
            · refine next (by omega) ?_
              by_cases q : m / 0x40 = n / 0x40
              · exact next (by omega) (first (by omega) (by omega))
              · exact first (by omega) (by omega)
            · exact first (by omega) (by omega)
      · rw [if_neg h3]
        by_cases m1 : m < 0x80
        · rw [if_pos m1]; exact first (by omega) (by omega)
        · rw [if_neg m1]
          by_cases m2 : m < 0x800
          · rw [if_pos m2]; exact first (by omega) (by omega)
          · rw [if_neg m2]
            by_cases m3 : m < 0x10000
            · rw [if_pos m3]; exact first (by omega) (by omega)
            · rw [if_neg m3]
              by_cases q : m / 0x40000 = n / 0x40000
              · refine next (by omega) ?_
                by_cases q : m / 0x1000 = n / 0x1000
                · refine next (by omega) ?_
                  by_cases q : m / 0x40 = n / 0x40
                  · exact next (by omega) (first (by omega) (by omega))
                  · exact first (by omega) (by omega)
                · exact first (by omega) (by omega)
              · exact first (by omega) (by omega)

theorem before_lt {a b : Str} (h : Before a b) : strCmp a b = .lt ∧ strCmp b a = .gt := by
  unfold strCmp
  simp only [asBytes_eq]
  rcases h with ⟨c, t, rfl⟩ | ⟨p, x, y, s, t, rfl, rfl, hlt⟩
  · rw [utf8_append]
    have : utf8 (c :: t) ≠ [] := by
      rw [utf8_cons]
      have := utf8Char_pos c
      intro h
      have := congrArg List.length h
      rw [List.length_append, List.length_nil] at this
      omega
    exact ⟨bytesCmp_prefix _ this, bytesCmp_prefix' _ this⟩
  · obtain ⟨q, x', y', s', t', e1, e2, hl⟩ := utf8Char_lt hlt
    simp only [utf8_append, utf8_cons, e1, e2, List.append_assoc, bytesCmp_append, List.cons_append]
    exact ⟨bytesCmp_lt hl _ _, bytesCmp_gt hl _ _⟩

theorem before_total : ∀ (a b : Str), a = b ∨ Before a b ∨ Before b a
  | [], [] => .inl rfl
  | [], c :: t => .inr (.inl (.inl ⟨c, t, rfl⟩))
  | c :: t, [] => .inr (.inr (.inl ⟨c, t, rfl⟩))
  | c :: a, d :: b => by
    by_cases h : c = d
    · subst h
      have lift : ∀ {a b : Str}, Before a b → Before (c :: a) (c :: b) := by
        rintro a b (⟨e, t, rfl⟩ | ⟨p, x, y, s, t, rfl, rfl, hlt⟩)
        · exact .inl ⟨e, t, rfl⟩
        · exact .inr ⟨c :: p, x, y, s, t, rfl, rfl, hlt⟩
      rcases before_total a b with rfl | h | h
      · exact .inl rfl
      · exact .inr (.inl (lift h))
      · exact .inr (.inr (lift h))
    · have hne : c.toNat ≠ d.toNat := fun e => h (Char.toNat_inj.mp e)
      rcases Nat.lt_or_gt_of_ne hne with hl | hl
      · exact .inr (.inl (.inr ⟨[], c, d, a, b, rfl, rfl, hl⟩))
      · exact .inr (.inr (.inr ⟨[], d, c, b, a, rfl, rfl, hl⟩))

theorem strCmp_lt_iff {a b : Str} : strCmp a b = .lt ↔ Before a b := by
  refine ⟨fun h => ?_, fun h => (before_lt h).1⟩
  rcases before_total a b with rfl | hb | hb
  · rw [strCmp, bytesCmp_self] at h; cases h
  · exact hb
  · rw [(before_lt hb).2] at h; cases h

theorem strCmp_gt_iff {a b : Str} : strCmp a b = .gt ↔ Before b a := by
  refine ⟨fun h => ?_, fun h => (before_lt h).2⟩
  rcases before_total a b with rfl | hb | hb
  · rw [strCmp, bytesCmp_self] at h; cases h
  · rw [(before_lt hb).1] at h; cases h
  · exact hb

theorem strCmp_eq_iff {a b : Str} : strCmp a b = .eq ↔ a = b := by
  refine ⟨fun h => ?_, fun h => by rw [h, strCmp, bytesCmp_self]⟩
  rcases before_total a b with rfl | hb | hb
  · rfl
  · rw [(before_lt hb).1] at h; cases h
  · rw [(before_lt hb).2] at h; cases h

theorem before_irrefl (a : Str) : ¬ Before a a := by
  intro h
  have := (before_lt h).1
  rw [strCmp, bytesCmp_self] at this
  cases this

theorem before_asymm {a b : Str} (h : Before a b) : ¬ Before b a := by
  intro h'
  have := (before_lt h).1
  rw [(before_lt h').2] at this
  cases this

theorem before_cons_cons {c d : Char} {a b : Str} :
    Before (c :: a) (d :: b) ↔ c.toNat < d.toNat ∨ (c = d ∧ Before a b) := by
  constructor
  · rintro (⟨e, t, h⟩ | ⟨p, x, y, s, t, h1, h2, hlt⟩)
    · simp only [List.cons_append, List.cons.injEq] at h
      exact .inr ⟨h.1.symm, .inl ⟨e, t, h.2⟩⟩
    · cases p with
      | nil =>
        simp only [List.nil_append, List.cons.injEq] at h1 h2
        rw [h1.1, h2.1]
        exact .inl hlt
      | cons z p =>
        simp only [List.cons_append, List.cons.injEq] at h1 h2
        exact .inr ⟨h1.1.trans h2.1.symm, .inr ⟨p, x, y, s, t, h1.2, h2.2, hlt⟩⟩
  · rintro (h | ⟨rfl, ⟨e, t, rfl⟩ | ⟨p, x, y, s, t, rfl, rfl, hlt⟩⟩)
    · exact .inr ⟨[], c, d, a, b, rfl, rfl, h⟩
    · exact .inl ⟨e, t, rfl⟩
    · exact .inr ⟨c :: p, x, y, s, t, rfl, rfl, hlt⟩

theorem before_trans : ∀ {a b c : Str}, Before a b → Before b c → Before a c
  | _, [], _, h, _ => by
    rcases h with ⟨e, t, h⟩ | ⟨p, x, y, s, t, _, h, _⟩
    · have := congrArg List.length h; simp at this
    · have := congrArg List.length h; simp at this
  | _, _ :: _, [], _, h => by
    rcases h with ⟨e, t, h⟩ | ⟨p, x, y, s, t, _, h, _⟩
    · have := congrArg List.length h; simp at this
    · have := congrArg List.length h; simp at this
  | [], _ :: _, z :: c, _, _ => .inl ⟨z, c, rfl⟩
  | x :: a, y :: b, z :: c, h, h' => by
    rw [before_cons_cons] at h h' ⊢
    rcases h with h | ⟨rfl, h⟩ <;> rcases h' with h' | ⟨rfl, h'⟩
    · exact .inl (by omega)
    · exact .inl h
    · exact .inl h'
    · exact .inr ⟨rfl, before_trans h h'⟩

/-! ### Sorting -/

section
variable {α : Type}

theorem insertBy_perm (cmp : α → α → Ordering) (x : α) : ∀ l, (insertBy cmp x l).Perm (x :: l)
  | [] => List.Perm.refl _
  | y :: ys => by
    rw [insertBy]
    split
    · exact ((insertBy_perm cmp x ys).cons y).trans (List.Perm.swap x y ys)
    · exact List.Perm.refl _

theorem sortBy_perm (cmp : α → α → Ordering) : ∀ l, (sortBy cmp l).Perm l
  | [] => List.Perm.refl _
  | x :: xs => (insertBy_perm cmp x _).trans ((sortBy_perm cmp xs).cons x)

/-- A strict order in which "not smaller" is transitive. -/
structure WeakOrder (lt : α → α → Prop) : Prop where
  irrefl : ∀ a, ¬ lt a a
  asymm : ∀ a b, lt a b → ¬ lt b a
  trans : ∀ a b c, ¬ lt b a → ¬ lt c b → ¬ lt c a

theorem insertBy_sorted {cmp : α → α → Ordering} {lt : α → α → Prop} (w : WeakOrder lt)
    (hgt : ∀ a b, cmp a b = .gt ↔ lt b a) (x : α) : ∀ l, l.Pairwise (fun a b => ¬ lt b a) →
    (insertBy cmp x l).Pairwise (fun a b => ¬ lt b a)
  | [], _ => by simp [insertBy]
  | y :: ys, h => by
    rw [List.pairwise_cons] at h
    rw [insertBy]
    split
    · rename_i hg
      rw [List.pairwise_cons]
      refine ⟨fun z hz => ?_, insertBy_sorted w hgt x ys h.2⟩
      rcases List.mem_cons.mp ((insertBy_perm cmp x ys).mem_iff.mp hz) with rfl | hz
      · exact w.asymm _ _ ((hgt _ _).mp hg)
      · exact h.1 z hz
    · rename_i hg
      have hyx : ¬ lt y x := fun hl => hg ((hgt _ _).mpr hl)
      rw [List.pairwise_cons, List.pairwise_cons]
      refine ⟨fun z hz => ?_, h⟩
      rcases List.mem_cons.mp hz with rfl | hz
      · exact hyx
      · exact w.trans _ _ _ hyx (h.1 z hz)

theorem sortBy_sorted {cmp : α → α → Ordering} {lt : α → α → Prop} (w : WeakOrder lt)
    (hgt : ∀ a b, cmp a b = .gt ↔ lt b a) : ∀ l, (sortBy cmp l).Pairwise (fun a b => ¬ lt b a)
  | [] => List.Pairwise.nil
  | x :: xs => insertBy_sorted w hgt x _ (sortBy_sorted w hgt xs)

theorem insertBy_filter {cmp : α → α → Ordering} {lt : α → α → Prop} (hgt : ∀ a b, cmp a b = .gt ↔ lt b a)
    {group : α → Bool} (hg : ∀ a b, group a → group b → ¬ lt a b) (x : α) : ∀ l : List α,
    (insertBy cmp x l).filter group = (x :: l).filter group
  | [] => rfl
  | y :: ys => by
    rw [insertBy]
    split
    · rename_i h
      have hlt := (hgt _ _).mp h
      have ih := insertBy_filter hgt hg x ys
      by_cases hx : group x = true
      · have hy : ¬ group y = true := fun hy => hg y x hy hx hlt
        rw [List.filter_cons, if_neg hy, ih, List.filter_cons, if_pos hx, List.filter_cons, if_pos hx, List.filter_cons,
          if_neg hy]
      · rw [List.filter_cons, ih, List.filter_cons (x := x), if_neg hx, List.filter_cons (x := x), if_neg hx,
          List.filter_cons (x := y)]
    · rfl

theorem sortBy_filter {cmp : α → α → Ordering} {lt : α → α → Prop} (hgt : ∀ a b, cmp a b = .gt ↔ lt b a)
    {group : α → Bool} (hg : ∀ a b, group a → group b → ¬ lt a b) : ∀ l : List α,
    (sortBy cmp l).filter group = l.filter group
  | [] => rfl
  | x :: xs => by
    rw [sortBy, insertBy_filter hgt hg, List.filter_cons, List.filter_cons, sortBy_filter hgt hg xs]

theorem sortBy_stable {cmp : α → α → Ordering} {lt : α → α → Prop} (w : WeakOrder lt)
    (hgt : ∀ a b, cmp a b = .gt ↔ lt b a) (l : List α) : StablySorted lt l (sortBy cmp l) :=
  ⟨sortBy_perm cmp l, sortBy_sorted w hgt l, fun _ hg => sortBy_filter hgt hg l⟩

/-- Without ties the order of the input does not matter. -/
theorem sortBy_order {cmp : α → α → Ordering} {lt : α → α → Prop} (w : WeakOrder lt)
    (hgt : ∀ a b, cmp a b = .gt ↔ lt b a) {l l' : List α} (hp : l.Perm l')
    (hties : l.Pairwise fun a b => lt a b ∨ lt b a) : sortBy cmp l = sortBy cmp l' := by
  have hmem : ∀ {l : List α}, (l.Pairwise fun a b => lt a b ∨ lt b a) → ∀ a ∈ l, ∀ b ∈ l, ¬ lt a b → ¬ lt b a → a = b := by
    intro l hl
    induction hl with
    | nil => intro a ha; cases ha
    | cons h _ ih =>
      intro a ha b hb hab hba
      rcases List.mem_cons.mp ha with ea | ha' <;> rcases List.mem_cons.mp hb with eb | hb'
      · rw [ea, eb]
      · subst ea
        rcases h b hb' with h | h
        · exact absurd h hab
        · exact absurd h hba
      · subst eb
        rcases h a ha' with h | h
        · exact absurd h hba
        · exact absurd h hab
      · exact ih a ha' b hb' hab hba
  have p := (sortBy_perm cmp l).trans (hp.trans (sortBy_perm cmp l').symm)
  refine List.Perm.eq_of_pairwise (le := fun a b => ¬ lt b a) (fun a b ha hb hab hba => ?_) (sortBy_sorted w hgt l)
    (sortBy_sorted w hgt l') p
  exact hmem hties a ((sortBy_perm cmp l).mem_iff.mp ha) b (hp.mem_iff.mpr ((sortBy_perm cmp l').mem_iff.mp hb)) hba hab

theorem sorted_unique {lt : α → α → Prop} (w : WeakOrder lt) : ∀ l l' : List α, l.Perm l' →
    l.Pairwise (fun a b => ¬ lt b a) → l'.Pairwise (fun a b => ¬ lt b a) →
    (∀ group : α → Bool, (∀ a b, group a → group b → ¬ lt a b) → l.filter group = l'.filter group) → l = l'
  | [], l', hp, _, _, _ => (List.nil_perm.mp hp).symm
  | a :: l, [], hp, _, _, _ => by cases List.perm_nil.mp hp
  | a :: l, b :: l', hp, h, h', hf => by
    classical
    have hba : ¬ lt b a := by
      rcases List.mem_cons.mp (hp.mem_iff.mpr (List.mem_cons_self (a := b))) with e | hb
      · rw [e]; exact w.irrefl a
      · exact (List.pairwise_cons.mp h).1 b hb
    have hab : ¬ lt a b := by
      rcases List.mem_cons.mp (hp.mem_iff.mp (List.mem_cons_self (a := a))) with e | ha
      · rw [e]; exact w.irrefl b
      · exact (List.pairwise_cons.mp h').1 a ha
    have e : a = b := by
      have := hf (fun x => decide (¬ lt x a ∧ ¬ lt a x)) (fun x y hx hy => by
        simp only [decide_eq_true_eq] at hx hy
        exact w.trans y a x hy.2 hx.1)
      rw [List.filter_cons, if_pos (by simpa using w.irrefl a), List.filter_cons, if_pos (by simpa using ⟨hba, hab⟩)] at this
      exact (List.cons.inj this).1
    subst e
    rw [sorted_unique w l l' (List.perm_cons a |>.mp hp) (List.pairwise_cons.mp h).2 (List.pairwise_cons.mp h').2
      (fun group hg => by
        have := hf group hg
        rw [List.filter_cons, List.filter_cons] at this
        split at this
        · exact (List.cons.inj this).2
        · exact this)]

/-- There is only one way to sort stably. -/
theorem stablySorted_unique {lt : α → α → Prop} (w : WeakOrder lt) {original l l' : List α}
    (h : StablySorted lt original l) (h' : StablySorted lt original l') : l = l' :=
  sorted_unique w l l' (h.1.trans h'.1.symm) h.2.1 h'.2.1 (fun group hg => (h.2.2 group hg).trans (h'.2.2 group hg).symm)

end

end Mvd
