import Verif.Model.Frags

/-! Association lists with distinct keys, and loops over lists. -/

namespace Mvd

section
variable {K V : Type} [DecidableEq K]

/-- The keys. -/
def Map.keys (m : Map K V) : List K := m.map Prod.fst

theorem Map.get_set (m : Map K V) (k k' : K) (v : V) :
    (m.set k v).get k' = if k = k' then some v else m.get k' := by
  induction m with
  | nil => simp [Map.set, Map.get]
  | cons e m ih =>
    obtain ⟨k0, v0⟩ := e
    simp only [Map.set]
    split
    · rename_i h
      subst h
      simp only [Map.get]
      by_cases e : k0 = k' <;> simp [e]
    · rename_i h
      simp only [Map.get]
      split
      · rename_i h2
        subst h2
        rw [if_neg (fun e => h e.symm)]
      · exact ih

omit [DecidableEq K] in
theorem Map.keys_cons (m : Map K V) (e : K × V) : Map.keys (e :: m) = e.1 :: m.keys := rfl

theorem Map.keys_set (m : Map K V) (k : K) (v : V) :
    (m.set k v).keys = if k ∈ m.keys then m.keys else m.keys ++ [k] := by
  induction m with
  | nil => simp [Map.set, Map.keys]
  | cons e m ih =>
    obtain ⟨k0, v0⟩ := e
    simp only [Map.set]
    by_cases h : k0 = k
    · subst h; simp [Map.keys_cons]
    · have h' : ¬ k = k0 := fun e => h e.symm
      rw [if_neg h, Map.keys_cons, Map.keys_cons, ih]
      simp only [List.mem_cons, h', false_or]
      split <;> simp

theorem Map.nodup_set {m : Map K V} (h : m.keys.Nodup) (k : K) (v : V) : (m.set k v).keys.Nodup := by
  rw [Map.keys_set]
  split
  · exact h
  · rename_i hk
    rw [List.nodup_append]
    refine ⟨h, by simp, ?_⟩
    intro a ha b hb
    simp only [List.mem_cons, List.not_mem_nil, or_false] at hb
    subst hb
    intro e
    subst e
    exact hk ha

theorem Map.mem_iff_get {m : Map K V} (h : m.keys.Nodup) {k : K} {v : V} : (k, v) ∈ m ↔ m.get k = some v := by
  induction m with
  | nil => simp [Map.get]
  | cons e m ih =>
    obtain ⟨k0, v0⟩ := e
    simp only [Map.keys, List.map_cons, List.nodup_cons] at h
    simp only [Map.get, List.mem_cons, Prod.mk.injEq]
    by_cases hk : k0 = k
    · subst hk
      simp only [true_and, if_true, Option.some.injEq]
      constructor
      · rintro (rfl | hm)
        · rfl
        · exact absurd (List.mem_map.mpr ⟨_, hm, rfl⟩) h.1
      · exact fun e => .inl e.symm
    · have hk' : ¬ k = k0 := fun e => hk e.symm
      simp only [hk', false_and, false_or, hk, if_false]
      exact ih h.2

theorem Map.get_none_iff {m : Map K V} {k : K} : m.get k = none ↔ k ∉ m.keys := by
  induction m with
  | nil => simp [Map.get, Map.keys]
  | cons e m ih =>
    obtain ⟨k0, v0⟩ := e
    simp only [Map.get, Map.keys, List.map_cons, List.mem_cons, not_or] at ih ⊢
    by_cases hk : k0 = k
    · simp [hk]
    · have hk' : ¬ k = k0 := fun e => hk e.symm
      simp only [hk, if_false, hk', not_false_eq_true, true_and]
      exact ih

/-- Lookup does not depend on the order of the entries. -/
theorem Map.get_perm {m m' : Map K V} (h : m.keys.Nodup) (hp : m'.Perm m) (k : K) : m'.get k = m.get k := by
  have h' : (Map.keys m').Nodup := (List.Perm.map Prod.fst hp).nodup_iff.mpr h
  cases hg : m.get k with
  | some v =>
    exact (Map.mem_iff_get h').mp (hp.mem_iff.mpr ((Map.mem_iff_get h).mpr hg))
  | none =>
    rw [Map.get_none_iff] at hg ⊢
    intro hk
    exact hg ((List.Perm.map Prod.fst hp).mem_iff.mp hk)

end

theorem forR_append {α σ : Type} (f : σ → α → R σ) : ∀ (a b : List α) (s : σ),
    forR f s (a ++ b) = (forR f s a).bind fun s => forR f s b
  | [], b, s => rfl
  | x :: a, b, s => by
    simp only [List.cons_append, forR]
    cases f s x with
    | ok s => simp only [R.bind]; exact forR_append f a b s
    | err e => rfl
    | panic => rfl
    | hang => rfl

/-- A loop whose steps all succeed. -/
theorem forR_ok {α σ : Type} {f : σ → α → R σ} {f' : σ → α → σ} : ∀ (l : List α) (s : σ),
    (∀ s, ∀ a ∈ l, f s a = .ok (f' s a)) → forR f s l = .ok (l.foldl f' s)
  | [], s, _ => rfl
  | a :: l, s, h => by
    simp only [forR, h s a (by simp), R.bind, List.foldl_cons]
    exact forR_ok l _ fun s b hb => h s b (by simp [hb])

/-- A loop one of whose elements always panics, while the others succeed or panic. -/
theorem forR_panic {α σ : Type} {f : σ → α → R σ} : ∀ (l : List α) (s : σ) (a : α), a ∈ l → (∀ s, f s a = .panic) →
    (∀ s, ∀ b ∈ l, (∃ s', f s b = .ok s') ∨ f s b = .panic) → forR f s l = .panic
  | b :: l, s, a, ha, hp, h => by
    simp only [forR]
    rcases h s b (by simp) with ⟨s', e⟩ | e
    · rw [e]
      simp only [R.bind]
      simp only [List.mem_cons] at ha
      rcases ha with rfl | ha
      · rw [hp] at e; cases e
      · exact forR_panic l s' a ha hp fun s c hc => h s c (by simp [hc])
    · rw [e]
      rfl

/-- Inserting a value for every entry of a list with distinct keys. -/
theorem foldl_set_get {K V W : Type} [DecidableEq K] (f : V → W) : ∀ (l : List (K × V)) (m : Map K W),
    (l.map Prod.fst).Nodup → (∀ e ∈ l, e.1 ∉ m.keys) → ∀ k,
    (l.foldl (fun m (e : K × V) => m.set e.1 (f e.2)) m).get k =
      match Map.get l k with
      | some v => some (f v)
      | none => m.get k
  | [], m, _, _, k => rfl
  | (k0, v0) :: l, m, hn, hd, k => by
    simp only [List.map_cons, List.nodup_cons] at hn
    rw [List.foldl_cons, foldl_set_get f l _ hn.2]
    · simp only [Map.get]
      by_cases hk : k0 = k
      · subst hk
        have : Map.get l k0 = none := Map.get_none_iff.mpr hn.1
        rw [this]
        simp [Map.get_set]
      · simp only [if_neg hk]
        cases Map.get l k with
        | some v => rfl
        | none => simp [Map.get_set, hk]
    · intro e he
      rw [Map.keys_set]
      have h1 := hd e (by simp [he])
      have h2 : e.1 ≠ k0 := fun e' => hn.1 (List.mem_map.mpr ⟨e, he, e'⟩)
      split
      · exact h1
      · simp [h1, h2]

end Mvd
