import Verif.Lemmas.Events

/-! Texts that follow a name inside which no phrase could begin. -/

namespace Mvd
open Spec

/-! ### Deciding whether a phrase could begin inside a name -/

/-- Decides `BeginsInside`. -/
def beginsInside (q : Str) : Str → Bool
  | [] => false
  | c :: x => q.isPrefixOf (c :: x) || (c :: x).isPrefixOf q || beginsInside q x

theorem prefix_comparable {q x t v : Str} (h : x ++ t = q ++ v) : q <+: x ∨ x <+: q := by
  rcases List.append_eq_append_iff.mp h with ⟨a, rfl, _⟩ | ⟨a, rfl, _⟩
  · exact .inr ⟨a, rfl⟩
  · exact .inl ⟨a, rfl⟩

theorem beginsInside_iff {q : Str} : ∀ {x : Str}, beginsInside q x = true ↔ BeginsInside q x
  | [] => by simp [beginsInside, BeginsInside]
  | c :: x => by
    simp only [beginsInside, Bool.or_eq_true, List.isPrefixOf_iff_prefix, beginsInside_iff (x := x)]
    constructor
    · rintro ((⟨v, h⟩ | ⟨t, h⟩) | ⟨t, u, v, h, hu⟩)
      · exact ⟨[], [], v, by rw [← h]; simp, by simp⟩
      · exact ⟨t, [], [], by rw [h]; simp, by simp⟩
      · exact ⟨t, c :: u, v, by simp [h], by simpa using hu⟩
    · rintro ⟨t, u, v, h, hu⟩
      cases u with
      | nil => exact .inl (prefix_comparable (by simpa using h))
      | cons d u =>
        simp only [List.cons_append, List.cons.injEq] at h
        exact .inr ⟨t, u, v, h.2, by simpa using hu⟩

instance (q x : Str) : Decidable (BeginsInside q x) := decidable_of_iff _ beginsInside_iff

instance (x : Str) : Decidable (FirstName x) := by unfold FirstName; infer_instance

instance (n hay : Str) : Decidable (Occurs n hay) := decidable_of_iff _ find_isSome_iff

instance (x : Str) : Decidable (FlagName x) := by unfold FlagName; infer_instance

instance (y : Str) : Decidable (SecondName y) :=
  decidable_of_iff ((∀ q ∈ obituaryPhrases ++ endPhrases, ¬ BeginsInside q y) ∧ (∀ q ∈ obituaryPhrases, ¬ q.tail <+: y) ∧
    (∀ w ∈ oneWordPhrases, ¬ w <+: y) ∧ ¬ chars!"his teammate" <+: y ∧ ¬ chars!"her teammate" <+: y)
    ⟨fun ⟨a, b, c, d⟩ => ⟨a, b, c, d⟩, fun ⟨a, b, c, d⟩ => ⟨a, b, c, d⟩⟩

/-- A phrase that begins with a space cannot begin inside a name without. -/
theorem not_beginsInside {q x : Str} {c : Char} (hq : q.head? = some c) (hx : c ∉ x) : ¬ BeginsInside q x := by
  rintro ⟨t, u, v, h, hu⟩
  cases q with
  | nil => simp at hq
  | cons d q =>
    simp only [List.head?_cons, Option.some.injEq] at hq
    subst hq
    rw [List.append_assoc] at h
    rcases List.append_eq_append_iff.mp h with ⟨a, rfl, _⟩ | ⟨a, rfl, e⟩
    · simp at hu
    · cases a with
      | nil => simp at hu
      | cons b a =>
        simp only [List.cons_append, List.cons.injEq] at e
        exact hx (by simp [e.1])

/-! ### Phrases after a name -/

theorem occursAt_after {q x t : Str} {i : Nat} (hx : ¬ BeginsInside q x) :
    OccursAt q (x ++ t) i ↔ ∃ j, i = x.length + j ∧ OccursAt q t j := by
  constructor
  · rintro ⟨u, v, e, rfl⟩
    have hu : x.length ≤ u.length := by
      by_contra hlt
      exact hx ⟨t, u, v, e, by omega⟩
    rw [List.append_assoc] at e
    rcases List.append_eq_append_iff.mp e with ⟨a, rfl, e'⟩ | ⟨a, rfl, e'⟩
    · exact ⟨a.length, by simp, a, v, by simp [e'], rfl⟩
    · have : a = [] := by
        simpa using hu
      subst this
      exact ⟨0, by simp, [], v, by simpa using e'.symm, rfl⟩
  · rintro ⟨j, rfl, u, v, rfl, rfl⟩
    exact ⟨x ++ u, v, by simp, by simp⟩

theorem occurs_after {q x t : Str} (hx : ¬ BeginsInside q x) : Occurs q (x ++ t) ↔ Occurs q t := by
  rw [occurs_iff, occurs_iff]
  constructor
  · rintro ⟨i, h⟩
    obtain ⟨j, _, h⟩ := (occursAt_after hx).mp h
    exact ⟨j, h⟩
  · rintro ⟨j, h⟩
    exact ⟨_, (occursAt_after hx).mpr ⟨j, rfl, h⟩⟩

theorem firstAt_after {q x t : Str} {j : Nat} (hx : ¬ BeginsInside q x) (h : FirstAt q t j) :
    FirstAt q (x ++ t) (x.length + j) := by
  refine ⟨(occursAt_after hx).mpr ⟨j, rfl, h.1⟩, fun i hi => ?_⟩
  obtain ⟨k, rfl, hk⟩ := (occursAt_after hx).mp hi
  have := h.2 k hk
  omega

theorem noPhrase_after {L : List Str} {x t : Str} (hx : ∀ q ∈ L, ¬ BeginsInside q x) (h : findAny L t = none) :
    NoPhrase L (x ++ t) :=
  fun q hq ho => findAny_none_iff.mp h q hq ((occurs_after (hx q hq)).mp ho)

theorem firstPhrase_after {L : List Str} {x t : Str} (hx : ∀ q ∈ L, ¬ BeginsInside q x) (h : findAny L t = some 0) :
    FirstPhrase L (x ++ t) x.length := by
  obtain ⟨b, p, a, rfl, hn, hf⟩ := findAny_some_iff.mp h
  exact ⟨b, p, a, rfl, fun q hq ho => hn q hq ((occurs_after (hx q (by simp [hq]))).mp ho),
    by simpa using firstAt_after (hx p (by simp)) hf⟩

/-! ### Phrases around a second name -/

/-- What the second name must not begin with. -/
def secondBanned : List Str := obituaryPhrases.map List.tail ++ [chars!"his teammate", chars!"her teammate"]

/-- A phrase does not begin in `b`, whatever second name follows, and then `a`. -/
def startsNot (q a : Str) : Str → Bool
  | [] => true
  | c :: b => !q.isPrefixOf (c :: b) && (!(c :: b).isPrefixOf q || (let r := q.drop (b.length + 1)
      secondBanned.contains r && (List.range r.length).all fun j =>
        oneWordPhrases.any (fun w => w.isPrefixOf (r.take j)) || !(r.drop j).isPrefixOf a)) && startsNot q a b

/-- A phrase does not occur in `b ++ y ++ a`. -/
def absent (q b a : Str) : Bool := startsNot q a b && (find q a).isNone

theorem startsNot_spec {q a y : Str} (hy : SecondName y) : ∀ {b : Str}, startsNot q a b = true →
    ∀ u v, b ++ (y ++ a) = u ++ (q ++ v) → b.length ≤ u.length
  | [], _, u, v, _ => by simp
  | c :: b, h, u, v, e => by
    simp only [startsNot, Bool.and_eq_true] at h
    obtain ⟨⟨h1, h2⟩, h3⟩ := h
    cases u with
    | cons d u =>
      simp only [List.cons_append, List.cons.injEq] at e
      have := startsNot_spec hy h3 u v e.2
      simpa using this
    | nil =>
      exfalso
      rw [List.nil_append] at e
      rcases List.append_eq_append_iff.mp e with ⟨r, hr, e'⟩ | ⟨r, hr, e'⟩
      · -- the phrase extends beyond `c :: b`
        have hpre : (c :: b).isPrefixOf q = true := List.isPrefixOf_iff_prefix.mpr ⟨r, hr.symm⟩
        have hd : q.drop (b.length + 1) = r := by rw [hr]; simp
        rw [hpre, hd] at h2
        simp only [Bool.not_true, Bool.false_or, Bool.and_eq_true, List.contains_iff_mem, List.all_eq_true,
          List.mem_range, Bool.or_eq_true, List.any_eq_true, Bool.not_eq_true'] at h2
        obtain ⟨hb, hall⟩ := h2
        rcases List.append_eq_append_iff.mp e' with ⟨r', hr', e''⟩ | ⟨z, hz, _⟩
        · -- the phrase extends beyond the name
          by_cases hr0 : r' = []
          · subst hr0
            simp only [List.append_nil] at hr'
            subst hr'
            rcases List.mem_append.mp hb with hb | hb
            · obtain ⟨q', hq', e⟩ := List.mem_map.mp hb
              exact hy.phrase q' hq' (e ▸ List.prefix_refl _)
            · simp only [List.mem_cons, List.not_mem_nil, or_false] at hb
              rcases hb with hb | hb
              · exact hy.teammate.1 (hb ▸ List.prefix_refl _)
              · exact hy.teammate.2 (hb ▸ List.prefix_refl _)
          · have hlt : y.length < r.length := by
              rw [hr']
              have := List.length_pos_iff.mpr hr0
              simp; omega
            rcases hall y.length hlt with ⟨w, hw, hp⟩ | hn
            · rw [hr', List.take_left] at hp
              exact hy.word w hw (List.isPrefixOf_iff_prefix.mp hp)
            · rw [hr', List.drop_left] at hn
              have : r'.isPrefixOf a = true := List.isPrefixOf_iff_prefix.mpr ⟨v, e''.symm⟩
              rw [this] at hn
              cases hn
        · rcases List.mem_append.mp hb with hb | hb
          · obtain ⟨q', hq', e⟩ := List.mem_map.mp hb
            exact hy.phrase q' hq' ⟨z, by rw [e, hz]⟩
          · simp only [List.mem_cons, List.not_mem_nil, or_false] at hb
            rcases hb with hb | hb
            · exact hy.teammate.1 ⟨z, by rw [hz, hb]⟩
            · exact hy.teammate.2 ⟨z, by rw [hz, hb]⟩
      · -- the phrase ends inside `c :: b`
        have : q.isPrefixOf (c :: b) = true := List.isPrefixOf_iff_prefix.mpr ⟨r, hr.symm⟩
        rw [this] at h1
        cases h1

theorem absent_spec {q b a y : Str} (hq : q ∈ obituaryPhrases) (hy : SecondName y) (h : absent q b a = true) :
    ¬ Occurs q (b ++ y ++ a) := by
  simp only [absent, Bool.and_eq_true, Option.isNone_iff_eq_none] at h
  rintro ⟨u, v, e⟩
  rw [List.append_assoc, List.append_assoc] at e
  have hl := startsNot_spec hy h.1 u v e
  rcases List.append_eq_append_iff.mp e with ⟨w, rfl, e'⟩ | ⟨w, rfl, e'⟩
  · exact find_eq_none_iff.mp h.2 ((occurs_after (hy.inside q (by simp [hq]))).mp ⟨w, v, by rw [e']; simp⟩)
  · have hw : w = [] := by
      simpa using hl
    subst hw
    exact find_eq_none_iff.mp h.2 ((occurs_after (hy.inside q (by simp [hq]))).mp ⟨[], v, by simpa using e'.symm⟩)

/-- A phrase of two names does not match a text made from another. -/
def unmatched (q p : TwoNames) : Bool :=
  absent q.between p.between p.after ||
    (q.between == p.between && q.after != [] && (find q.after p.after).isNone)

theorem firstAt_between {p : TwoNames} {x y : Str} (hx : ¬ BeginsInside p.between x) :
    FirstAt p.between (x ++ (p.between ++ y ++ p.after)) x.length := by
  have : FirstAt p.between (p.between ++ y ++ p.after) 0 := ⟨⟨[], y ++ p.after, by simp, rfl⟩, fun _ _ => Nat.zero_le _⟩
  simpa using firstAt_after hx this

theorem mem_obituary_between {q : TwoNames} (hq : q ∈ killerFirstPhrases ++ victimFirstPhrases) :
    q.between ∈ obituaryPhrases := List.mem_append_right _ (List.mem_map_of_mem hq)

theorem unmatched_spec {q p : TwoNames} {x y : Str} (hq : q ∈ killerFirstPhrases ++ victimFirstPhrases)
    (hx : FirstName x) (hy : SecondName y) (h : unmatched q p = true) (x' y' : Str) :
    ¬ q.Matches (x ++ (p.between ++ y ++ p.after)) x' y' := by
  have hqx := hx _ (mem_obituary_between hq)
  rintro ⟨rest, e, hf, hm⟩
  simp only [unmatched, Bool.or_eq_true, Bool.and_eq_true, beq_iff_eq, bne_iff_ne, ne_eq, Option.isNone_iff_eq_none] at h
  rcases h with h | ⟨⟨hb, hne⟩, ha⟩
  · refine absent_spec (mem_obituary_between hq) hy h ((occurs_after hqx).mp ?_)
    rw [e]
    exact ⟨x', rest, rfl⟩
  · rw [if_neg hne] at hm
    obtain ⟨z, hz, _⟩ := hm
    rw [hb] at hf hqx e
    have hl : x'.length = x.length := hf.unique (firstAt_between hqx)
    rw [List.append_assoc x', List.append_assoc p.between] at e
    obtain ⟨_, e⟩ := List.append_inj e hl.symm
    have e := List.append_cancel_left e
    have hend : q.after ∈ endPhrases := List.mem_filter.mpr ⟨List.mem_map_of_mem hq, by simpa using hne⟩
    exact find_eq_none_iff.mp ha ((occurs_after (hy.inside q.after (by simp [hend]))).mp ⟨y', z, by rw [e, hz]⟩)

theorem matches_self {p : TwoNames} {x y : Str} (hp : p ∈ killerFirstPhrases ++ victimFirstPhrases) (hx : FirstName x)
    (hy : SecondName y) : p.Matches (x ++ (p.between ++ y ++ p.after)) x y := by
  refine ⟨y ++ p.after, by simp, firstAt_between (hx _ (mem_obituary_between hp)), ?_⟩
  split
  · rename_i h; simp [h]
  · rename_i h
    refine ⟨[], by simp, ?_⟩
    have hend : p.after ∈ endPhrases := List.mem_filter.mpr ⟨List.mem_map_of_mem hp, by simpa using h⟩
    have : FirstAt p.after p.after 0 := ⟨⟨[], [], by simp, rfl⟩, fun _ _ => Nat.zero_le _⟩
    simpa using firstAt_after (hy.inside p.after (by simp [hend])) this

end Mvd
