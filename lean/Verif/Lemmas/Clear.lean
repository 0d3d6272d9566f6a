import Verif.Lemmas.Borders
import Verif.Spec.Clear

/-! Phrases around names. -/

namespace Mvd
open Spec

instance (n : List Char) : Decidable (Clear n) :=
  decidable_of_iff ((∀ q ∈ oneNamePhrasesButSuicide, ¬ Occurs q n) ∧
    (∀ p ∈ killerFirstPhrases ++ victimFirstPhrases, ¬ Occurs p.between (n ++ [' '])) ∧
    (∀ e ∈ endPhrases, ¬ Occurs e n) ∧ (¬ suicidePhrase <:+ n ∧ n ≠ chars!"suicides") ∧ (¬ chars!" was" <:+ n) ∧
    (∀ q ∈ oneNamePhrasesButSuicide, ¬ q.tail <+: n) ∧ (∀ w ∈ phraseStarts, ¬ w <+: n) ∧
    n ≠ chars!"stomps" ∧ n ≠ chars!"squishes")
    ⟨fun ⟨a, b, c, d, e, f, g, h⟩ => ⟨a, b, c, d, e, f, g, h⟩, fun ⟨a, b, c, d, e, f, g, h⟩ => ⟨a, b, c, d, e, f, g, h⟩⟩

/-- The phrases with two names. -/
def twoNamePhrases : List TwoNames := killerFirstPhrases ++ victimFirstPhrases

/-- What can follow a first name. -/
def followers : List Str := oneNamePhrasesButSuicide ++ [suicidePhrase] ++ twoNamePhrases.map TwoNames.between

theorem edges_one : edges oneNamePhrasesButSuicide followers (fun c => c.1 == chars!" was") = true := by decide +kernel

theorem edges_two : edges (twoNamePhrases.map TwoNames.between) (twoNamePhrases.map TwoNames.between) (fun c => c.2 == [' ']) = true := by
  decide +kernel

theorem notEarly_one {q b x t : Str} (hx : Clear x) (hq : q ∈ oneNamePhrasesButSuicide) (hb : b ∈ followers) :
    NotEarly q x (b ++ t) := by
  intro i h
  refine Nat.le_of_not_lt fun hi => ?_
  rcases occursAt_left h hi with h | ⟨c, hc, h1, h2⟩
  · exact hx.one q hq h
  · have := edges_spec edges_one hq hb hc h2
    exact hx.was (beq_iff_eq.mp this ▸ h1)

theorem notEarly_two {q : TwoNames} {b x t : Str} (hx : Clear x) (hq : q ∈ twoNamePhrases)
    (hb : b ∈ twoNamePhrases.map TwoNames.between) : NotEarly q.between x (b ++ t) := by
  intro i h
  refine Nat.le_of_not_lt fun hi => ?_
  rcases occursAt_left h hi with ⟨u, v, e⟩ | ⟨c, hc, ⟨u, h1⟩, h2⟩
  · exact hx.two q hq ⟨u, v ++ [' '], by rw [e]; simp⟩
  · have := beq_iff_eq.mp (edges_spec edges_two (List.mem_map_of_mem hq) hb hc h2)
    exact hx.two q hq ⟨u, [], by rw [cuts_append hc, this, ← h1]; simp⟩

/-! ### Around the second name -/

/-- What a clear name does not begin with. -/
def clearStarts : List Str := oneNamePhrasesButSuicide.map List.tail ++ phraseStarts

/-- A phrase does not come about in `b ++ y ++ a`, if `y` is clear. -/
def apart (q b a : Str) : Bool :=
  (find q b).isNone && (find q a).isNone && (cuts q).all fun c =>
    (!c.2.isPrefixOf a || c.2 == [' ']) && (!c.1.isSuffixOf b || (clearStarts.contains c.2 && (List.range c.2.length).all fun j =>
      !(c.2.drop j).isPrefixOf a || c.2.take j == chars!"stomps" || c.2.take j == chars!"squishes"))

theorem clear_notStart {y w : Str} (hy : Clear y) (hw : w ∈ clearStarts) : ¬ w <+: y := by
  rcases List.mem_append.mp hw with h | h
  · obtain ⟨q, hq, rfl⟩ := List.mem_map.mp h
    exact hy.start q hq
  · exact hy.begins w h

theorem apart_spec {q b a y : Str} (hy : Clear y) (hq : ¬ Occurs q y) (hs : ∀ u, q = u ++ [' '] → ¬ u <:+ y)
    (h : apart q b a = true) : ¬ Occurs q (b ++ (y ++ a)) := by
  simp only [apart, Bool.and_eq_true, Option.isNone_iff_eq_none, find_eq_none_iff, List.all_eq_true, Bool.or_eq_true,
    Bool.not_eq_true', List.contains_iff_mem, List.mem_range, beq_iff_eq] at h
  obtain ⟨⟨h1, h2⟩, h3⟩ := h
  intro ho
  rcases occurs_append ho with h | ⟨c, hc, hb, hp⟩ | h
  · exact h1 h
  · obtain ⟨_, h | ⟨hm, hall⟩⟩ := h3 c hc
    · rw [List.isSuffixOf_iff_suffix.mpr hb] at h
      cases h
    · rcases prefix_append hp with h | ⟨w, e⟩
      · exact clear_notStart hy hm h
      · by_cases hw : w = []
        · subst hw
          rw [List.append_nil] at e
          exact clear_notStart hy hm (e ▸ List.prefix_refl _)
        · have hlt : y.length < c.2.length := by
            rw [← e, List.length_append]
            have := List.length_pos_iff.mpr hw
            omega
          have hd := hall y.length hlt
          rw [← e, List.drop_left, List.take_left] at hd
          rcases hd with (h | h) | h
          · rw [← e] at hp
            have : w <+: a := (List.prefix_append_right_inj y).mp hp
            rw [List.isPrefixOf_iff_prefix.mpr this] at h
            cases h
          · exact hy.word.1 h
          · exact hy.word.2 h
  · rcases occurs_append h with h | ⟨c, hc, hy', hp⟩ | h
    · exact hq h
    · rcases (h3 c hc).1 with h | h
      · rw [List.isPrefixOf_iff_prefix.mpr hp] at h
        cases h
      · exact hs c.1 (by rw [cuts_append hc, h]) hy'
    · exact h2 h

theorem apart_one : (oneNamePhrasesButSuicide.all fun q => q.getLast? != some ' ' && twoNamePhrases.all fun p => apart q p.between p.after) = true := by
  decide +kernel

theorem apart_one_spec {q b a y : Str} (hy : Clear y) (hq : q ∈ oneNamePhrasesButSuicide) (hp : ⟨b, a⟩ ∈ twoNamePhrases) :
    ¬ Occurs q (b ++ (y ++ a)) := by
  have h := List.all_eq_true.mp apart_one q hq
  simp only [Bool.and_eq_true, bne_iff_ne, ne_eq, List.all_eq_true] at h
  refine apart_spec hy (hy.one q hq) (fun u e => ?_) (h.2 _ hp)
  rw [e] at h
  simp at h

/-- The end of a phrase comes first after the second name. -/
def lastly (e a : Str) : Bool := (find e a).isNone && (cuts e).all fun c => !c.2.isPrefixOf a

theorem lastly_spec {e a y : Str} (hy : ¬ Occurs e y) (h : lastly e a = true) : ¬ Occurs e (y ++ a) := by
  simp only [lastly, Bool.and_eq_true, Option.isNone_iff_eq_none, find_eq_none_iff, List.all_eq_true, Bool.not_eq_true'] at h
  intro ho
  rcases occurs_append ho with h' | ⟨c, hc, _, hp⟩ | h'
  · exact hy h'
  · have := h.2 c hc
    rw [List.isPrefixOf_iff_prefix.mpr hp] at this
    cases this
  · exact h.1 h'

/-- A phrase with two names does not match a text made from another. -/
def foreign (q p : TwoNames) : Bool :=
  apart q.between p.between p.after ||
    (q.after != [] && lastly q.after p.after && (find q.between p.between.dropLast).isNone)

theorem mem_ends {p : TwoNames} (hp : p ∈ twoNamePhrases) (h : p.after ≠ []) : p.after ∈ endPhrases :=
  List.mem_filter.mpr ⟨List.mem_map_of_mem hp, by simpa using h⟩

theorem clear_between {p : TwoNames} {y : Str} (hy : Clear y) (hp : p ∈ twoNamePhrases) : ¬ Occurs p.between y := by
  rintro ⟨u, v, e⟩
  exact hy.two p hp ⟨u, v ++ [' '], by rw [e]; simp⟩

theorem foreign_spec {q p : TwoNames} {x y : Str} (hq : q ∈ twoNamePhrases) (hp : p ∈ twoNamePhrases) (hx : Clear x) (hy : Clear y)
    (h : foreign q p = true) (x' y' : Str) : ¬ q.Matches (x ++ (p.between ++ (y ++ p.after))) x' y' := by
  rintro ⟨rest, e, hf, hm⟩
  have hne := notEarly_two (t := y ++ p.after) hx hq (List.mem_map_of_mem hp)
  simp only [foreign, Bool.or_eq_true, Bool.and_eq_true, bne_iff_ne, ne_eq, Option.isNone_iff_eq_none, find_eq_none_iff] at h
  rcases h with h | ⟨⟨h1, h2⟩, h3⟩
  · refine apart_spec hy (clear_between hy hq) (fun u e ⟨w, e'⟩ => hy.two q hq ⟨w, [], by rw [e, ← e']; simp⟩) h (hne.occurs ?_)
    rw [e]
    exact ⟨x', rest, rfl⟩
  · rw [if_neg h1] at hm
    obtain ⟨z, hz, _⟩ := hm
    obtain ⟨pre, post, e', hl⟩ := occursAt_right hf.1 (hne _ hf.1)
    have hpost : post = rest := by
      have h1 := congrArg List.length e
      have h2 := congrArg List.length e'
      simp only [List.length_append] at h1 h2
      have h4 := hne _ hf.1
      have h5 : pre.length = x'.length - x.length := hl
      have h6 : rest.length = post.length := by omega
      have h7 : rest <:+ p.between ++ (y ++ p.after) := by
        have ha : rest <:+ x ++ (p.between ++ (y ++ p.after)) := ⟨_, e.symm⟩
        have hb : p.between ++ (y ++ p.after) <:+ x ++ (p.between ++ (y ++ p.after)) := ⟨x, rfl⟩
        refine List.suffix_of_suffix_length_le ha hb ?_
        simp only [List.length_append]
        omega
      have h8 : post <:+ p.between ++ (y ++ p.after) := ⟨_, e'.symm⟩
      exact (List.suffix_of_suffix_length_le h8 h7 (by omega)).eq_of_length (by omega)
    subst hpost
    rcases List.append_eq_append_iff.mp e' with ⟨w, e1, e2⟩ | ⟨w, e1, e2⟩
    · exact lastly_spec (hy.ends _ (mem_ends hq h1)) h2 ⟨w ++ y', z, by rw [e2, hz]; simp⟩
    · by_cases hw : w = []
      · subst hw
        exact lastly_spec (hy.ends _ (mem_ends hq h1)) h2 ⟨y', z, by rw [← hz, e2]; simp⟩
      · refine h3 ⟨pre, w.dropLast, ?_⟩
        rw [e1, List.dropLast_append_of_ne_nil hw]

theorem lastly_self : ∀ p ∈ twoNamePhrases, p.after ≠ [] → (cuts p.after).all (fun c => !c.2.isPrefixOf p.after) = true := by
  decide +kernel

theorem clear_matches {p : TwoNames} {x y : Str} (hp : p ∈ twoNamePhrases) (hx : Clear x) (hy : Clear y) :
    p.Matches (x ++ (p.between ++ (y ++ p.after))) x y := by
  refine ⟨y ++ p.after, by simp, (notEarly_two hx hp (List.mem_map_of_mem hp)).firstAt ⟨⟨[], y ++ p.after, by simp, rfl⟩, fun _ _ => Nat.zero_le _⟩, ?_⟩
  split
  · rename_i h; simp [h]
  · rename_i h
    refine ⟨[], by simp, ⟨y, [], by simp, rfl⟩, fun i hi => Nat.le_of_not_lt fun hlt => ?_⟩
    rcases occursAt_left hi hlt with h' | ⟨c, hc, _, h'⟩
    · exact hy.ends _ (mem_ends hp h) h'
    · have := List.all_eq_true.mp (lastly_self p hp h) c hc
      rw [List.isPrefixOf_iff_prefix.mpr h'] at this
      cases this

/-- Every phrase is foreign to the later ones. -/
def inOrder : List TwoNames → Bool
  | [] => true
  | q :: l => l.all (foreign q) && inOrder l

theorem inOrder_spec : ∀ {l a b : List TwoNames} {p q : TwoNames}, inOrder l = true → l = a ++ p :: b → q ∈ a → foreign q p = true
  | [], a, b, p, q, _, e, _ => by simp at e
  | c :: l, a, b, p, q, h, e, hq => by
    simp only [inOrder, Bool.and_eq_true, List.all_eq_true] at h
    cases a with
    | nil => cases hq
    | cons d a =>
      simp only [List.cons_append, List.cons.injEq] at e
      obtain ⟨rfl, rfl⟩ := e
      rcases List.mem_cons.mp hq with rfl | hq
      · exact h.1 p (by simp)
      · exact inOrder_spec h.2 rfl hq

theorem phrases_inOrder : inOrder twoNamePhrases = true := by decide +kernel

theorem suicide_ends_two : ∀ p ∈ twoNamePhrases, suicidePhrase.isSuffixOf p.between = false ∧
    (∀ c ∈ cuts suicidePhrase, c.1.isSuffixOf p.between = true → c.2 = chars!"suicides") ∧
    (p.after = [] ∨ (suicidePhrase.isSuffixOf p.after = false ∧ p.after.isSuffixOf suicidePhrase = false)) := by decide +kernel

theorem clear_noOneName {p : TwoNames} {x y : Str} (hp : p ∈ twoNamePhrases) (hx : Clear x) (hy : Clear y) :
    NoOneName (x ++ (p.between ++ (y ++ p.after))) := by
  have main : ∀ q ∈ oneNamePhrasesButSuicide, ¬ Occurs q (x ++ (p.between ++ (y ++ p.after))) := by
    intro q hq ho
    have hb : p.between ∈ followers := List.mem_append_right _ (List.mem_map_of_mem hp)
    exact apart_one_spec hy hq hp ((notEarly_one hx hq hb).occurs ho)
  refine ⟨fun q hq => main q (by simp [oneNamePhrasesButSuicide, hq]), fun q hq => main q (by simp [oneNamePhrasesButSuicide, hq]), ?_,
    fun q hq => main q (by simp [oneNamePhrasesButSuicide, hq]), fun q hq => main q (by simp [oneNamePhrasesButSuicide, hq])⟩
  intro hs
  obtain ⟨h1, h2, h3⟩ := suicide_ends_two p hp
  rw [show x ++ (p.between ++ (y ++ p.after)) = (x ++ (p.between ++ y)) ++ p.after from by simp] at hs
  rcases h3 with h3 | ⟨h3, h4⟩
  · rw [h3, List.append_nil, ← List.append_assoc] at hs
    rcases suffix_append hs with hs | ⟨u, e, hu⟩
    · exact hy.suicide.1 hs
    · by_cases hy0 : y = []
      · subst hy0
        rw [List.append_nil] at e
        rw [← e] at hu
        rcases suffix_append hu with hu | ⟨w, e', _⟩
        · rw [List.isSuffixOf_iff_suffix.mpr hu] at h1
          cases h1
        · have : ∀ p ∈ twoNamePhrases, p.between.isSuffixOf suicidePhrase = false := by decide +kernel
          have := this p hp
          rw [List.isSuffixOf_iff_suffix.mpr ⟨w, e'.symm⟩] at this
          cases this
      · have hu0 : u ≠ [] := by
          rintro rfl
          exact hy.suicide.1 (by rw [e]; exact List.suffix_refl _)
        rcases suffix_append hu with hu | ⟨w, e', _⟩
        · have hc := mem_cuts hu0 hy0
          rw [← e] at hc
          exact hy.suicide.2 (h2 _ hc (List.isSuffixOf_iff_suffix.mpr hu))
        · have : ∀ p ∈ twoNamePhrases, (find p.between suicidePhrase).isNone = true := by decide +kernel
          have := this p hp
          rw [Option.isNone_iff_eq_none, find_eq_none_iff] at this
          exact this ⟨w, y, by rw [e, e']⟩
  · rcases suffix_append hs with hs | ⟨u, e, _⟩
    · rw [List.isSuffixOf_iff_suffix.mpr hs] at h3
      cases h3
    · rw [List.isSuffixOf_iff_suffix.mpr ⟨u, e.symm⟩] at h4
      cases h4

/-! ### Clear names are understood -/

theorem followers_one {p : Str} (hp : p ∈ oneNamePhrasesButSuicide) : p ∈ followers := by
  unfold followers
  simp [hp]

theorem clear_one {x p : Str} (hx : Clear x) (hp : p ∈ followers) {L : List Str} (hL : ∀ q ∈ L, q ∈ oneNamePhrasesButSuicide) :
    ∀ q ∈ L, NotEarly q x p := by
  intro q hq
  have := notEarly_one (t := []) hx (hL q hq) hp
  rwa [List.append_nil] at this

theorem clear_suicide {x p : Str} (h : suicidePhrase.isSuffixOf p = false ∧ p.isSuffixOf suicidePhrase = false) :
    ¬ suicidePhrase <:+ x ++ p := by
  intro hs
  rcases suffix_append hs with hs | ⟨u, e, _⟩
  · rw [List.isSuffixOf_iff_suffix.mpr hs] at h
    cases h.1
  · rw [List.isSuffixOf_iff_suffix.mpr ⟨u, e.symm⟩] at h
    cases h.2

theorem clear_says_one {x : Str} (hx : Clear x) :
    (∀ p ∈ deathPhrases, Classifies (x ++ p) (.death x)) ∧ (∀ p ∈ weaponPhrases, Classifies (x ++ p) (.suicideByWeapon x)) ∧
    Classifies (x ++ suicidePhrase) (.suicide x) ∧ (∀ p ∈ teamkillPhrases, Classifies (x ++ p) (.teamkill x)) ∧
    ∀ p ∈ teamkillByUnknownPhrases, Classifies (x ++ p) (.teamkillByUnknown x) := by
  have htake : ∀ p : Str, (x ++ p).take x.length = x := by simp
  have m1 : ∀ q ∈ deathPhrases, q ∈ oneNamePhrasesButSuicide := fun q hq => by simp [oneNamePhrasesButSuicide, hq]
  have m2 : ∀ q ∈ weaponPhrases, q ∈ oneNamePhrasesButSuicide := fun q hq => by simp [oneNamePhrasesButSuicide, hq]
  have m3 : ∀ q ∈ teamkillPhrases, q ∈ oneNamePhrasesButSuicide := fun q hq => by simp [oneNamePhrasesButSuicide, hq]
  have m4 : ∀ q ∈ teamkillByUnknownPhrases, q ∈ oneNamePhrasesButSuicide := fun q hq => by simp [oneNamePhrasesButSuicide, hq]
  refine ⟨fun p hp => ?_, fun p hp => ?_, ?_, fun p hp => ?_, fun p hp => ?_⟩
  · have hall : ∀ p ∈ deathPhrases, findAny deathPhrases p = some 0 := by decide +kernel
    have hf := followers_one (m1 p hp)
    conv => rhs; rw [← htake p]
    exact .death (notEarly_firstPhrase (clear_one hx hf m1) (hall p hp))
  · have hall : ∀ p ∈ weaponPhrases, findAny deathPhrases p = none ∧ findAny weaponPhrases p = some 0 := by decide +kernel
    obtain ⟨a, b⟩ := hall p hp
    have hf := followers_one (m2 p hp)
    conv => rhs; rw [← htake p]
    exact .suicideByWeapon (notEarly_noPhrase (clear_one hx hf m1) a) (notEarly_firstPhrase (clear_one hx hf m2) b)
  · have hall : findAny deathPhrases suicidePhrase = none ∧ findAny weaponPhrases suicidePhrase = none := by decide +kernel
    have hf : suicidePhrase ∈ followers := by simp [followers]
    exact .suicide (n := 0) (notEarly_noPhrase (clear_one hx hf m1) hall.1) (notEarly_noPhrase (clear_one hx hf m2) hall.2)
      (by simp) hx.suicide.1
  · have hall : ∀ p ∈ teamkillPhrases, findAny deathPhrases p = none ∧ findAny weaponPhrases p = none ∧
        (suicidePhrase.isSuffixOf p = false ∧ p.isSuffixOf suicidePhrase = false) ∧ findAny teamkillPhrases p = some 0 := by
      decide +kernel
    obtain ⟨a, b, c, d⟩ := hall p hp
    have hf := followers_one (m3 p hp)
    conv => rhs; rw [← htake p]
    exact .teamkill (notEarly_noPhrase (clear_one hx hf m1) a) (notEarly_noPhrase (clear_one hx hf m2) b) (clear_suicide c)
      (notEarly_firstPhrase (clear_one hx hf m3) d)
  · have hall : ∀ p ∈ teamkillByUnknownPhrases, findAny deathPhrases p = none ∧ findAny weaponPhrases p = none ∧
        (suicidePhrase.isSuffixOf p = false ∧ p.isSuffixOf suicidePhrase = false) ∧ findAny teamkillPhrases p = none ∧
        findAny teamkillByUnknownPhrases p = some 0 := by decide +kernel
    obtain ⟨a, b, c, d, e⟩ := hall p hp
    have hf := followers_one (m4 p hp)
    conv => rhs; rw [← htake p]
    exact .teamkillByUnknown (notEarly_noPhrase (clear_one hx hf m1) a) (notEarly_noPhrase (clear_one hx hf m2) b) (clear_suicide c)
      (notEarly_noPhrase (clear_one hx hf m3) d) (notEarly_firstPhrase (clear_one hx hf m4) e)

theorem clear_says_two {x y : Str} (hx : Clear x) (hy : Clear y) :
    (∀ p ∈ killerFirstPhrases, Classifies (x ++ p.between ++ y ++ p.after) (.frag x y)) ∧
    ∀ p ∈ victimFirstPhrases, Classifies (x ++ p.between ++ y ++ p.after) (.frag y x) := by
  have assoc : ∀ p : TwoNames, x ++ p.between ++ y ++ p.after = x ++ (p.between ++ (y ++ p.after)) := by simp
  constructor
  · intro p hp
    obtain ⟨a, b, e⟩ := List.append_of_mem hp
    have ht : twoNamePhrases = a ++ p :: (b ++ victimFirstPhrases) := by
      unfold twoNamePhrases
      rw [e]
      simp
    have hp' : p ∈ twoNamePhrases := by rw [ht]; simp
    rw [assoc]
    refine .fragKillerFirst (clear_noOneName hp' hx hy) ⟨a, b, e, fun q hq => ?_, clear_matches hp' hx hy⟩
    exact foreign_spec (by rw [ht]; simp [hq]) hp' hx hy (inOrder_spec phrases_inOrder ht hq)
  · intro p hp
    obtain ⟨a, b, e⟩ := List.append_of_mem hp
    have ht : twoNamePhrases = (killerFirstPhrases ++ a) ++ p :: b := by
      unfold twoNamePhrases
      rw [e]
      simp
    have hp' : p ∈ twoNamePhrases := by rw [ht]; simp
    have hf : ∀ q ∈ killerFirstPhrases ++ a, ∀ x' y', ¬ q.Matches (x ++ (p.between ++ (y ++ p.after))) x' y' := fun q hq =>
      foreign_spec (by rw [ht]; exact List.mem_append_left _ hq) hp' hx hy (inOrder_spec phrases_inOrder ht hq)
    rw [assoc]
    exact .fragVictimFirst (clear_noOneName hp' hx hy) (fun q hq => hf q (by simp [hq]))
      ⟨a, b, e, fun q hq => hf q (by simp [hq]), clear_matches hp' hx hy⟩

theorem clear_says {o : Obituary} {text : Str} (hw : Wording o text) (h : ∀ n ∈ o.names, Clear n) : Classifies text o := by
  cases hw with
  | death hp => exact (clear_says_one (h _ (by simp [Obituary.names]))).1 _ hp
  | suicide => exact (clear_says_one (h _ (by simp [Obituary.names]))).2.2.1
  | suicideByWeapon hp => exact (clear_says_one (h _ (by simp [Obituary.names]))).2.1 _ hp
  | teamkill hp => exact (clear_says_one (h _ (by simp [Obituary.names]))).2.2.2.1 _ hp
  | teamkillByUnknown hp => exact (clear_says_one (h _ (by simp [Obituary.names]))).2.2.2.2 _ hp
  | killerFirst hp =>
    exact (clear_says_two (h _ (by simp [Obituary.names])) (h _ (by simp [Obituary.names]))).1 _ hp
  | victimFirst hp =>
    exact (clear_says_two (h _ (by simp [Obituary.names])) (h _ (by simp [Obituary.names]))).2 _ hp

end Mvd
