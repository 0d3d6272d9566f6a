import Verif.Lemmas.Clear
import Verif.Props.Names
import Verif.Spec.Match

/-! C111: exactly which names are always understood. -/

namespace Mvd
open Spec

/-! ### Other names are not -/

theorem says_death {text x : Str} (h : Classifies text (.death x)) : ∃ i, FirstPhrase deathPhrases text i ∧ text.take i = x := by
  cases h
  exact ⟨_, ‹_›, rfl⟩

theorem says_weapon {text x : Str} (h : Classifies text (.suicideByWeapon x)) : ∃ i, FirstPhrase weaponPhrases text i ∧ text.take i = x := by
  cases h
  exact ⟨_, ‹_›, rfl⟩

theorem says_suicide {text x : Str} (h : Classifies text (.suicide x)) : ¬ suicidePhrase <:+ x := by
  cases h
  assumption

theorem says_teamkill {text x : Str} (h : Classifies text (.teamkill x)) :
    NoPhrase deathPhrases text ∧ ∃ i, FirstPhrase teamkillPhrases text i ∧ text.take i = x := by
  cases h
  exact ⟨‹_›, _, ‹_›, rfl⟩

theorem says_unknown {text x : Str} (h : Classifies text (.teamkillByUnknown x)) :
    ∃ i, FirstPhrase teamkillByUnknownPhrases text i ∧ text.take i = x := by
  cases h
  exact ⟨_, ‹_›, rfl⟩

theorem says_frag {text n : Str} (h : Classifies text (.frag n n)) :
    NoOneName text ∧ ∃ p, FirstMatch twoNamePhrases text n n p := by
  cases h with
  | fragKillerFirst h1 h =>
    obtain ⟨b, a, e, hn, hm⟩ := h
    exact ⟨h1, _, b, a ++ victimFirstPhrases, by simp [twoNamePhrases, e], hn, hm⟩
  | fragVictimFirst h1 h2 h =>
    obtain ⟨b, a, e, hn, hm⟩ := h
    refine ⟨h1, _, killerFirstPhrases ++ b, a, by simp [twoNamePhrases, e], fun q hq => ?_, hm⟩
    rcases List.mem_append.mp hq with hq | hq
    · exact h2 q hq
    · exact hn q hq

/-- The last phrase of a class is found only if no phrase of the class is in the name. -/
theorem noPhrase_of_last {L : List Str} {p n : Str} (hp : p ≠ []) (hu : ∀ q ∈ L, ¬ q <+: p)
    (h : ∃ i, FirstPhrase (L ++ [p]) (n ++ p) i ∧ (n ++ p).take i = n) : ∀ q ∈ L ++ [p], ¬ Occurs q n := by
  obtain ⟨i, ⟨b, q', a, e, hn, hf⟩, ht⟩ := h
  have hpos := List.length_pos_iff.mpr hp
  have hi : i = n.length := by
    have := congrArg List.length ht
    simp at this
    omega
  subst hi
  obtain ⟨pre, post, e', hl⟩ := hf.1
  rw [List.append_assoc] at e'
  obtain ⟨_, e'⟩ := List.append_inj e' hl.symm
  have hpre : q' <+: p := ⟨post, e'.symm⟩
  have hb : b = L ∧ q' = p := by
    rcases List.append_eq_append_iff.mp e with ⟨c, h1, h2⟩ | ⟨c, h1, h2⟩
    · cases c with
      | nil => simp at h1 h2; exact ⟨h1, h2.1.symm⟩
      | cons d c => simp at h2
    · cases c with
      | nil => simp at h1 h2; exact ⟨h1.symm, h2.1⟩
      | cons d c =>
        simp only [List.cons_append, List.cons.injEq] at h2
        exact absurd hpre (hu q' (by rw [h1, h2.1]; simp))
  obtain ⟨rfl, rfl⟩ := hb
  intro q hq ⟨u, v, ho⟩
  rcases List.mem_append.mp hq with hq | hq
  · exact hn q hq ⟨u, v ++ q', by rw [ho]; simp⟩
  · simp only [List.mem_singleton] at hq
    subst hq
    have := hf.2 u.length ⟨u, v ++ q, by rw [ho]; simp, rfl⟩
    have := congrArg List.length ho
    simp at this
    omega

theorem matches_of_occurs {q : TwoNames} {text u v : Str} (e : text = u ++ q.between ++ v) (h : q.after = [] ∨ Occurs q.after v) :
    ∃ x y, q.Matches text x y := by
  have first : ∀ {w s : Str}, Occurs w s → ∃ i, FirstAt w s i := by
    intro w s ho
    cases hf : find w s with
    | none => exact absurd ho (find_eq_none_iff.mp hf)
    | some i => exact ⟨i, find_eq_some_iff.mp hf⟩
  obtain ⟨i, hi⟩ := first ⟨u, v, e⟩
  obtain ⟨pre, post, e', rfl⟩ := hi.1
  have hle := hi.2 u.length ⟨u, v, e, rfl⟩
  refine ⟨pre, ?_⟩
  by_cases ha : q.after = []
  · exact ⟨post, post, e', hi, by rw [if_pos ha]⟩
  · have ho : Occurs q.after post := by
      obtain ⟨a, b, hv⟩ := h.resolve_left ha
      have hpost : v <:+ post := by
        have h1 : v <:+ text := ⟨_, e.symm⟩
        have h2 : post <:+ text := ⟨_, e'.symm⟩
        refine List.suffix_of_suffix_length_le h1 h2 ?_
        have := congrArg List.length (e.symm.trans e')
        simp at this
        omega
      obtain ⟨c, rfl⟩ := hpost
      exact ⟨c ++ a, b, by rw [hv]; simp⟩
    obtain ⟨j, hj⟩ := first ho
    obtain ⟨y, z, e2, rfl⟩ := hj.1
    exact ⟨y, post, e', hi, by rw [if_neg ha]; exact ⟨z, e2, hj⟩⟩

theorem betweens_apart : ∀ p ∈ twoNamePhrases, ∀ q ∈ twoNamePhrases, q.between.isPrefixOf p.between = true →
    q.between = p.between ∧ (q.after.isPrefixOf p.after = true → q.after = [] ∨ q.after = p.after) ∧ (q.after = [] → p.after = []) := by
  decide +kernel

theorem twoNamePhrases_shape : ∀ p ∈ twoNamePhrases, 1 < p.between.length ∧ p.between = ' ' :: p.between.tail := by decide +kernel

/-- If a message with the same name twice is understood, then by the phrase it was written with. -/
theorem by_own_phrase {p : TwoNames} {n : Str} (hp : p ∈ twoNamePhrases)
    (h : Classifies (n ++ p.between ++ n ++ p.after) (.frag n n)) :
    NoOneName (n ++ p.between ++ n ++ p.after) ∧ FirstMatch twoNamePhrases (n ++ p.between ++ n ++ p.after) n n p := by
  obtain ⟨h1, q, b, a, e, hn, hm⟩ := says_frag h
  have hq : q ∈ twoNamePhrases := by rw [e]; simp
  obtain ⟨rest, et, hf, hr⟩ := id hm
  have et' : p.between ++ (n ++ p.after) = q.between ++ rest := by simpa using et
  have cmp := betweens_apart p hp q hq
  have cmp' := betweens_apart q hq p hp
  have hb : q.between = p.between := by
    rcases prefix_comparable et' with hh | hh
    · exact (cmp (List.isPrefixOf_iff_prefix.mpr hh)).1
    · exact (cmp' (List.isPrefixOf_iff_prefix.mpr hh)).1.symm
  obtain ⟨_, c1, c2⟩ := cmp (by rw [hb]; exact List.isPrefixOf_iff_prefix.mpr (List.prefix_refl _))
  rw [hb] at et'
  have er := List.append_cancel_left et'
  have ha : q.after = p.after := by
    by_cases hqa : q.after = []
    · rw [hqa, c2 hqa]
    · rw [if_neg hqa] at hr
      obtain ⟨z, hz, _⟩ := hr
      rw [← er, List.append_assoc] at hz
      have := List.append_cancel_left hz
      exact (c1 (List.isPrefixOf_iff_prefix.mpr ⟨z, this.symm⟩)).resolve_left hqa
  have hqp : q = p := by
    cases q; cases p
    simp at hb ha
    simp [hb, ha]
  subst hqp
  exact ⟨h1, b, a, e, hn, hm⟩

theorem takeWhile_mem {q p : TwoNames} {a : List TwoNames} :
    ∀ {b : List TwoNames}, q ∈ (b ++ p :: a).takeWhile (fun r => r != p) → q ∈ b
  | [], h => by simp at h
  | c :: b, h => by
    simp only [List.cons_append, List.takeWhile_cons] at h
    split at h
    · rcases List.mem_cons.mp h with h | h
      · exact h ▸ List.mem_cons_self
      · exact List.mem_cons_of_mem _ (takeWhile_mem h)
    · simp at h

/-- Phrases that are tried before do not match. -/
theorem earlier_not {p q : TwoNames} {text n : Str} (hq : q ∈ twoNamePhrases.takeWhile (fun r => r != p))
    (hm : FirstMatch twoNamePhrases text n n p) (x y : Str) : ¬ q.Matches text x y := by
  obtain ⟨b, a, e, hn, _⟩ := hm
  rw [e] at hq
  exact hn q (takeWhile_mem hq) x y

theorem one_shape : ∀ q ∈ oneNamePhrasesButSuicide, q = ' ' :: q.tail := by decide +kernel

/-- A phrase whose rest begins the second name is in the message. -/
theorem occurs_second {q b n c x : Str} (hq : q = ' ' :: q.tail) (h : q.tail <+: n) (hb : b = b.dropLast ++ [' ']) :
    ∃ u v, x ++ b ++ n ++ c = u ++ q ++ (v ++ c) := by
  obtain ⟨v, rfl⟩ := h
  refine ⟨x ++ b.dropLast, v, ?_⟩
  rw [hb, hq]
  simp

theorem clear_of_understood {n : Str} (h : ∀ o text, Wording o text → (∀ m ∈ o.names, m = n) → Classifies text o) : Clear n := by
  have one : ∀ q ∈ oneNamePhrasesButSuicide, ¬ Occurs q n := by
    intro q hq
    unfold oneNamePhrasesButSuicide at hq
    rcases List.mem_append.mp hq with hq | hq
    · rcases List.mem_append.mp hq with hq | hq
      · rcases List.mem_append.mp hq with hq | hq
        · exact noPhrase_of_last (L := deathPhrases.dropLast) (p := chars!" was squished") (by decide) (by decide +kernel)
            (says_death (h _ _ (.death (by decide +kernel)) (by simp [Obituary.names]))) q hq
        · exact noPhrase_of_last (L := weaponPhrases.dropLast) (p := chars!" heats up the water") (by decide) (by decide +kernel)
            (says_weapon (h _ _ (.suicideByWeapon (by decide +kernel)) (by simp [Obituary.names]))) q hq
      · exact noPhrase_of_last (L := teamkillPhrases.dropLast) (p := chars!" loses another friend") (by decide) (by decide +kernel)
          (says_teamkill (h _ _ (.teamkill (by decide +kernel)) (by simp [Obituary.names]))).2 q hq
    · exact noPhrase_of_last (L := teamkillByUnknownPhrases.dropLast) (p := chars!" was jumped by her teammate") (by decide)
        (by decide +kernel) (says_unknown (h _ _ (.teamkillByUnknown (by decide +kernel)) (by simp [Obituary.names]))) q hq
  have key : ∀ p ∈ twoNamePhrases, NoOneName (n ++ p.between ++ n ++ p.after) ∧
      FirstMatch twoNamePhrases (n ++ p.between ++ n ++ p.after) n n p := by
    intro p hp
    refine by_own_phrase hp ?_
    rcases List.mem_append.mp hp with hp | hp
    · exact h _ _ (.killerFirst hp) (by simp [Obituary.names])
    · exact h _ _ (.victimFirst hp) (by simp [Obituary.names])
  have early : ∀ q p : TwoNames, q ∈ twoNamePhrases.takeWhile (fun r => r != p) → p ∈ twoNamePhrases →
      p.between = p.between.dropLast ++ [' '] → (q.after = [] ∨ q.after = p.after) → ¬ q.between.tail <+: n := by
    intro q p hq hp hb ha hs
    have hq' : q ∈ twoNamePhrases := (List.takeWhile_sublist _).subset hq
    obtain ⟨u, v, e⟩ := occurs_second (x := n) (c := p.after) (twoNamePhrases_shape q hq').2 hs hb
    obtain ⟨x, y, hm⟩ := matches_of_occurs e (ha.imp id fun ha => ⟨v, [], by rw [ha]; simp⟩)
    exact earlier_not hq (key p hp).2 x y hm
  have word : ∀ q : TwoNames, q ∈ twoNamePhrases.takeWhile (fun r => r != ⟨chars!" rips ", chars!" a new one"⟩) → q.after = [] →
      q.between = ' ' :: n ++ [' '] → False := by
    intro q hq ha e
    obtain ⟨x, y, hm⟩ := matches_of_occurs (q := q) (text := n ++ chars!" rips " ++ n ++ chars!" a new one")
      (u := n ++ chars!" rips") (v := chars!"a new one") (by rw [e]; simp) (.inl ha)
    exact earlier_not hq (key ⟨chars!" rips ", chars!" a new one"⟩ (by decide +kernel)).2 x y hm
  refine ⟨one, ?_, ?_, ⟨says_suicide (h _ _ .suicide (by simp [Obituary.names])), ?_⟩, ?_, ?_, ?_, ?_, ?_⟩
  · rintro p hp ⟨u, v, e⟩
    obtain ⟨_, _, _, _, _, rest, _, hf, _⟩ := key p hp
    obtain ⟨hl, hs⟩ := twoNamePhrases_shape p hp
    have := hf.2 u.length ⟨u, v ++ p.between.tail ++ n ++ p.after, by
      rw [show n ++ p.between = n ++ [' '] ++ p.between.tail from by rw [hs]; simp, e]
      simp, rfl⟩
    have := congrArg List.length e
    simp at this
    omega
  · rintro w hw ⟨u, v, e⟩
    obtain ⟨hw, hne⟩ := List.mem_filter.mp hw
    obtain ⟨p, hp, rfl⟩ := List.mem_map.mp hw
    have hne : p.after ≠ [] := by simpa using hne
    obtain ⟨_, _, _, _, _, rest, et, hf, hr⟩ := key p hp
    rw [if_neg hne] at hr
    obtain ⟨z, _, hf⟩ := hr
    have er : rest = n ++ p.after := by
      have : p.between ++ (n ++ p.after) = p.between ++ rest := by simpa using et
      exact (List.append_cancel_left this).symm
    have := hf.2 u.length ⟨u, v ++ p.after, by rw [er, e]; simp, rfl⟩
    have := congrArg List.length e
    have := List.length_pos_iff.mpr hne
    simp at *
    omega
  · rintro rfl
    exact (key ⟨chars!" stomps ", []⟩ (by decide +kernel)).1.suicide (by decide +kernel)
  · rintro ⟨u, rfl⟩
    refine (says_teamkill (h _ _ (.teamkill (x := u ++ chars!" was") (p := chars!" squished a teammate") (by decide +kernel)) (by simp [Obituary.names]))).1
      (chars!" was squished") (by decide +kernel) ⟨u, chars!" a teammate", by simp⟩
  · intro q hq hs
    obtain ⟨u, v, e⟩ := occurs_second (b := chars!" stomps ") (x := n) (c := []) (one_shape q hq) hs (by decide)
    have no := (key ⟨chars!" stomps ", []⟩ (by decide +kernel)).1
    have ho : Occurs q (n ++ chars!" stomps " ++ n ++ []) := ⟨u, v ++ [], e⟩
    unfold oneNamePhrasesButSuicide at hq
    rcases List.mem_append.mp hq with hq | hq
    · rcases List.mem_append.mp hq with hq | hq
      · rcases List.mem_append.mp hq with hq | hq
        · exact no.death q hq ho
        · exact no.weapon q hq ho
      · exact no.teamkill q hq ho
    · exact no.teamkillByUnknown q hq ho
  · intro w hw
    have hooked : ∀ w ∈ phraseStarts, (⟨' ' :: w, []⟩ : TwoNames) ∈ twoNamePhrases.takeWhile (fun r => r != ⟨chars!" was hooked by ", []⟩) ∨
        w ∈ [chars!"his teammate", chars!"her teammate", chars!"ate 2 loads of ", chars!"rides ", chars!"was brutalized by "] := by
      decide +kernel
    rcases hooked w hw with hw | hw
    · exact early ⟨' ' :: w, []⟩ ⟨chars!" was hooked by ", []⟩ hw (by decide +kernel) (by decide) (.inl rfl)
    · have mate : ∀ w : Str, chars!" was crushed by " ++ w ∈ teamkillByUnknownPhrases → ¬ w <+: n := by
        rintro w hw ⟨v, e⟩
        refine (key ⟨chars!" was crushed by ", []⟩ (by decide +kernel)).1.teamkillByUnknown _ hw ⟨n, v, ?_⟩
        simp [← e]
      simp only [List.mem_cons, List.not_mem_nil, or_false] at hw
      rcases hw with rfl | rfl | rfl | rfl | rfl
      · exact mate _ (by decide +kernel)
      · exact mate _ (by decide +kernel)
      · exact early ⟨chars!" ate 2 loads of ", chars!"'s buckshot"⟩ ⟨chars!" ate 8 loads of ", chars!"'s buckshot"⟩ (by decide +kernel)
          (by decide +kernel) (by decide) (.inr rfl)
      · exact early ⟨chars!" rides ", chars!"'s rocket"⟩ ⟨chars!" was gibbed by ", chars!"'s rocket"⟩ (by decide +kernel)
          (by decide +kernel) (by decide) (.inr rfl)
      · exact early ⟨chars!" was brutalized by ", chars!"'s quad rocket"⟩ ⟨chars!" was smeared by ", chars!"'s quad rocket"⟩
          (by decide +kernel) (by decide +kernel) (by decide) (.inr rfl)
  · exact fun e => word ⟨chars!" stomps ", []⟩ (by decide +kernel) rfl (by rw [e]; rfl)
  · exact fun e => word ⟨chars!" squishes ", []⟩ (by decide +kernel) rfl (by rw [e]; rfl)

/-- Obituaries about the players of a match are all understood exactly if every name is clear. -/
theorem C111_clear (names : List Char → Prop) :
    (∀ o text, Wording o text → (∀ n ∈ o.names, names n) → ∃ e, FragEvent.tryFrom text = .ok e ∧ e.spec = o) ↔
      ∀ n, names n → Clear n := by
  constructor
  · intro h n hn
    refine clear_of_understood fun o text hw hs => ?_
    obtain ⟨e, he, rfl⟩ := h o text hw fun m hm => hs m hm ▸ hn
    exact (C24_classification _ _).mp he
  · intro h o text hw hs
    have said := clear_says hw fun n hn => h n (hs n hn)
    have : ∀ o : Obituary, ∃ e : FragEvent, e.spec = o := by
      intro o
      cases o with
      | death x => exact ⟨.death x, rfl⟩
      | suicide x => exact ⟨.suicide x, rfl⟩
      | suicideByWeapon x => exact ⟨.suicideByWeapon x, rfl⟩
      | frag x y => exact ⟨.frag x y, rfl⟩
      | teamkill x => exact ⟨.teamkill x, rfl⟩
      | teamkillByUnknown x => exact ⟨.teamkillByUnknown x, rfl⟩
    obtain ⟨e, rfl⟩ := this o
    exact ⟨e, (C24_classification _ _).mpr said, rfl⟩

/-- No two events between players with clear names are announced with the same text. -/
theorem C111_unambiguous (o o' : Obituary) (text : Str) (h : Wording o text) (h' : Wording o' text) (hn : ∀ n ∈ o.names, Clear n)
    (hn' : ∀ n ∈ o'.names, Clear n) : o = o' := by
  obtain ⟨e, he, rfl⟩ := (C111_clear Clear).mpr (fun _ h => h) o text h hn
  obtain ⟨e', he', rfl⟩ := (C111_clear Clear).mpr (fun _ h => h) o' text h' hn'
  rw [he] at he'
  cases he'
  rfl

/-- For a single name. -/
theorem C111_name (n : Str) :
    (∀ o text, Wording o text → (∀ m ∈ o.names, m = n) → ∃ e, FragEvent.tryFrom text = .ok e ∧ e.spec = o) ↔ Clear n := by
  rw [C111_clear (· = n)]
  simp

/-- The names of C84 are clear, in particular those without spaces and apostrophes that do not begin with a phrase of one word. -/
theorem C111_known (n : Str) : (FirstName n → SecondName n → Clear n) ∧ (PlainSecondName n → Clear n) := by
  have main : FirstName n → SecondName n → Clear n := by
    intro h1 h2
    obtain ⟨a, b, c, d, e⟩ := C84_one_name n h1
    obtain ⟨f, g⟩ := C84_two_names n n h1 h2
    refine (C111_name n).mp fun o text hw hs => ?_
    cases hw with
    | death hp => obtain rfl := hs _ (List.mem_singleton.mpr rfl); exact ⟨_, a _ hp, rfl⟩
    | suicide => obtain rfl := hs _ (List.mem_singleton.mpr rfl); exact ⟨_, c, rfl⟩
    | suicideByWeapon hp => obtain rfl := hs _ (List.mem_singleton.mpr rfl); exact ⟨_, b _ hp, rfl⟩
    | teamkill hp => obtain rfl := hs _ (List.mem_singleton.mpr rfl); exact ⟨_, d _ hp, rfl⟩
    | teamkillByUnknown hp => obtain rfl := hs _ (List.mem_singleton.mpr rfl); exact ⟨_, e _ hp, rfl⟩
    | @killerFirst x y p hp =>
      obtain rfl := hs x (by simp [Obituary.names])
      obtain rfl := hs y (by simp [Obituary.names])
      exact ⟨_, f _ hp, rfl⟩
    | @victimFirst x y p hp =>
      obtain rfl := hs x (by simp [Obituary.names])
      obtain rfl := hs y (by simp [Obituary.names])
      exact ⟨_, g _ hp, rfl⟩
  exact ⟨main, fun h => main ((C84_plain n).1 h.space) ((C84_plain n).2.1 h)⟩

/-! ### Flag messages -/

/-- Flag messages about a player are all understood exactly if no phrase of a flag message is a part of the name. -/
theorem C111_flags (n : Str) :
    (∀ kind text, FlagWording kind n text → ∃ e, FlagEvent.tryFrom text = .ok e ∧ e.kind = kind ∧ e.player = n) ↔
      ∀ c ∈ flagPhrases, ∀ q ∈ c.2, ¬ Occurs q n := by
  constructor
  · intro h c hc
    have hall : ∀ c ∈ flagPhrases, (∀ d ∈ flagPhrases, d.1 = c.1 → d.2 = c.2) ∧
        ∃ p ∈ c.2, c.2 = c.2.dropLast ++ [p] ∧ p ≠ [] ∧ ∀ q ∈ c.2.dropLast, ¬ q <+: p := by decide +kernel
    obtain ⟨hu, p, hp, e, hne, hpre⟩ := hall c hc
    obtain ⟨ev, he, hk, hn⟩ := h c.1 (n ++ p) ⟨c.2, p, hc, hp, rfl⟩
    rw [C29_classification] at he
    obtain ⟨b, ph, a, i, e1, _, hf, hi⟩ := he
    have : ph = c.2 := hu (ev.kind, ph) (by rw [e1]; simp) hk
    subst this
    rw [e] at hf ⊢
    exact noPhrase_of_last hne hpre ⟨i, hf, by rw [← hi, hn]⟩
  · rintro h kind text ⟨ph, p, hc, hp, rfl⟩
    exact ⟨_, C84_flags n h (kind, ph) hc p hp, (ofKind_iff.mp rfl).1, (ofKind_iff.mp rfl).2⟩

/-! ### Examples -/

/-- Clear names: also empty ones, some that begin with a phrase, and some that C84 excludes. -/
theorem C111_clear_names : Clear (chars!"• bps") ∧ Clear [] ∧ Clear (chars!"the it's was one") ∧ Clear (chars!"was hooked by z") ∧
    ¬ SecondName (chars!"was hooked by z") ∧ Clear (chars!"softens z") ∧ ¬ SecondName (chars!"softens z") := by
  refine ⟨by decide +kernel, by decide +kernel, by decide +kernel, by decide +kernel, fun h => ?_, by decide +kernel, fun h => ?_⟩
  · exact h.phrase (chars!" was hooked by ") (by decide +kernel) (by decide +kernel)
  · exact h.phrase (chars!" softens ") (by decide +kernel) (by decide +kernel)

/-- Events between players with clear names belong to the matches of C73 and the properties that build on it. -/
theorem C111_says : Says (.frag (chars!"b") (chars!"was hooked by z")) (chars!"b stomps was hooked by z") :=
  .clear (.killerFirst (x := chars!"b") (y := chars!"was hooked by z") (p := ⟨chars!" stomps ", []⟩) (by decide +kernel))
    (by decide +kernel) (by simp)

/-- Names that are not clear, for each of the reasons. -/
theorem C111_unclear_names : ∀ n ∈ [chars!"a died", chars!"he rides", chars!"fan of a's shaft", chars!"suicides",
    chars!"who suicides", chars!"it was", chars!"died", chars!"his teammate", chars!"stomps"], ¬ Clear n := by decide +kernel

/-- What becomes of the messages about such names. -/
theorem C111_misunderstood :
    FragEvent.tryFrom (chars!"it was" ++ chars!" squished a teammate") = .ok (.death chars!"it") ∧
    FragEvent.tryFrom (chars!"a rips stomps a new one") = .ok (.frag chars!"a rips" chars!"a new one") ∧
    FragEvent.tryFrom (chars!"a was nailed by died") = .ok (.death chars!"a was nailed by") ∧
    FragEvent.tryFrom (chars!"a stomps suicides") = .ok (.suicide chars!"a stomps") := by
  decide +kernel

/-- With other names, a text can be about different events. -/
theorem C111_ambiguous : Wording (.frag (chars!"a") (chars!"b stomps c")) (chars!"a stomps b stomps c") ∧
    Wording (.frag (chars!"a stomps b") (chars!"c")) (chars!"a stomps b stomps c") :=
  ⟨.killerFirst (x := chars!"a") (y := chars!"b stomps c") (p := ⟨chars!" stomps ", []⟩) (by decide +kernel),
    .killerFirst (x := chars!"a stomps b") (y := chars!"c") (p := ⟨chars!" stomps ", []⟩) (by decide +kernel)⟩

/-- A name with a flag phrase in it, and one with the beginning of a phrase. -/
theorem C111_flag_names :
    (∀ c ∈ flagPhrases, ∀ q ∈ c.2, ¬ Occurs q (chars!"x defends the")) ∧
    ¬ ∀ c ∈ flagPhrases, ∀ q ∈ c.2, ¬ Occurs q (chars!"x defends the ÒÅÄ flag\n") := by
  decide +kernel

end Mvd
