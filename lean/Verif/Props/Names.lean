import Verif.Lemmas.Borders
import Verif.Props.Events

/-! C84: names with spaces. -/

namespace Mvd
open Spec

/-- C84, one name: for every name inside which no phrase could begin. -/
theorem C84_one_name (x : Str) (hx : FirstName x) :
    (∀ p ∈ deathPhrases, FragEvent.tryFrom (x ++ p) = .ok (.death x)) ∧
    (∀ p ∈ weaponPhrases, FragEvent.tryFrom (x ++ p) = .ok (.suicideByWeapon x)) ∧
    FragEvent.tryFrom (x ++ suicidePhrase) = .ok (.suicide x) ∧
    (∀ p ∈ teamkillPhrases, FragEvent.tryFrom (x ++ p) = .ok (.teamkill x)) ∧
    (∀ p ∈ teamkillByUnknownPhrases, FragEvent.tryFrom (x ++ p) = .ok (.teamkillByUnknown x)) := by
  have htake : ∀ p : Str, (x ++ p).take x.length = x := by simp
  have h1 : ∀ q ∈ deathPhrases, ¬ BeginsInside q x := fun q hq => hx q (by simp [obituaryPhrases, hq])
  have h2 : ∀ q ∈ weaponPhrases, ¬ BeginsInside q x := fun q hq => hx q (by simp [obituaryPhrases, hq])
  have h3 : ¬ BeginsInside suicidePhrase x := hx _ (by simp [obituaryPhrases])
  have h4 : ∀ q ∈ teamkillPhrases, ¬ BeginsInside q x := fun q hq => hx q (by simp [obituaryPhrases, hq])
  have h5 : ∀ q ∈ teamkillByUnknownPhrases, ¬ BeginsInside q x := fun q hq => hx q (by simp [obituaryPhrases, hq])
  have hend : ∀ p : Str, find suicidePhrase p = none → ¬ suicidePhrase <:+ x ++ p := by
    rintro p hp ⟨t, e⟩
    exact find_eq_none_iff.mp hp ((occurs_after h3).mp ⟨t, [], by rw [← e]; simp⟩)
  refine ⟨fun p hp => ?_, fun p hp => ?_, ?_, fun p hp => ?_, fun p hp => ?_⟩
  · have hall : ∀ p ∈ deathPhrases, findAny deathPhrases p = some 0 := by decide +kernel
    rw [C24_classification, FragEvent.spec]
    conv => rhs; rw [← htake p]
    exact .death (firstPhrase_after h1 (hall p hp))
  · have hall : ∀ p ∈ weaponPhrases, findAny deathPhrases p = none ∧ findAny weaponPhrases p = some 0 := by decide +kernel
    obtain ⟨a, b⟩ := hall p hp
    rw [C24_classification, FragEvent.spec]
    conv => rhs; rw [← htake p]
    exact .suicideByWeapon (noPhrase_after h1 a) (firstPhrase_after h2 b)
  · have hall : findAny deathPhrases suicidePhrase = none ∧ findAny weaponPhrases suicidePhrase = none := by decide +kernel
    rw [C24_classification, FragEvent.spec]
    refine .suicide (n := 0) (noPhrase_after h1 hall.1) (noPhrase_after h2 hall.2) (by simp) ?_
    rintro ⟨t, e⟩
    exact h3 ⟨[], t, [], by rw [← e], by rw [← e]; simp [suicidePhrase]⟩
  · have hall : ∀ p ∈ teamkillPhrases, findAny deathPhrases p = none ∧ findAny weaponPhrases p = none ∧
        find suicidePhrase p = none ∧ findAny teamkillPhrases p = some 0 := by decide +kernel
    obtain ⟨a, b, c, d⟩ := hall p hp
    rw [C24_classification, FragEvent.spec]
    conv => rhs; rw [← htake p]
    exact .teamkill (noPhrase_after h1 a) (noPhrase_after h2 b) (hend p c) (firstPhrase_after h4 d)
  · have hall : ∀ p ∈ teamkillByUnknownPhrases, findAny deathPhrases p = none ∧ findAny weaponPhrases p = none ∧
        find suicidePhrase p = none ∧ findAny teamkillPhrases p = none ∧
        findAny teamkillByUnknownPhrases p = some 0 := by decide +kernel
    obtain ⟨a, b, c, d, e⟩ := hall p hp
    rw [C24_classification, FragEvent.spec]
    conv => rhs; rw [← htake p]
    exact .teamkillByUnknown (noPhrase_after h1 a) (noPhrase_after h2 b) (hend p c) (noPhrase_after h4 d)
      (firstPhrase_after h5 e)

/-- The phrases with one name. -/
def oneNameList : List Str := deathPhrases ++ weaponPhrases ++ [suicidePhrase] ++ teamkillPhrases ++ teamkillByUnknownPhrases

theorem noOneName_after {p : TwoNames} {x y : Str} (hx : FirstName x) (hy : SecondName y)
    (h : oneNameList.all (fun q => absent q p.between p.after) = true) : NoOneName (x ++ (p.between ++ y ++ p.after)) := by
  have main : ∀ q ∈ oneNameList, ¬ Occurs q (x ++ (p.between ++ y ++ p.after)) := by
    intro q hq ho
    have hm : q ∈ obituaryPhrases := List.mem_append_left _ hq
    exact absent_spec hm hy (List.all_eq_true.mp h q hq) ((occurs_after (hx q hm)).mp ho)
  refine ⟨fun q hq => main q (by simp [oneNameList, hq]), fun q hq => main q (by simp [oneNameList, hq]), ?_,
    fun q hq => main q (by simp [oneNameList, hq]), fun q hq => main q (by simp [oneNameList, hq])⟩
  rintro ⟨t, e⟩
  exact main suicidePhrase (by simp [oneNameList]) ⟨t, [], by rw [← e]; simp⟩

/-- Every phrase in front of the phrase fails to match texts made from it. -/
def firstOf (before : List TwoNames) : List TwoNames → Bool
  | [] => true
  | p :: rest => before.all (fun q => unmatched q p) && oneNameList.all (fun q => absent q p.between p.after) &&
      firstOf (before ++ [p]) rest

theorem firstOf_spec : ∀ {l before : List TwoNames}, firstOf before l = true → ∀ p ∈ l, ∃ a b, l = a ++ p :: b ∧
    (∀ q ∈ before ++ a, unmatched q p = true) ∧ oneNameList.all (fun q => absent q p.between p.after) = true
  | [], _, _, p, hp => by cases hp
  | c :: l, before, h, p, hp => by
    simp only [firstOf, Bool.and_eq_true] at h
    obtain ⟨⟨h1, h2⟩, h3⟩ := h
    rcases List.mem_cons.mp hp with rfl | hp
    · exact ⟨[], l, rfl, by simpa using h1, h2⟩
    · obtain ⟨a, b, e, hu, ho⟩ := firstOf_spec h3 p hp
      exact ⟨c :: a, b, by rw [e]; rfl, fun q hq => hu q (by simpa using hq), ho⟩

/-- C84, two names: for every first name and every second name that can be recognised. -/
theorem C84_two_names (x y : Str) (hx : FirstName x) (hy : SecondName y) :
    (∀ p ∈ killerFirstPhrases, FragEvent.tryFrom (x ++ p.between ++ y ++ p.after) = .ok (.frag x y)) ∧
    (∀ p ∈ victimFirstPhrases, FragEvent.tryFrom (x ++ p.between ++ y ++ p.after) = .ok (.frag y x)) := by
  have hk : firstOf [] killerFirstPhrases = true := by decide +kernel
  have hv : firstOf killerFirstPhrases victimFirstPhrases = true := by decide +kernel
  have assoc : ∀ p : TwoNames, x ++ p.between ++ y ++ p.after = x ++ (p.between ++ y ++ p.after) := by simp
  constructor
  · intro p hp
    obtain ⟨a, b, e, hu, ho⟩ := firstOf_spec hk p hp
    rw [C24_classification, FragEvent.spec, assoc]
    refine .fragKillerFirst (noOneName_after hx hy ho) ⟨a, b, e, fun q hq => ?_, matches_self (by simp [hp]) hx hy⟩
    exact unmatched_spec (List.mem_append_left _ (by rw [e]; simp [hq])) hx hy (hu q (by simpa using hq))
  · intro p hp
    obtain ⟨a, b, e, hu, ho⟩ := firstOf_spec hv p hp
    rw [C24_classification, FragEvent.spec, assoc]
    refine .fragVictimFirst (noOneName_after hx hy ho) (fun q hq => ?_)
      ⟨a, b, e, fun q hq => ?_, matches_self (by simp [hp]) hx hy⟩
    · exact unmatched_spec (List.mem_append_left _ hq) hx hy (hu q (by simp [hq]))
    · exact unmatched_spec (List.mem_append_right _ (by rw [e]; simp [hq])) hx hy (hu q (by simp [hq]))

/-- C84: the names of C25 are among them. -/
theorem C84_plain (x : Str) : (' ' ∉ x → FirstName x) ∧ (PlainSecondName x → SecondName x) ∧ (' ' ∉ x → FlagName x) := by
  have hh : ∀ q ∈ obituaryPhrases, q.head? = some ' ' := by decide +kernel
  have he : ∀ q ∈ endPhrases, q.head? = some ' ' ∨ q.head? = some '\'' := by decide +kernel
  have hw : ∀ q ∈ obituaryPhrases, ' ' ∈ q.tail ∨ q.tail ∈ oneWordPhrases := by decide +kernel
  have hf : ∀ c ∈ flagPhrases, ∀ q ∈ c.2, q.head? = some ' ' := by decide +kernel
  refine ⟨fun hx q hq => not_beginsInside (hh q hq) hx, fun h => ⟨fun q hq => ?_, fun q hq hp => ?_, h.start, ?_, ?_⟩,
    fun hx c hc q hq ⟨u, v, e⟩ => hx (e ▸ List.mem_append_left _ (List.mem_append_right _ (List.mem_of_mem_head? (hf c hc q hq))))⟩
  · rcases List.mem_append.mp hq with hq | hq
    · exact not_beginsInside (hh q hq) h.space
    · rcases he q hq with e | e
      · exact not_beginsInside e h.space
      · exact not_beginsInside e h.apostrophe
  · rcases hw q hq with hs | hs
    · exact h.space (hp.subset hs)
    · exact h.start _ hs hp
  · exact fun hp => h.space (hp.subset (by decide))
  · exact fun hp => h.space (hp.subset (by decide))

theorem flag_edges : (flagPhrases.all fun c => edges c.2 (flagPhrases.flatMap Prod.snd) fun _ => false) = true := by decide +kernel

/-- C84, flag messages: for every name that no flag phrase is a part of. -/
theorem C84_flags (x : Str) (hx : FlagName x) (c : FlagKind × List Str) (hc : c ∈ flagPhrases) (p : Str) (hp : p ∈ c.2) :
    FlagEvent.tryFrom (x ++ p) = .ok (ofKind c.1 x) := by
  have early : ∀ d ∈ flagPhrases, ∀ q ∈ d.2, NotEarly q x p := by
    intro d hd q hq i ho
    refine Nat.le_of_not_lt fun hi => ?_
    rcases occursAt_left ho hi with ho | ⟨cut, hcut, _, h2⟩
    · exact hx d hd q hq ho
    · have := edges_spec (t := []) (List.all_eq_true.mp flag_edges d hd) hq (List.mem_flatMap.mpr ⟨c, hc, hp⟩) hcut
        (by rwa [List.append_nil])
      cases this
  have hall : ∀ c ∈ flagPhrases, ∃ n ∈ List.range 7, flagPhrases = flagPhrases.take n ++ c :: flagPhrases.drop (n + 1) ∧
      ∀ p ∈ c.2, findAny c.2 p = some 0 ∧ ∀ d ∈ flagPhrases.take n, findAny d.2 p = none := by decide +kernel
  obtain ⟨n, _, e, h⟩ := hall c hc
  obtain ⟨h1, h2⟩ := h p hp
  rw [C29_classification, (ofKind_iff.mp rfl).1, (ofKind_iff.mp rfl).2]
  exact ⟨_, c.2, _, x.length, e, fun d hd => notEarly_noPhrase (early d (List.take_subset _ _ hd)) (h2 d hd),
    notEarly_firstPhrase (early _ hc) h1, by simp⟩

/-- Names of the bots in the repository's test demos, a name with an apostrophe, and a name that is neither. -/
example : FirstName chars!"/ tincan" ∧ SecondName chars!"/ tincan" ∧ FlagName chars!"/ tincan" ∧
    SecondName chars!"l'oeil de lynx" ∧ ¬ FirstName chars!"foo was nail" ∧ ¬ SecondName chars!"his teammate" ∧
    FragEvent.tryFrom chars!"/ bro was gibbed by / tincan's grenade" = .ok (.frag chars!"/ tincan" chars!"/ bro") := by
  decide +kernel

/-- C84, limits: a name inside which a phrase begins is cut, and who is called `his teammate` gets no frag. -/
theorem C84_witnesses :
    FragEvent.tryFrom (chars!"foo was" ++ chars!" died") = .ok (.death chars!"foo was") ∧
    FragEvent.tryFrom (chars!"a rides " ++ chars!" was nailed by " ++ chars!"b") = .ok (.frag chars!"b" chars!"a rides ") ∧
    FragEvent.tryFrom (chars!"a stomps b" ++ chars!" was nailed by " ++ chars!"c") =
      .ok (.frag chars!"a" chars!"b was nailed by c") ∧
    FragEvent.tryFrom (chars!"a" ++ chars!" was crushed by " ++ chars!"his teammate") = .ok (.teamkillByUnknown chars!"a") := by
  decide +kernel

end Mvd
