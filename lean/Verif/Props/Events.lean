import Verif.Lemmas.Events

/-! C24, C25, C29: obituaries and flag messages. -/

namespace Mvd
open Spec

/-! ### C24 -/

/-- C24: the classifier returns an event exactly when the text has that meaning. -/
theorem C24_classification (text : Str) (e : FragEvent) :
    FragEvent.tryFrom text = .ok e ↔ Classifies text e.spec := by
  constructor
  · intro h
    rcases tryFrom_cases text with ⟨e', h', hc⟩ | ⟨h', _⟩
    · rw [h] at h'; cases h'; exact hc
    · rw [h] at h'; cases h'
  · intro h
    obtain ⟨e', h', hs⟩ := tryFrom_of_classifies h
    rw [h', FragEvent.spec_inj hs]

/-- C24: every text without meaning is rejected: the classifier is total. -/
theorem C24_total (text : Str) :
    (∃ e, FragEvent.tryFrom text = .ok e) ∨ (FragEvent.tryFrom text = .err .fragEvent ∧ ∀ o, ¬ Classifies text o) := by
  rcases tryFrom_cases text with ⟨e, h, _⟩ | ⟨h, _⟩
  · exact .inl ⟨e, h⟩
  · refine .inr ⟨h, fun o ho => ?_⟩
    obtain ⟨e, he, _⟩ := tryFrom_of_classifies ho
    rw [h] at he
    cases he

/-- C24: exactly the texts with one of the phrases are accepted. -/
theorem C24_rejects (text : Str) :
    (∃ err, FragEvent.tryFrom text = .err err) ↔
      NoPhrase deathPhrases text ∧ NoPhrase weaponPhrases text ∧ ¬ suicidePhrase <:+ text ∧
      NoPhrase teamkillPhrases text ∧ NoPhrase teamkillByUnknownPhrases text ∧
      ∀ q ∈ killerFirstPhrases ++ victimFirstPhrases, ∀ x y, ¬ q.Matches text x y := by
  rcases tryFrom_cases text with ⟨e, h, hc⟩ | ⟨h, h1, h2⟩
  · rw [h]
    simp only [reduceCtorEq, exists_false, false_iff]
    rintro ⟨h1, h2, h3, h4, h5, h6⟩
    generalize e.spec = o at hc
    cases hc with
    | death h => exact FirstPhrase.not_none h h1
    | suicideByWeapon _ h => exact FirstPhrase.not_none h h2
    | suicide _ _ h => exact h3 (suicide_ends h)
    | teamkill _ _ _ h => exact FirstPhrase.not_none h h4
    | teamkillByUnknown _ _ _ _ h => exact FirstPhrase.not_none h h5
    | fragKillerFirst _ h =>
      obtain ⟨b, a, e, _, hm⟩ := h
      exact h6 _ (by rw [e]; simp) _ _ hm
    | fragVictimFirst _ _ h =>
      obtain ⟨b, a, e, _, hm⟩ := h
      exact h6 _ (by rw [e]; simp) _ _ hm
  · rw [h]
    simp only [R.err.injEq, exists_eq', true_iff]
    exact ⟨h1.death, h1.weapon, h1.suicide, h1.teamkill, h1.teamkillByUnknown, h2⟩

/-- C24: a text has at most one meaning. -/
theorem C24_unique (text : Str) (a b : Obituary) (ha : Classifies text a) (hb : Classifies text b) : a = b := by
  obtain ⟨e, h, rfl⟩ := tryFrom_of_classifies ha
  obtain ⟨e', h', rfl⟩ := tryFrom_of_classifies hb
  rw [h] at h'
  cases h'
  rfl

example : FragEvent.tryFrom chars!"a rides b c's rocket" = .ok (.frag chars!"b c" chars!"a") ∧
    FragEvent.tryFrom chars!"a suicides suicides" = .ok (.suicide chars!"a") ∧
    FragEvent.tryFrom chars!"a died was nailed by b" = .ok (.death chars!"a") ∧
    FragEvent.tryFrom chars!"hello" = .err .fragEvent := by decide +kernel

/-! ### C25 -/

/-- C25, one name: for every name without spaces. -/
theorem C25_one_name (x : Str) (hx : ' ' ∉ x) :
    (∀ p ∈ deathPhrases, FragEvent.tryFrom (x ++ p) = .ok (.death x)) ∧
    (∀ p ∈ weaponPhrases, FragEvent.tryFrom (x ++ p) = .ok (.suicideByWeapon x)) ∧
    FragEvent.tryFrom (x ++ suicidePhrase) = .ok (.suicide x) ∧
    (∀ p ∈ teamkillPhrases, FragEvent.tryFrom (x ++ p) = .ok (.teamkill x)) ∧
    (∀ p ∈ teamkillByUnknownPhrases, FragEvent.tryFrom (x ++ p) = .ok (.teamkillByUnknown x)) := by
  have htake : ∀ p : Str, (x ++ p).take x.length = x := by simp
  refine ⟨?_, ?_, ?_, ?_, ?_⟩
  · intro p hp
    have hall : ∀ p ∈ deathPhrases, okPhrase p = true ∧ noneOccurs (deathPhrases.filter (· ≠ p)) (oneNameWords p) = true := by
      decide +kernel
    obtain ⟨h1, h2⟩ := hall p hp
    rw [C24_classification, FragEvent.spec]
    conv => rhs; rw [← htake p]
    exact .death (firstPhrase_of hx hp h1 h2)
  · intro p hp
    have hall : ∀ p ∈ weaponPhrases, okPhrase p = true ∧ noneOccurs deathPhrases (oneNameWords p) = true ∧
        noneOccurs (weaponPhrases.filter (· ≠ p)) (oneNameWords p) = true := by decide +kernel
    obtain ⟨h1, h2, h3⟩ := hall p hp
    rw [C24_classification, FragEvent.spec]
    conv => rhs; rw [← htake p]
    exact .suicideByWeapon (noPhrase_one hx h1 h2) (firstPhrase_of hx hp h1 h3)
  · have hall : okPhrase suicidePhrase = true ∧ noneOccurs deathPhrases (oneNameWords suicidePhrase) = true ∧
        noneOccurs weaponPhrases (oneNameWords suicidePhrase) = true := by decide +kernel
    obtain ⟨h1, h2, h3⟩ := hall
    rw [C24_classification, FragEvent.spec]
    refine .suicide (n := 0) (noPhrase_one hx h1 h2) (noPhrase_one hx h1 h3) (by simp) ?_
    rintro ⟨t, rfl⟩
    exact hx (by simp [suicidePhrase])
  · intro p hp
    have hall : ∀ p ∈ teamkillPhrases, okPhrase p = true ∧ noneOccurs deathPhrases (oneNameWords p) = true ∧
        noneOccurs weaponPhrases (oneNameWords p) = true ∧ noneOccurs [suicidePhrase] (oneNameWords p) = true ∧
        noneOccurs (teamkillPhrases.filter (· ≠ p)) (oneNameWords p) = true := by decide +kernel
    obtain ⟨h1, h2, h3, h4, h5⟩ := hall p hp
    rw [C24_classification, FragEvent.spec]
    conv => rhs; rw [← htake p]
    refine .teamkill (noPhrase_one hx h1 h2) (noPhrase_one hx h1 h3) ?_ (firstPhrase_of hx hp h1 h5)
    rintro ⟨t, e⟩
    exact noPhrase_one hx h1 h4 suicidePhrase (by simp) ⟨t, [], by rw [← e]; simp⟩
  · intro p hp
    have hall : ∀ p ∈ teamkillByUnknownPhrases, okPhrase p = true ∧ noneOccurs deathPhrases (oneNameWords p) = true ∧
        noneOccurs weaponPhrases (oneNameWords p) = true ∧ noneOccurs [suicidePhrase] (oneNameWords p) = true ∧
        noneOccurs teamkillPhrases (oneNameWords p) = true ∧
        noneOccurs (teamkillByUnknownPhrases.filter (· ≠ p)) (oneNameWords p) = true := by decide +kernel
    obtain ⟨h1, h2, h3, h4, h5, h6⟩ := hall p hp
    rw [C24_classification, FragEvent.spec]
    conv => rhs; rw [← htake p]
    refine .teamkillByUnknown (noPhrase_one hx h1 h2) (noPhrase_one hx h1 h3) ?_ (noPhrase_one hx h1 h5)
      (firstPhrase_of hx hp h1 h6)
    rintro ⟨t, e⟩
    exact noPhrase_one hx h1 h4 suicidePhrase (by simp) ⟨t, [], by rw [← e]; simp⟩

/-- C25, two names: for every first name without spaces and every ordinary second name. -/
theorem C25_two_names (x y : Str) (hx : ' ' ∉ x) (hy : PlainSecondName y) :
    (∀ p ∈ killerFirstPhrases, FragEvent.tryFrom (x ++ p.between ++ y ++ p.after) = .ok (.frag x y)) ∧
    (∀ p ∈ victimFirstPhrases, FragEvent.tryFrom (x ++ p.between ++ y ++ p.after) = .ok (.frag y x)) := by
  constructor
  · intro p hp
    have hall : ∀ p ∈ killerFirstPhrases, okTwo p = true ∧ noneOccurs oneNamePhrases (twoNameWords p) = true ∧
        noneMatches (killerFirstPhrases.filter (· ≠ p)) p = true := by decide +kernel
    obtain ⟨h1, h2, h3⟩ := hall p hp
    rw [C24_classification, FragEvent.spec]
    exact .fragKillerFirst (noOneName_of hx hy h1 h2) (firstMatch_of hx hy hp h1 h3)
  · intro p hp
    have hall : ∀ p ∈ victimFirstPhrases, okTwo p = true ∧ noneOccurs oneNamePhrases (twoNameWords p) = true ∧
        noneMatches killerFirstPhrases p = true ∧
        noneMatches (victimFirstPhrases.filter (· ≠ p)) p = true := by decide +kernel
    obtain ⟨h1, h2, h3, h4⟩ := hall p hp
    rw [C24_classification, FragEvent.spec]
    exact .fragVictimFirst (noOneName_of hx hy h1 h2) (noMatch_of hx hy h1 h3) (firstMatch_of hx hy hp h1 h4)

example : ' ' ∉ chars!"sf.Sectoid" ∧ PlainSecondName chars!"[kp]" :=
  ⟨by decide, by decide, by decide, by decide⟩

/-- C25, limits: a killer whose name begins with `died` makes the victim die of nothing, a victim called `stomps`
becomes the killer's weapon, names with spaces or apostrophes are cut. -/
theorem C25_witnesses :
    FragEvent.tryFrom (chars!"foo" ++ chars!" was nailed by " ++ chars!"died") = .ok (.death chars!"foo was nailed by") ∧
    FragEvent.tryFrom (chars!"foo" ++ chars!" rips " ++ chars!"stomps" ++ chars!" a new one") =
      .ok (.frag chars!"foo rips" chars!"a new one") ∧
    FragEvent.tryFrom (chars!"foo" ++ chars!" rides " ++ chars!"bar's rocket" ++ chars!"'s rocket") =
      .ok (.frag chars!"bar" chars!"foo") ∧
    FragEvent.tryFrom (chars!"foo died" ++ chars!" was nailed by " ++ chars!"bar") = .ok (.death chars!"foo") := by
  decide +kernel

/-! ### C29 -/

/-- C29: the classifier returns an event exactly when the text has that meaning. -/
theorem C29_classification (text : Str) (e : FlagEvent) :
    FlagEvent.tryFrom text = .ok e ↔ ClassifiesFlag text e.kind e.player := by
  unfold FlagEvent.tryFrom
  rw [flagTypes_eq]
  exact flagPrintLoop_iff flagPhrases

/-- C29: the classifier is total and rejects exactly the texts without phrase. -/
theorem C29_total (text : Str) :
    (∃ e, FlagEvent.tryFrom text = .ok e) ∨
    (FlagEvent.tryFrom text = .err .flagEvent ∧ ∀ c ∈ flagPhrases, NoPhrase c.2 text) := by
  unfold FlagEvent.tryFrom
  rw [flagTypes_eq]
  exact flagPrintLoop_none flagPhrases

/-- C29: kind and player determine the event, so it is determined by the text. -/
theorem C29_unique (text : Str) (k k' : FlagKind) (p p' : Str) (h : ClassifiesFlag text k p) (h' : ClassifiesFlag text k' p') :
    k = k' ∧ p = p' := by
  have e : ∀ k p, (ofKind k p).kind = k ∧ (ofKind k p).player = p := fun k p => ofKind_iff.mp rfl
  have h1 := (C29_classification text (ofKind k p)).mpr (by rw [(e k p).1, (e k p).2]; exact h)
  have h2 := (C29_classification text (ofKind k' p')).mpr (by rw [(e k' p').1, (e k' p').2]; exact h')
  rw [h1] at h2
  simp only [R.ok.injEq] at h2
  have hk := (e k p).1
  have hp := (e k p).2
  rw [h2] at hk hp
  exact ⟨hk.symm.trans (e k' p').1, hp.symm.trans (e k' p').2⟩

/-- C29: a message about an aggressive enemy is never counted as a plain carrier defence. -/
theorem C29_aggressive (text p : Str)
    (h : Occurs chars!" defends ÒÅÄ's flag carrier against an aggressive enemy\n" text ∨
      Occurs chars!" defends ÂÌÕÅ's flag carrier against an aggressive enemy\n" text) :
    FlagEvent.tryFrom text ≠ .ok (.defendsFlagCarrier p) := by
  intro hc
  rw [C29_classification] at hc
  obtain ⟨before, phrases, after, i, e, hb, hf, _⟩ := hc
  have hmem : (FlagKind.defendsCarrierVsAggressive,
      [chars!" defends ÒÅÄ's flag carrier against an aggressive enemy\n",
        chars!" defends ÂÌÕÅ's flag carrier against an aggressive enemy\n"]) ∈ before := by
    have : ∀ (n : Nat), n < 8 → (flagPhrases[n]?.map (·.1) = some .defendsCarrier) → n = 3 := by decide
    have hl : before.length = 3 := by
      apply this
      · have := congrArg List.length e
        simp [flagPhrases] at this
        omega
      · rw [e]; simp [FlagEvent.kind]
    have h3 : flagPhrases.take 3 = before := by rw [e, ← hl]; simp
    rw [← h3]
    decide
  have hn := hb _ hmem
  rcases h with h | h
  · exact hn _ (by simp) h
  · exact hn _ (by simp) h

/-- C29: for every name without spaces, each phrase after the name is recognised. -/
theorem C29_round_trip (x : Str) (hx : ' ' ∉ x) (k : FlagKind) (phrases : List Str) (hk : (k, phrases) ∈ flagPhrases)
    (p : Str) (hp : p ∈ phrases) : FlagEvent.tryFrom (x ++ p) = .ok (ofKind k x) := by
  rw [C29_classification, (ofKind_iff.mp (Eq.refl (ofKind k x))).1, (ofKind_iff.mp (Eq.refl (ofKind k x))).2]
  have hall : ∀ c ∈ flagPhrases, ∀ p ∈ c.2, okPhrase p = true ∧
      noneOccurs (c.2.filter (· ≠ p)) (oneNameWords p) = true ∧
      ∀ d ∈ flagPhrases, d ≠ c → noneOccurs d.2 (oneNameWords p) = true := by decide +kernel
  obtain ⟨h1, h2, h3⟩ := hall _ hk p hp
  obtain ⟨before, after, e, hn⟩ := List.eq_append_cons_of_mem hk
  refine ⟨before, phrases, after, x.length, e, ?_, firstPhrase_of hx hp h1 h2, by simp⟩
  intro c hc
  exact noPhrase_one hx h1 (h3 c (by rw [e]; simp [hc]) (fun e => hn (e ▸ hc)))

example : ' ' ∉ chars!"bps" ∧ (FlagKind.got, [chars!" çïô the ÒÅÄ flag!\n", chars!" çïô the ÂÌÕÅ flag!\n"]) ∈ flagPhrases := by
  decide

end Mvd
