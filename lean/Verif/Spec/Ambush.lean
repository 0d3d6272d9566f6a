import Verif.Spec.Match

/-! Teamkills that are reported without naming the killer. -/

namespace Spec

/-- The texts with which a server reports that a player was killed by a team mate whom it does not name. -/
inductive SaysAmbushed : List Char → List Char → Prop
  | mk {x p} : FirstName x ∨ Clear x → p ∈ teamkillByUnknownPhrases → SaysAmbushed x (x ++ p)

/-- The score updates give the killer away: the first one for a team mate of the victim is the killer's. Updates for the
victim, for opponents and for numbers without client may come before. -/
def Betrayed (cs : List Mvd.Client) (updates : List UInt8) (killer victim : List Char) : Prop :=
  ∃ k ∈ cs, ∃ v ∈ cs, k.name = killer ∧ v.name = victim ∧ killer ≠ victim ∧ k.team = v.team ∧
    ∃ before n after, updates = before ++ n :: after ∧ k.number = n.toNat ∧
      ∀ m ∈ before, ∀ c ∈ cs, c.number = m.toNat → c.team ≠ v.team ∨ c.name = victim

/-- The score updates do not give the killer away: none of them is for a team mate of the victim. -/
def Covert (cs : List Mvd.Client) (updates : List UInt8) (victim : List Char) : Prop :=
  ∀ v ∈ cs, v.name = victim → ∀ m ∈ updates, ∀ c ∈ cs, c.number = m.toNat → c.team ≠ v.team ∨ c.name = victim

/-- Frames report a match: events as in `Reports`; a teamkill also without the name of the killer, if the score updates
nearby give the killer away. If they do not, it counts as no event, since nobody can be charged. -/
inductive Told (toUnicode : List UInt8 → List Char) (cs : List Mvd.Client) : List (Option Obituary) → List Frame → Prop
  | nil : Told toUnicode cs [] []
  | named {e es f fs} : Reports toUnicode e f → Told toUnicode cs es fs → Told toUnicode cs (e :: es) (f :: fs)
  | anonymous {killer victim text more es f fs} : SaysAmbushed victim text → Announces toUnicode f.body text more →
      Betrayed cs (nearbyUpdates more fs) killer victim → Told toUnicode cs es fs →
      Told toUnicode cs (some (.teamkill killer) :: es) (f :: fs)
  | unsolved {victim text more es f fs} : SaysAmbushed victim text → Announces toUnicode f.body text more →
      Covert cs (nearbyUpdates more fs) victim → Told toUnicode cs es fs → Told toUnicode cs (none :: es) (f :: fs)

end Spec
