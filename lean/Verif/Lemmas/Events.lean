import Verif.Model.FragEvent
import Verif.Model.FlagEvent
import Verif.Spec.Obituary
import Verif.Lemmas.Search

/-! The classifiers of obituaries and flag messages. -/

namespace Mvd
open Spec

theorem findAny_some_iff {phrases : List Str} {text : Str} {i : Nat} :
    findAny phrases text = some i ↔ FirstPhrase phrases text i := by
  unfold findAny FirstPhrase
  rw [List.findSome?_eq_some_iff]
  constructor
  · rintro ⟨l1, a, l2, e, hf, hn⟩
    exact ⟨l1, a, l2, e, fun q hq => find_eq_none_iff.mp (hn q hq), find_eq_some_iff.mp hf⟩
  · rintro ⟨l1, a, l2, e, hn, hf⟩
    exact ⟨l1, a, l2, e, find_eq_some_iff.mpr hf, fun q hq => find_eq_none_iff.mpr (hn q hq)⟩

theorem findAny_none_iff {phrases : List Str} {text : Str} : findAny phrases text = none ↔ NoPhrase phrases text := by
  unfold findAny NoPhrase
  simp [List.findSome?_eq_none_iff, find_eq_none_iff]

theorem findAny_cases (phrases : List Str) (text : Str) :
    (∃ i, findAny phrases text = some i ∧ FirstPhrase phrases text i) ∨
    (findAny phrases text = none ∧ NoPhrase phrases text) := by
  cases h : findAny phrases text with
  | none => exact .inr ⟨rfl, findAny_none_iff.mp h⟩
  | some i => exact .inl ⟨i, rfl, findAny_some_iff.mp h⟩

theorem FirstPhrase.not_none {phrases : List Str} {text : Str} {i : Nat} (h : FirstPhrase phrases text i) :
    ¬ NoPhrase phrases text := by
  intro hn
  rw [← findAny_none_iff, findAny_some_iff.mpr h] at hn
  simp at hn

theorem FirstPhrase.unique {phrases : List Str} {text : Str} {i j : Nat} (h : FirstPhrase phrases text i)
    (h' : FirstPhrase phrases text j) : i = j := by
  rw [← findAny_some_iff] at h h'
  rw [h] at h'
  simpa using h'

theorem endsWith_iff {s suffix : Str} : endsWith s suffix = true ↔ suffix <:+ s := by simp [endsWith]

theorem trimEndMatchesAux_spec (suffix : Str) (hne : suffix ≠ []) : ∀ (fuel : Nat) (s : Str), s.length ≤ fuel →
    ∃ n, s = trimEndMatchesAux suffix fuel s ++ (List.replicate n suffix).flatten ∧
      ¬ suffix <:+ trimEndMatchesAux suffix fuel s
  | 0, s, h => by
    have : s = [] := List.length_eq_zero_iff.mp (by omega)
    subst this
    refine ⟨0, by simp [trimEndMatchesAux], ?_⟩
    simpa [trimEndMatchesAux] using hne
  | fuel + 1, s, h => by
    rw [trimEndMatchesAux]
    by_cases hs : suffix <:+ s
    · rw [if_pos ⟨hne, by simpa using hs⟩]
      obtain ⟨t, rfl⟩ := hs
      have hpos : 0 < suffix.length := List.length_pos_iff.mpr hne
      have ht : (t ++ suffix).take ((t ++ suffix).length - suffix.length) = t := by simp
      rw [ht]
      obtain ⟨n, e, hn⟩ := trimEndMatchesAux_spec suffix hne fuel t (by simp at h; omega)
      refine ⟨n + 1, ?_, hn⟩
      rw [List.replicate_succ', List.flatten_append, ← List.append_assoc, ← e]
      simp
    · rw [if_neg (by simpa [hne] using hs)]
      exact ⟨0, by simp, hs⟩

theorem trimEndMatches_eq {suffix s x : Str} {n : Nat} (hne : suffix ≠ []) (h : s = x ++ (List.replicate n suffix).flatten)
    (hx : ¬ suffix <:+ x) : trimEndMatches s suffix = x := by
  obtain ⟨m, e, hm⟩ := trimEndMatchesAux_spec suffix hne s.length s (Nat.le_refl _)
  change s = trimEndMatches s suffix ++ _ at e
  change ¬ suffix <:+ trimEndMatches s suffix at hm
  generalize trimEndMatches s suffix = y at e hm
  have key : ∀ (n m : Nat) (x y : Str), x ++ (List.replicate n suffix).flatten = y ++ (List.replicate m suffix).flatten →
      ¬ suffix <:+ x → ¬ suffix <:+ y → y = x := by
    intro n
    induction n with
    | zero =>
      intro m x y e hx hy
      cases m with
      | zero => simpa using e.symm
      | succ m =>
        exfalso
        apply hx
        rw [List.replicate_succ', List.flatten_append, ← List.append_assoc] at e
        simp only [List.replicate_zero, List.flatten_nil, List.append_nil, List.flatten_cons] at e
        exact ⟨_, e.symm⟩
    | succ n ih =>
      intro m x y e hx hy
      cases m with
      | zero =>
        exfalso
        apply hy
        rw [List.replicate_succ', List.flatten_append, ← List.append_assoc] at e
        simp only [List.replicate_zero, List.flatten_nil, List.append_nil, List.flatten_cons] at e
        exact ⟨_, e⟩
      | succ m =>
        apply ih m x y _ hx hy
        rw [List.replicate_succ', List.flatten_append, ← List.append_assoc, List.replicate_succ', List.flatten_append,
          ← List.append_assoc] at e
        exact List.append_cancel_right e
  rw [h] at e
  exact key n m x y e hx hm

/-- The pattern of the source for a two-name phrase. -/
def pat (p : TwoNames) : Str := if p.after = [] then p.between else p.between ++ WILDCARD ++ p.after

theorem patternMatch_iff {p : TwoNames} (hsplit : p.after ≠ [] → splitOnce (pat p) WILDCARD = some (p.between, p.after))
    (hplain : p.after = [] → find WILDCARD p.between = none) {text x y : Str} :
    patternMatch text (pat p) = some (x, y) ↔ p.Matches text x y := by
  unfold patternMatch TwoNames.Matches
  by_cases ha : p.after = []
  · have e : pat p = p.between := by simp [pat, ha]
    rw [e, hplain ha]
    simp only [Option.isSome_none, Bool.false_eq_true, if_false, ha, if_true, splitOnce_eq_some_iff]
    constructor
    · rintro ⟨h1, h2⟩; exact ⟨y, h1, h2, rfl⟩
    · rintro ⟨_, h1, h2, rfl⟩; exact ⟨h1, h2⟩
  · have hs := hsplit ha
    have hf : (find WILDCARD (pat p)).isSome = true := by
      cases hf : find WILDCARD (pat p) with
      | none => simp [splitOnce, hf] at hs
      | some _ => rfl
    rw [if_pos hf, hs]
    simp only [ha, if_false]
    constructor
    · intro h
      cases h1 : splitOnce text p.between with
      | none => simp [h1] at h
      | some xr =>
        obtain ⟨x', r⟩ := xr
        simp only [h1] at h
        cases h2 : splitOnce r p.after with
        | none => simp [h2] at h
        | some yz =>
          obtain ⟨y', z⟩ := yz
          simp only [h2, Option.some.injEq, Prod.mk.injEq] at h
          obtain ⟨rfl, rfl⟩ := h
          obtain ⟨e1, f1⟩ := splitOnce_eq_some_iff.mp h1
          obtain ⟨e2, f2⟩ := splitOnce_eq_some_iff.mp h2
          exact ⟨r, e1, f1, z, e2, f2⟩
    · rintro ⟨r, e1, f1, z, e2, f2⟩
      rw [splitOnce_eq_some_iff.mpr ⟨e1, f1⟩]
      simp only
      rw [splitOnce_eq_some_iff.mpr ⟨e2, f2⟩]

theorem killerFirst_pats : X_FRAG_Y = killerFirstPhrases.map pat := by decide
theorem victimFirst_pats : Y_FRAG_X = victimFirstPhrases.map pat := by decide

theorem pats_ok : ∀ p ∈ killerFirstPhrases ++ victimFirstPhrases,
    (p.after ≠ [] → splitOnce (pat p) WILDCARD = some (p.between, p.after)) ∧
    (p.after = [] → find WILDCARD p.between = none) := by decide +kernel

theorem pats_disjoint : ∀ p ∈ victimFirstPhrases, X_FRAG_Y.contains (pat p) = false := by decide +kernel
theorem pats_killer : ∀ p ∈ killerFirstPhrases, X_FRAG_Y.contains (pat p) = true := by decide +kernel

theorem patternMatch_none {p : TwoNames} (hp : p ∈ killerFirstPhrases ++ victimFirstPhrases) {text : Str} :
    patternMatch text (pat p) = none ↔ ∀ x y, ¬ p.Matches text x y := by
  obtain ⟨h1, h2⟩ := pats_ok p hp
  cases h : patternMatch text (pat p) with
  | none =>
    simp only [true_iff]
    intro x y hm
    rw [← patternMatch_iff h1 h2] at hm
    rw [h] at hm
    simp at hm
  | some xy =>
    simp only [reduceCtorEq, false_iff]
    intro hn
    exact hn xy.1 xy.2 ((patternMatch_iff h1 h2).mp h)

/-- The result of the loop over the two-name patterns. -/
inductive LoopResult (text : Str) : List TwoNames → R FragEvent → Prop
  | none {ps} (h : ∀ q ∈ ps, ∀ x y, ¬ q.Matches text x y) : LoopResult text ps (.err .fragEvent)
  | some {ps before after} {p : TwoNames} {x y : Str} (e : ps = before ++ p :: after)
      (h : ∀ q ∈ before, ∀ x y, ¬ q.Matches text x y) (hm : p.Matches text x y) :
      LoopResult text ps (if X_FRAG_Y.contains (pat p) then .ok (.frag x y) else .ok (.frag y x))

theorem fragPatternLoop_result (text : Str) : ∀ ps : List TwoNames,
    (∀ p ∈ ps, p ∈ killerFirstPhrases ++ victimFirstPhrases) →
    LoopResult text ps (fragPatternLoop text (ps.map pat))
  | [], _ => .none (by simp)
  | p :: ps, hps => by
    have hp := hps p (by simp)
    have ih := fragPatternLoop_result text ps (fun q hq => hps q (by simp [hq]))
    simp only [List.map_cons, fragPatternLoop]
    cases h : patternMatch text (pat p) with
    | none =>
      have hn := (patternMatch_none hp).mp h
      simp only
      generalize fragPatternLoop text (ps.map pat) = r at ih ⊢
      cases ih with
      | none h' =>
        exact .none (by intro q hq; simp only [List.mem_cons] at hq; rcases hq with rfl | hq; exacts [hn, h' q hq])
      | @some before after q x y e h' hm =>
        refine .some (before := p :: before) (after := after) (by simp [e]) ?_ hm
        intro q hq; simp only [List.mem_cons] at hq; rcases hq with rfl | hq; exacts [hn, h' q hq]
    | some xy =>
      obtain ⟨h1, h2⟩ := pats_ok p hp
      exact .some (before := []) (after := ps) rfl (by simp) ((patternMatch_iff h1 h2).mp h)

/-- The meaning of a classified obituary. -/
def FragEvent.spec : FragEvent → Obituary
  | .death p => .death p
  | .suicide p => .suicide p
  | .suicideByWeapon p => .suicideByWeapon p
  | .frag k v => .frag k v
  | .teamkill k => .teamkill k
  | .teamkillByUnknown v => .teamkillByUnknown v

theorem X_DEATH_eq : X_DEATH = deathPhrases := by decide
theorem X_SUICIDE_BY_WEAPON_eq : X_SUICIDE_BY_WEAPON = weaponPhrases := by decide
theorem X_SUICIDE_eq : X_SUICIDE = suicidePhrase := by decide
theorem X_TEAMKILL_UNKNOWN_eq : X_TEAMKILL_UNKNOWN = teamkillPhrases := by decide
theorem UNKNOWN_TEAMKILL_X_eq : UNKNOWN_TEAMKILL_X = teamkillByUnknownPhrases := by decide

/-- The classifier, in terms of the specification. -/
theorem tryFrom_cases (text : Str) :
    (∃ e, FragEvent.tryFrom text = .ok e ∧ Classifies text e.spec) ∨
    (FragEvent.tryFrom text = .err .fragEvent ∧ NoOneName text ∧
      ∀ q ∈ killerFirstPhrases ++ victimFirstPhrases, ∀ x y, ¬ q.Matches text x y) := by
  unfold FragEvent.tryFrom
  rw [X_DEATH_eq, X_SUICIDE_BY_WEAPON_eq, X_SUICIDE_eq, X_TEAMKILL_UNKNOWN_eq, UNKNOWN_TEAMKILL_X_eq]
  rcases findAny_cases deathPhrases text with ⟨i, e, h⟩ | ⟨e, h1⟩
  · rw [e]; exact .inl ⟨_, rfl, .death h⟩
  rw [e]
  rcases findAny_cases weaponPhrases text with ⟨i, e, h⟩ | ⟨e, h2⟩
  · rw [e]; exact .inl ⟨_, rfl, .suicideByWeapon h1 h⟩
  rw [e]
  simp only [endsWith_iff]
  by_cases h3 : suicidePhrase <:+ text
  · rw [if_pos h3]
    refine .inl ⟨_, rfl, ?_⟩
    obtain ⟨n, e, hn⟩ := trimEndMatchesAux_spec suicidePhrase (by decide) text.length text (Nat.le_refl _)
    change text = trimEndMatches text suicidePhrase ++ _ at e
    change ¬ suicidePhrase <:+ trimEndMatches text suicidePhrase at hn
    cases n with
    | zero => simp at e; rw [← e] at hn; exact absurd h3 hn
    | succ n => exact .suicide h1 h2 e hn
  rw [if_neg h3]
  rcases findAny_cases teamkillPhrases text with ⟨i, e, h⟩ | ⟨e, h4⟩
  · rw [e]; exact .inl ⟨_, rfl, .teamkill h1 h2 h3 h⟩
  rw [e]
  rcases findAny_cases teamkillByUnknownPhrases text with ⟨i, e, h⟩ | ⟨e, h5⟩
  · rw [e]; exact .inl ⟨_, rfl, .teamkillByUnknown h1 h2 h3 h4 h⟩
  rw [e]
  simp only
  have hno : NoOneName text := ⟨h1, h2, h3, h4, h5⟩
  rw [killerFirst_pats, victimFirst_pats, ← List.map_append]
  have := fragPatternLoop_result text (killerFirstPhrases ++ victimFirstPhrases) (fun _ h => h)
  generalize fragPatternLoop text _ = r at this ⊢
  cases this with
  | none h => exact .inr ⟨rfl, hno, h⟩
  | @some before after p x y e h hm =>
    left
    rcases List.append_eq_append_iff.mp e with ⟨a', ha, hb⟩ | ⟨b', ha, hb⟩
    · -- the pattern is among the second list
      have hp : p ∈ victimFirstPhrases := by rw [hb]; simp
      rw [pats_disjoint p hp]
      refine ⟨_, rfl, .fragVictimFirst (p := p) hno ?_ ⟨a', after, hb, ?_, hm⟩⟩
      · intro q hq; exact h q (by rw [ha]; simp [hq])
      · intro q hq; exact h q (by rw [ha]; simp [hq])
    · cases b' with
      | nil =>
        simp at hb ha
        have hp : p ∈ victimFirstPhrases := by rw [← hb]; simp
        rw [pats_disjoint p hp]
        refine ⟨_, rfl, .fragVictimFirst (p := p) hno ?_ ⟨[], after, by simp [hb], by simp, hm⟩⟩
        intro q hq; exact h q (by rw [← ha]; exact hq)
      | cons p' b' =>
        simp only [List.cons_append, List.cons.injEq] at hb
        obtain ⟨rfl, rfl⟩ := hb
        have hp : p ∈ killerFirstPhrases := by rw [ha]; simp
        rw [pats_killer p hp]
        exact ⟨_, rfl, .fragKillerFirst (p := p) hno ⟨before, b', ha, h, hm⟩⟩

theorem fragPatternLoop_first {text x y : Str} {p : TwoNames} {after : List TwoNames}
    (hp : p ∈ killerFirstPhrases ++ victimFirstPhrases) (hm : p.Matches text x y) : ∀ before : List TwoNames,
    (∀ q ∈ before, q ∈ killerFirstPhrases ++ victimFirstPhrases) → (∀ q ∈ before, ∀ x y, ¬ q.Matches text x y) →
    fragPatternLoop text ((before ++ p :: after).map pat) =
      if X_FRAG_Y.contains (pat p) then .ok (.frag x y) else .ok (.frag y x)
  | [], _, _ => by
    obtain ⟨h1, h2⟩ := pats_ok p hp
    simp only [List.nil_append, List.map_cons, fragPatternLoop, (patternMatch_iff h1 h2).mpr hm]
  | q :: before, hb, hn => by
    have ih := fragPatternLoop_first (after := after) hp hm before (fun a ha => hb a (by simp [ha]))
      (fun a ha => hn a (by simp [ha]))
    simp only [List.cons_append, List.map_cons, fragPatternLoop,
      (patternMatch_none (hb q (by simp))).mpr (hn q (by simp)), ih]

/-- The loop is reached when no one-name class applies. -/
theorem tryFrom_noOneName {text : Str} (h : NoOneName text) :
    FragEvent.tryFrom text = fragPatternLoop text ((killerFirstPhrases ++ victimFirstPhrases).map pat) := by
  unfold FragEvent.tryFrom
  rw [X_DEATH_eq, X_SUICIDE_BY_WEAPON_eq, X_SUICIDE_eq, X_TEAMKILL_UNKNOWN_eq, UNKNOWN_TEAMKILL_X_eq,
    findAny_none_iff.mpr h.death, findAny_none_iff.mpr h.weapon, findAny_none_iff.mpr h.teamkill,
    findAny_none_iff.mpr h.teamkillByUnknown, killerFirst_pats, victimFirst_pats]
  simp [endsWith_iff, h.suicide]

theorem suicide_ends {text player : Str} {n : Nat} (h : text = player ++ (List.replicate (n + 1) suicidePhrase).flatten) :
    suicidePhrase <:+ text := by
  rw [h, List.replicate_succ', List.flatten_append, ← List.append_assoc]
  simp only [List.flatten_cons, List.flatten_nil, List.append_nil]
  exact ⟨_, rfl⟩

/-- The classifier finds the meaning of every text that has one. -/
theorem tryFrom_of_classifies {text : Str} {o : Obituary} (h : Classifies text o) :
    ∃ e, FragEvent.tryFrom text = .ok e ∧ e.spec = o := by
  cases h with
  | fragKillerFirst h1 h =>
    obtain ⟨b, a, e, hn, hm⟩ := h
    rw [tryFrom_noOneName h1, e, List.append_assoc, List.cons_append, fragPatternLoop_first (by rw [e]; simp) hm b
      (by intro q hq; rw [e]; simp [hq]) hn, if_pos (pats_killer _ (by rw [e]; simp))]
    exact ⟨_, rfl, rfl⟩
  | fragVictimFirst h1 h2 h =>
    obtain ⟨b, a, e, hn, hm⟩ := h
    rw [tryFrom_noOneName h1, e, ← List.append_assoc, fragPatternLoop_first (by rw [e]; simp) hm (killerFirstPhrases ++ b)
      (by intro q hq; rw [e]; simp only [List.mem_append] at hq ⊢; rcases hq with hq | hq <;> simp [hq])
      (by intro q hq; simp only [List.mem_append] at hq; rcases hq with hq | hq; exacts [h2 q hq, hn q hq]),
      if_neg (by rw [pats_disjoint _ (by rw [e]; simp)]; simp)]
    exact ⟨_, rfl, rfl⟩
  | death h =>
    unfold FragEvent.tryFrom
    rw [X_DEATH_eq, findAny_some_iff.mpr h]
    exact ⟨_, rfl, rfl⟩
  | suicideByWeapon h1 h =>
    unfold FragEvent.tryFrom
    rw [X_DEATH_eq, X_SUICIDE_BY_WEAPON_eq, findAny_none_iff.mpr h1, findAny_some_iff.mpr h]
    exact ⟨_, rfl, rfl⟩
  | suicide h1 h2 h hl =>
    unfold FragEvent.tryFrom
    rw [X_DEATH_eq, X_SUICIDE_BY_WEAPON_eq, X_SUICIDE_eq, findAny_none_iff.mpr h1, findAny_none_iff.mpr h2]
    simp only [endsWith_iff]
    rw [if_pos (suicide_ends h), trimEndMatches_eq (by decide) h hl]
    exact ⟨_, rfl, rfl⟩
  | teamkill h1 h2 h3 h =>
    unfold FragEvent.tryFrom
    rw [X_DEATH_eq, X_SUICIDE_BY_WEAPON_eq, X_SUICIDE_eq, X_TEAMKILL_UNKNOWN_eq, findAny_none_iff.mpr h1,
      findAny_none_iff.mpr h2, findAny_some_iff.mpr h]
    simp only [endsWith_iff]
    rw [if_neg h3]
    exact ⟨_, rfl, rfl⟩
  | teamkillByUnknown h1 h2 h3 h4 h =>
    unfold FragEvent.tryFrom
    rw [X_DEATH_eq, X_SUICIDE_BY_WEAPON_eq, X_SUICIDE_eq, X_TEAMKILL_UNKNOWN_eq, UNKNOWN_TEAMKILL_X_eq,
      findAny_none_iff.mpr h1, findAny_none_iff.mpr h2, findAny_none_iff.mpr h4, findAny_some_iff.mpr h]
    simp only [endsWith_iff]
    rw [if_neg h3]
    exact ⟨_, rfl, rfl⟩

theorem FragEvent.spec_inj {a b : FragEvent} (h : a.spec = b.spec) : a = b := by
  cases a <;> cases b <;> simp_all [FragEvent.spec]

/-! ### Flag messages -/

/-- The meaning of a classified flag message. -/
def FlagEvent.kind : FlagEvent → FlagKind
  | .capturedFlag _ => .captured
  | .gotFlag _ => .got
  | .defendsFlag _ => .defendsFlag
  | .defendsFlagCarrier _ => .defendsCarrier
  | .defendsFlagCarrierVsAggressive _ => .defendsCarrierVsAggressive
  | .returnedFlag _ => .returned
  | .returnedFlagAssist _ => .assist

/-- The player of a classified flag message. -/
def FlagEvent.player : FlagEvent → Str
  | .capturedFlag p | .gotFlag p | .defendsFlag p | .defendsFlagCarrier p | .defendsFlagCarrierVsAggressive p
  | .returnedFlag p | .returnedFlagAssist p => p

/-- The constructor of each kind. -/
def ofKind : FlagKind → Str → FlagEvent
  | .captured => .capturedFlag
  | .got => .gotFlag
  | .defendsFlag => .defendsFlag
  | .defendsCarrier => .defendsFlagCarrier
  | .defendsCarrierVsAggressive => .defendsFlagCarrierVsAggressive
  | .returned => .returnedFlag
  | .assist => .returnedFlagAssist

theorem flagTypes_eq : flagPrintTypes = flagPhrases.map fun c => (ofKind c.1, c.2) := rfl

theorem ofKind_iff {e : FlagEvent} {k : FlagKind} {p : Str} : ofKind k p = e ↔ e.kind = k ∧ e.player = p := by
  cases e <;> cases k <;> simp [ofKind, FlagEvent.kind, FlagEvent.player, eq_comm]

theorem flagPrintLoop_iff {text : Str} {ev : FlagEvent} : ∀ cs : List (FlagKind × List Str),
    flagPrintLoop text (cs.map fun c => (ofKind c.1, c.2)) = .ok ev ↔
      ∃ before phrases after i, cs = before ++ (ev.kind, phrases) :: after ∧
        (∀ c ∈ before, NoPhrase c.2 text) ∧ FirstPhrase phrases text i ∧ ev.player = text.take i
  | [] => by simp [flagPrintLoop]
  | (k, ph) :: cs => by
    simp only [List.map_cons, flagPrintLoop]
    rcases findAny_cases ph text with ⟨i, e, h⟩ | ⟨e, h⟩
    · unfold findAny at e
      rw [e]
      simp only [R.ok.injEq, ofKind_iff]
      constructor
      · rintro ⟨rfl, hp⟩
        exact ⟨[], ph, cs, i, rfl, by simp, h, hp⟩
      · rintro ⟨b, ph', a, j, e', hb, hj, hp⟩
        cases b with
        | nil =>
          simp only [List.nil_append, List.cons.injEq, Prod.mk.injEq] at e'
          obtain ⟨⟨rfl, rfl⟩, _⟩ := e'
          rw [FirstPhrase.unique h hj]
          exact ⟨rfl, hp⟩
        | cons c b =>
          simp only [List.cons_append, List.cons.injEq] at e'
          obtain ⟨rfl, _⟩ := e'
          exact absurd (hb (k, ph) (by simp)) (FirstPhrase.not_none h)
    · unfold findAny at e
      rw [e]
      simp only
      rw [flagPrintLoop_iff cs]
      constructor
      · rintro ⟨b, ph', a, j, rfl, hb, hj, hp⟩
        refine ⟨(k, ph) :: b, ph', a, j, rfl, ?_, hj, hp⟩
        intro c hc
        simp only [List.mem_cons] at hc
        rcases hc with rfl | hc
        exacts [h, hb c hc]
      · rintro ⟨b, ph', a, j, e', hb, hj, hp⟩
        cases b with
        | nil =>
          simp only [List.nil_append, List.cons.injEq, Prod.mk.injEq] at e'
          obtain ⟨⟨rfl, rfl⟩, _⟩ := e'
          exact absurd h (FirstPhrase.not_none hj)
        | cons c b =>
          simp only [List.cons_append, List.cons.injEq] at e'
          obtain ⟨rfl, rfl⟩ := e'
          exact ⟨b, ph', a, j, rfl, fun c hc => hb c (by simp [hc]), hj, hp⟩

theorem flagPrintLoop_none {text : Str} : ∀ cs : List (FlagKind × List Str),
    (∃ ev, flagPrintLoop text (cs.map fun c => (ofKind c.1, c.2)) = .ok ev) ∨
    (flagPrintLoop text (cs.map fun c => (ofKind c.1, c.2)) = .err .flagEvent ∧ ∀ c ∈ cs, NoPhrase c.2 text)
  | [] => .inr ⟨rfl, by simp⟩
  | (k, ph) :: cs => by
    simp only [List.map_cons, flagPrintLoop]
    rcases findAny_cases ph text with ⟨i, e, h⟩ | ⟨e, h⟩
    · unfold findAny at e
      rw [e]
      exact .inl ⟨_, rfl⟩
    · unfold findAny at e
      rw [e]
      rcases flagPrintLoop_none cs with h' | ⟨h1, h2⟩
      · exact .inl h'
      · refine .inr ⟨h1, ?_⟩
        intro c hc
        simp only [List.mem_cons] at hc
        rcases hc with rfl | hc
        exacts [h, h2 c hc]

/-! ### Phrases as words -/

/-- Words, each with a space before it. -/
def spaced (ws : List Str) : Str := ws.flatMap fun w => ' ' :: w

/-- The words of a phrase beginning with a space. -/
def wordsOf : Str → List Str
  | [] => [[]]
  | c :: s => if c = ' ' then [] :: wordsOf s else match wordsOf s with
    | [] => [[c]]
    | w :: ws => (c :: w) :: ws

/-- The first words agree and the last word of the phrase begins the corresponding word. -/
def PrefixMatch : List Str → List Str → Prop
  | [], _ => True
  | _ :: _, [] => False
  | [q], w :: _ => q <+: w
  | q :: q2 :: qs, w :: ws => q = w ∧ PrefixMatch (q2 :: qs) ws

theorem space_split {a b s t : Str} (ha : ' ' ∉ a) (hb : ' ' ∉ b) (h : a ++ ' ' :: s = b ++ ' ' :: t) : a = b ∧ s = t := by
  induction a generalizing b with
  | nil =>
    cases b with
    | nil => simpa using h
    | cons c b => simp at h; exact absurd (List.mem_cons.mpr (.inl h.1)) hb
  | cons c a ih =>
    cases b with
    | nil => simp at h; exact absurd (List.mem_cons.mpr (.inl h.1.symm)) ha
    | cons d b =>
      simp only [List.cons_append, List.cons.injEq] at h
      obtain ⟨rfl, h⟩ := h
      obtain ⟨rfl, rfl⟩ := ih (fun hm => ha (by simp [hm])) (fun hm => hb (by simp [hm])) h
      exact ⟨rfl, rfl⟩

theorem spaced_cons (w : Str) (ws : List Str) : spaced (w :: ws) = ' ' :: w ++ spaced ws := rfl

theorem spaced_prefix : ∀ {qs ws : List Str} {post : Str}, (∀ q ∈ qs, ' ' ∉ q) → (∀ w ∈ ws, ' ' ∉ w) →
    spaced ws = spaced qs ++ post → PrefixMatch qs ws
  | [], _, _, _, _, _ => trivial
  | q :: qs, [], post, _, _, h => by simp [spaced] at h
  | [q], w :: ws, post, hq, hw, h => by
    simp only [PrefixMatch]
    simp only [spaced_cons, List.cons_append, List.cons.injEq, true_and] at h
    simp only [spaced, List.flatMap_nil, List.append_nil] at h
    rcases List.append_eq_append_iff.mp h with ⟨a, rfl, ha⟩ | ⟨a, rfl, ha⟩
    · cases ws with
      | nil =>
        simp at ha
        rw [ha.1]; simp
      | cons w2 ws =>
        cases a with
        | nil => simp
        | cons c a =>
          simp only [List.flatMap_cons, List.cons_append, List.cons.injEq] at ha
          obtain ⟨rfl, _⟩ := ha
          exact absurd (show ' ' ∈ w ++ ' ' :: a by simp) (hq _ (by simp))
    · exact ⟨a, rfl⟩
  | q :: q2 :: qs, w :: ws, post, hq, hw, h => by
    simp only [PrefixMatch]
    simp only [spaced_cons, List.cons_append, List.cons.injEq, true_and, List.append_assoc] at h
    cases ws with
    | nil =>
      exfalso
      simp [spaced] at h
      apply hw w (by simp)
      rw [h]; simp
    | cons w2 ws =>
      simp only [spaced_cons, List.cons_append] at h
      obtain ⟨rfl, h1⟩ := space_split (hw _ (by simp)) (hq _ (by simp)) h
      refine ⟨rfl, ?_⟩
      apply spaced_prefix (post := post) (fun a ha => hq a (by simp [ha])) (fun a ha => hw a (by simp [ha]))
      simp only [spaced_cons, List.cons_append, List.append_assoc, h1]

/-- A phrase of words that occurs in a text of words matches somewhere in it. -/
theorem occurs_words {q : Str} {qs : List Str} (hq : ∀ a ∈ q :: qs, ' ' ∉ a) : ∀ {ws : List Str} {x : Str}, ' ' ∉ x →
    (∀ w ∈ ws, ' ' ∉ w) → Occurs (spaced (q :: qs)) (x ++ spaced ws) → ∃ t, t <:+ ws ∧ PrefixMatch (q :: qs) t
  | ws, x, hx, hw, ⟨pre, post, e⟩ => by
    rw [List.append_assoc] at e
    rcases List.append_eq_append_iff.mp e with ⟨a, rfl, ha⟩ | ⟨a, rfl, ha⟩
    · cases a with
      | nil => exact ⟨ws, List.suffix_refl _, spaced_prefix hq hw (post := post) (by simpa using ha)⟩
      | cons c a =>
        cases ws with
        | nil => simp [spaced] at ha
        | cons w ws =>
          simp only [spaced_cons, List.cons_append, List.cons.injEq] at ha
          obtain ⟨rfl, ha⟩ := ha
          obtain ⟨t, ht, hm⟩ := occurs_words hq (ws := ws) (x := w) (hw w (by simp)) (fun b hb => hw b (by simp [hb]))
            ⟨a, post, by simp only [spaced_cons, List.cons_append, List.append_assoc] at ha ⊢; exact ha⟩
          exact ⟨t, ht.trans (List.suffix_cons ..), hm⟩
    · cases a with
      | nil => exact ⟨ws, List.suffix_refl _, spaced_prefix hq hw (post := post) (by simpa using ha.symm)⟩
      | cons c a =>
        simp only [spaced_cons, List.cons_append, List.cons.injEq] at ha
        obtain ⟨rfl, _⟩ := ha
        exact absurd hx (by simp)

/-- A word of a message: a fixed one, or the second name followed by something fixed. -/
inductive TWord where
  | const (w : Str)
  | name (after : Str)
deriving DecidableEq

/-- The word for a given second name. -/
def TWord.word (y : Str) : TWord → Str
  | .const w => w
  | .name s => y ++ s

/-- Whether a word of a phrase can be equal to a word of the message. -/
def mayEq (q : Str) : TWord → Bool
  | .const w => q == w
  | .name [] => !oneWordPhrases.contains q
  | .name (c :: _) => q.contains c

/-- Whether the last word of a phrase can begin a word of the message. -/
def mayPrefix (q : Str) : TWord → Bool
  | .const w => q.isPrefixOf w
  | .name [] => !oneWordPhrases.contains q
  | .name (c :: _) => !oneWordPhrases.contains q || q.contains c

/-- Whether a phrase can match at the beginning. -/
def mayMatch : List Str → List TWord → Bool
  | [], _ => true
  | _ :: _, [] => false
  | [q], w :: _ => mayPrefix q w
  | q :: q2 :: qs, w :: ws => mayEq q w && mayMatch (q2 :: qs) ws

/-- Whether a phrase can match anywhere. -/
def mayOccur (qs : List Str) : List TWord → Bool
  | [] => mayMatch qs []
  | w :: ws => mayMatch qs (w :: ws) || mayOccur qs ws

theorem mayPrefix_of {q y : Str} {w : TWord} (hy : PlainSecondName y) (h : q <+: w.word y) : mayPrefix q w = true := by
  match w with
  | .const w => simpa [mayPrefix, TWord.word] using h
  | .name [] =>
    simp only [TWord.word, List.append_nil] at h
    simp only [mayPrefix, Bool.not_eq_true', List.contains_eq_mem, decide_eq_false_iff_not]
    exact fun hm => hy.start q hm h
  | .name (c :: s) =>
    simp only [mayPrefix, Bool.or_eq_true, Bool.not_eq_true', List.contains_eq_mem, decide_eq_false_iff_not, decide_eq_true_eq]
    refine Classical.or_iff_not_imp_left.mpr fun hm => ?_
    have hm := Classical.not_not.mp hm
    obtain ⟨z, e⟩ := h
    simp only [TWord.word] at e
    rcases List.append_eq_append_iff.mp e with ⟨a, rfl, _⟩ | ⟨a, rfl, ha⟩
    · exact absurd ⟨a, rfl⟩ (hy.start q hm)
    · cases a with
      | nil => exact absurd ⟨[], by simp⟩ (hy.start _ hm)
      | cons d a =>
        simp only [List.cons_append, List.cons.injEq] at ha
        simp [ha.1]

theorem mayEq_of {q y : Str} {w : TWord} (hy : PlainSecondName y) (h : q = w.word y) : mayEq q w = true := by
  match w with
  | .const w => simpa [mayEq, TWord.word] using h
  | .name [] =>
    simp only [TWord.word, List.append_nil] at h
    simp only [mayEq, Bool.not_eq_true', List.contains_eq_mem, decide_eq_false_iff_not]
    exact fun hm => hy.start q hm (h ▸ List.prefix_refl _)
  | .name (c :: s) => simp [mayEq, h, TWord.word]

theorem mayMatch_of {y : Str} (hy : PlainSecondName y) : ∀ {qs : List Str} {ts : List TWord},
    PrefixMatch qs (ts.map (·.word y)) → mayMatch qs ts = true
  | [], _, _ => by simp [mayMatch]
  | q :: qs, [], h => by simp [PrefixMatch] at h
  | [q], w :: ws, h => by
    simp only [List.map_cons, PrefixMatch] at h
    simpa [mayMatch] using mayPrefix_of hy h
  | q :: q2 :: qs, w :: ws, h => by
    simp only [List.map_cons, PrefixMatch] at h
    simp [mayMatch, mayEq_of hy h.1, mayMatch_of hy h.2]

theorem mayOccur_of {y : Str} (hy : PlainSecondName y) {qs : List Str} : ∀ {ts : List TWord} {t : List Str},
    t <:+ ts.map (·.word y) → PrefixMatch qs t → mayOccur qs ts = true
  | [], t, ht, h => by
    simp at ht
    subst ht
    exact mayMatch_of (ts := []) hy h
  | w :: ws, t, ht, h => by
    simp only [List.map_cons, List.suffix_cons_iff] at ht
    simp only [mayOccur, Bool.or_eq_true]
    rcases ht with rfl | ht
    · left; exact mayMatch_of (ts := w :: ws) hy h
    · right; exact mayOccur_of hy ht h

/-- A phrase that cannot match does not occur. -/
theorem not_occurs_of_words {q : Str} {qs : List Str} {ts : List TWord} {x y : Str} (hq : ∀ a ∈ q :: qs, ' ' ∉ a)
    (hx : ' ' ∉ x) (hy : PlainSecondName y) (hts : ∀ t ∈ ts, ' ' ∉ t.word []) (h : mayOccur (q :: qs) ts = false) :
    ¬ Occurs (spaced (q :: qs)) (x ++ spaced (ts.map (·.word y))) := by
  intro ho
  obtain ⟨t, ht, hm⟩ := occurs_words hq hx (by
    intro w hw
    obtain ⟨t, ht, rfl⟩ := List.mem_map.mp hw
    have := hts t ht
    cases t with
    | const w => exact this
    | name s =>
      simp only [TWord.word, List.nil_append] at this ⊢
      simp [hy.space, this]) ho
  rw [mayOccur_of hy ht hm] at h
  simp at h

/-- A phrase is its words. -/
def okPhrase (q : Str) : Bool := q == spaced (wordsOf q.tail) && (wordsOf q.tail).all (fun w => !w.contains ' ')

theorem wordsOf_ne_nil : ∀ s : Str, wordsOf s ≠ []
  | [] => by simp [wordsOf]
  | c :: s => by
    rw [wordsOf]
    split
    · simp
    · split <;> simp

/-- Whether none of the phrases can occur in a message with these words. -/
def noneOccurs (qs : List Str) (ts : List TWord) : Bool :=
  ts.all (fun t => !(t.word []).contains ' ') && qs.all (fun q => okPhrase q && !mayOccur (wordsOf q.tail) ts)

theorem not_occurs_phrase {q : Str} {ts : List TWord} {x y : Str} (hx : ' ' ∉ x) (hy : PlainSecondName y)
    (hq : okPhrase q = true) (hts : ∀ t ∈ ts, ' ' ∉ t.word []) (h : mayOccur (wordsOf q.tail) ts = false) :
    ¬ Occurs q (x ++ spaced (ts.map (·.word y))) := by
  simp only [okPhrase, Bool.and_eq_true, beq_iff_eq, List.all_eq_true, Bool.not_eq_true', List.contains_eq_mem,
    decide_eq_false_iff_not] at hq
  obtain ⟨e, hw⟩ := hq
  rw [e]
  cases hwo : wordsOf q.tail with
  | nil => exact absurd hwo (wordsOf_ne_nil _)
  | cons a as =>
    rw [hwo] at h hw
    exact not_occurs_of_words hw hx hy hts h

theorem noPhrase_of {qs : List Str} {ts : List TWord} {x y : Str} (hx : ' ' ∉ x) (hy : PlainSecondName y)
    (h : noneOccurs qs ts = true) : NoPhrase qs (x ++ spaced (ts.map (·.word y))) := by
  simp only [noneOccurs, Bool.and_eq_true, List.all_eq_true, Bool.not_eq_true', List.contains_eq_mem,
    decide_eq_false_iff_not] at h
  intro q hq
  exact not_occurs_phrase hx hy (h.2 q hq).1 h.1 (h.2 q hq).2

theorem plain_nil : PlainSecondName [] := ⟨by simp, by simp, by decide⟩

theorem consts_word (ws : List Str) : (ws.map TWord.const).map (·.word []) = ws := by
  simp [TWord.word, Function.comp_def]

/-- The words of a message with one name. -/
def oneNameWords (p : Str) : List TWord := (wordsOf p.tail).map .const

theorem okPhrase_eq {p : Str} (h : okPhrase p = true) : p = spaced ((oneNameWords p).map (·.word [])) := by
  rw [oneNameWords, consts_word]
  simp only [okPhrase, Bool.and_eq_true, beq_iff_eq] at h
  exact h.1

theorem firstAt_char {c : Char} {x q z : Str} (hx : c ∉ x) : FirstAt (c :: q) (x ++ c :: q ++ z) x.length := by
  refine ⟨⟨x, z, rfl, rfl⟩, ?_⟩
  rintro j ⟨pre, post, e, rfl⟩
  refine Nat.le_of_not_lt fun hlt => hx ?_
  have h1 : (x ++ c :: q ++ z)[pre.length]? = some c := by rw [e]; simp
  rw [List.append_assoc, List.getElem?_append_left hlt] at h1
  exact List.mem_of_getElem? h1

theorem okPhrase_space {p : Str} (h : okPhrase p = true) : ∃ q, p = ' ' :: q := by
  simp only [okPhrase, Bool.and_eq_true, beq_iff_eq] at h
  cases hw : wordsOf p.tail with
  | nil => exact absurd hw (wordsOf_ne_nil _)
  | cons a as =>
    refine ⟨a ++ spaced as, ?_⟩
    rw [h.1, hw]; rfl

/-- One-name messages: the phrase is found right after the name. -/
theorem firstPhrase_of {phrases : List Str} {p x : Str} (hx : ' ' ∉ x) (hp : p ∈ phrases) (hok : okPhrase p = true)
    (h : noneOccurs (phrases.filter (· ≠ p)) (oneNameWords p) = true) : FirstPhrase phrases (x ++ p) x.length := by
  obtain ⟨before, after, e, hn⟩ := List.eq_append_cons_of_mem hp
  refine ⟨before, p, after, e, ?_, ?_⟩
  · intro q hq
    have := noPhrase_of hx plain_nil h q (by
      simp only [ne_eq, decide_not, List.mem_filter, e, List.mem_append, hq, true_or, Bool.not_eq_true', decide_eq_false_iff_not,
        true_and]
      intro e; exact hn (e ▸ hq))
    rwa [← okPhrase_eq hok] at this
  · obtain ⟨q, rfl⟩ := okPhrase_space hok
    simpa using firstAt_char (q := q) (z := []) hx

theorem noPhrase_one {qs : List Str} {p x : Str} (hx : ' ' ∉ x) (hok : okPhrase p = true)
    (h : noneOccurs qs (oneNameWords p) = true) : NoPhrase qs (x ++ p) := by
  have := noPhrase_of hx plain_nil h
  rwa [← okPhrase_eq hok] at this

/-! ### Two names -/

/-- The part of the end of a phrase that belongs to the word of the second name, and the words after it. -/
def afterWords (p : TwoNames) : List Str :=
  if p.after.dropWhile (· ≠ ' ') = [] then [] else wordsOf (p.after.dropWhile (· ≠ ' ')).tail

/-- The words of a message with two names. -/
def twoNameWords (p : TwoNames) : List TWord :=
  (wordsOf p.between.tail).dropLast.map .const ++ .name (p.after.takeWhile (· ≠ ' ')) :: (afterWords p).map .const

/-- A two-name phrase is its words. -/
def okTwo (p : TwoNames) : Bool :=
  p.between == spaced ((wordsOf p.between.tail).dropLast ++ [[]]) && okPhrase p.between &&
  p.after == p.after.takeWhile (· ≠ ' ') ++ spaced (afterWords p) &&
  (p.after == [] || p.after.head? == some '\'' || p.after.head? == some ' ') &&
  (p.after == [] || (okPhrase (p.after.dropWhile (· ≠ ' '))))

/-- The message of a phrase. -/
theorem okTwo_eq {p : TwoNames} (h : okTwo p = true) (x y : Str) :
    x ++ p.between ++ y ++ p.after = x ++ spaced ((twoNameWords p).map (·.word y)) := by
  simp only [okTwo, Bool.and_eq_true, beq_iff_eq] at h
  obtain ⟨⟨⟨⟨h1, _⟩, h2⟩, _⟩, _⟩ := h
  have e : (twoNameWords p).map (·.word y) =
      (wordsOf p.between.tail).dropLast ++ (y ++ p.after.takeWhile (· ≠ ' ')) :: afterWords p := by
    simp [twoNameWords, TWord.word, Function.comp_def]
  rw [e]
  conv => lhs; rw [h1, h2]
  simp [spaced]

theorem occurs_after_char {c : Char} {q y t : Str} (hy : c ∉ y) (h : Occurs (c :: q) (y ++ t)) : Occurs (c :: q) t := by
  obtain ⟨pre, post, e⟩ := h
  rw [List.append_assoc] at e
  rcases List.append_eq_append_iff.mp e with ⟨a, rfl, ha⟩ | ⟨a, rfl, ha⟩
  · exact ⟨a, post, by simpa using ha⟩
  · cases a with
    | nil => exact ⟨[], post, by simpa using ha.symm⟩
    | cons d a =>
      simp only [List.cons_append, List.cons.injEq] at ha
      obtain ⟨rfl, _⟩ := ha
      exact absurd hy (by simp)

/-- Whether none of the two-name phrases can match a message with phrase `p`. -/
def noneMatches (qs : List TwoNames) (p : TwoNames) : Bool :=
  (twoNameWords p).all (fun t => !(t.word []).contains ' ') && qs.all (fun q => okTwo q &&
    (!mayOccur (wordsOf q.between.tail) (twoNameWords p) ||
      (q.after != [] && !mayOccur (wordsOf (q.after.dropWhile (· ≠ ' ')).tail) (twoNameWords p)) ||
      (q.between == p.between && q.after.head? == some '\'' && (find q.after p.after).isNone)))

theorem noMatch_of {qs : List TwoNames} {p : TwoNames} {x y : Str} (hx : ' ' ∉ x) (hy : PlainSecondName y)
    (hp : okTwo p = true) (h : noneMatches qs p = true) :
    ∀ q ∈ qs, ∀ a b, ¬ q.Matches (x ++ p.between ++ y ++ p.after) a b := by
  simp only [noneMatches, Bool.and_eq_true, List.all_eq_true, Bool.not_eq_true', List.contains_eq_mem,
    decide_eq_false_iff_not, Bool.or_eq_true, bne_iff_ne, beq_iff_eq, Option.isNone_iff_eq_none] at h
  rintro q hq a b ⟨rest, e, hf, hr⟩
  obtain ⟨hok, hm⟩ := h.2 q hq
  simp only [okTwo, Bool.and_eq_true, beq_iff_eq, Bool.or_eq_true] at hok
  obtain ⟨⟨⟨⟨_, hb⟩, _⟩, _⟩, ha⟩ := hok
  have ew := okTwo_eq hp x y
  rcases hm with (hm | ⟨hne, hm⟩) | ⟨⟨h1, h2⟩, h3⟩
  · exact not_occurs_phrase hx hy hb h.1 hm ⟨a, rest, ew ▸ e⟩
  · rw [if_neg hne] at hr
    obtain ⟨z, er, _⟩ := hr
    rcases ha with ha | ha
    · exact hne ha
    · refine not_occurs_phrase hx hy ha h.1 hm ⟨a ++ q.between ++ b ++ q.after.takeWhile (· ≠ ' '), z, ?_⟩
      rw [← ew, e, er]
      conv => lhs; rw [← List.takeWhile_append_dropWhile (p := (· ≠ ' ')) (l := q.after)]
      simp only [List.append_assoc]
  · cases hqa : q.after with
    | nil => rw [hqa] at h2; simp at h2
    | cons c s =>
      rw [hqa] at h2
      simp only [List.head?_cons, Option.some.injEq] at h2
      subst h2
      rw [hqa, if_neg (by simp)] at hr
      obtain ⟨z, er, _⟩ := hr
      simp only [okTwo, Bool.and_eq_true, beq_iff_eq, Bool.or_eq_true] at hp
      obtain ⟨⟨⟨⟨_, hpb⟩, _⟩, _⟩, _⟩ := hp
      have hax : a.length = x.length := by
        rw [h1] at hf
        refine hf.unique ?_
        obtain ⟨w, ew⟩ := okPhrase_space hpb
        rw [ew, List.append_assoc _ y]
        exact firstAt_char hx
      have e2 : x ++ (p.between ++ (y ++ p.after)) = a ++ (q.between ++ rest) := by simpa using e
      obtain ⟨_, e3⟩ := List.append_inj e2 hax.symm
      rw [h1] at e3
      have e4 := List.append_cancel_left e3
      have := occurs_after_char hy.apostrophe (e4 ▸ ⟨b, z, er⟩ : Occurs ('\'' :: s) (y ++ p.after))
      rw [hqa, find_eq_none_iff] at h3
      exact h3 this

/-- The names of a two-name message. -/
theorem matches_message {p : TwoNames} {x y : Str} (hx : ' ' ∉ x) (hy : PlainSecondName y) (h : okTwo p = true) :
    p.Matches (x ++ p.between ++ y ++ p.after) x y := by
  simp only [okTwo, Bool.and_eq_true, beq_iff_eq, Bool.or_eq_true] at h
  obtain ⟨⟨⟨⟨_, hb⟩, _⟩, ha⟩, _⟩ := h
  refine ⟨y ++ p.after, by simp, ?_, ?_⟩
  · obtain ⟨q, e⟩ := okPhrase_space hb
    rw [e, List.append_assoc]
    exact firstAt_char hx
  · split
    · rename_i e; simp [e]
    · rename_i hne
      refine ⟨[], by simp, ?_⟩
      rcases ha with (ha | ha) | ha
      · exact absurd ha hne
      · cases he : p.after with
        | nil => exact absurd he hne
        | cons c s =>
          rw [he] at ha
          simp at ha
          subst ha
          simpa using firstAt_char (q := s) (z := []) hy.apostrophe
      · cases he : p.after with
        | nil => exact absurd he hne
        | cons c s =>
          rw [he] at ha
          simp at ha
          subst ha
          simpa using firstAt_char (q := s) (z := []) hy.space

theorem firstMatch_of {phrases : List TwoNames} {p : TwoNames} {x y : Str} (hx : ' ' ∉ x) (hy : PlainSecondName y)
    (hp : p ∈ phrases) (hok : okTwo p = true) (h : noneMatches (phrases.filter (· ≠ p)) p = true) :
    FirstMatch phrases (x ++ p.between ++ y ++ p.after) x y p := by
  obtain ⟨before, after, e, hn⟩ := List.eq_append_cons_of_mem hp
  refine ⟨before, after, e, ?_, matches_message hx hy hok⟩
  intro q hq
  exact noMatch_of hx hy hok h q (by
      simp only [ne_eq, decide_not, List.mem_filter, e, List.mem_append, hq, true_or, Bool.not_eq_true', decide_eq_false_iff_not,
        true_and]
      intro e; exact hn (e ▸ hq))

/-- The phrases tried before the two-name ones. -/
def oneNamePhrases : List Str :=
  deathPhrases ++ weaponPhrases ++ [suicidePhrase] ++ teamkillPhrases ++ teamkillByUnknownPhrases

theorem noOneName_of {p : TwoNames} {x y : Str} (hx : ' ' ∉ x) (hy : PlainSecondName y) (hok : okTwo p = true)
    (h : noneOccurs oneNamePhrases (twoNameWords p) = true) : NoOneName (x ++ p.between ++ y ++ p.after) := by
  have := noPhrase_of hx hy h
  rw [← okTwo_eq hok] at this
  refine ⟨?_, ?_, ?_, ?_, ?_⟩
  · exact fun q hq => this q (by simp [oneNamePhrases, hq])
  · exact fun q hq => this q (by simp [oneNamePhrases, hq])
  · rintro ⟨t, e⟩
    exact this suicidePhrase (by simp [oneNamePhrases]) ⟨t, [], by rw [← e]; simp⟩
  · exact fun q hq => this q (by simp [oneNamePhrases, hq])
  · exact fun q hq => this q (by simp [oneNamePhrases, hq])

end Mvd
