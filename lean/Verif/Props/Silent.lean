import Verif.Props.Content
import Verif.Props.Loss
import Verif.Props.Ambush
import Verif.Props.Open

/-! C95: frames without messages. A server writes many frames that carry nothing; they can be inserted and removed anywhere
without any effect on what is counted. -/

namespace Mvd
open Spec

/-- The frames that carry something. -/
def spoken (fs : List Frame) : List Frame := fs.filter fun f => f.body ≠ []

theorem spoken_cons_nil {f : Frame} (fs : List Frame) (h : f.body = []) : spoken (f :: fs) = spoken fs := by
  unfold spoken
  rw [List.filter_cons_of_neg (by simpa using h)]

theorem spoken_cons {f : Frame} (fs : List Frame) (h : f.body ≠ []) : spoken (f :: fs) = f :: spoken fs := by
  unfold spoken
  rw [List.filter_cons_of_pos (by simpa using h)]

theorem forall2_spoken {α : Type} {P : Frame → List α → Prop} (h0 : ∀ f l, f.body = [] → P f l → l = []) {fs : List Frame}
    {ls : List (List α)} (h : List.Forall₂ P fs ls) :
    ∃ ls', List.Forall₂ P (spoken fs) ls' ∧ ls'.flatten = ls.flatten ∧ ∀ p : List α → Bool, p [] = false → ls'.filter p = ls.filter p := by
  induction h with
  | nil => exact ⟨[], .nil, rfl, fun _ _ => rfl⟩
  | @cons f l fs ls hf _ ih =>
    obtain ⟨ls', h1, h2, h3⟩ := ih
    by_cases hb : f.body = []
    · have hl := h0 f l hb hf
      refine ⟨ls', spoken_cons_nil fs hb ▸ h1, by rw [h2, hl]; rfl, fun p hp => ?_⟩
      rw [h3 p hp, hl, List.filter_cons_of_neg (by simp [hp])]
    · refine ⟨l :: ls', spoken_cons fs hb ▸ .cons hf h1, by simp [h2], fun p hp => ?_⟩
      rw [List.filter_cons, List.filter_cons, h3 p hp]

theorem spoken_bodies {fs fs' : List Frame} (he : (fs.map Frame.body).filter (· ≠ []) = (fs'.map Frame.body).filter (· ≠ [])) :
    (spoken fs).map Frame.body = (spoken fs').map Frame.body := by
  rw [List.filter_map, List.filter_map] at he
  exact he

theorem nearby_spoken (more : Bytes) (l : List Frame) : nearbyUpdates more (spoken l) = nearbyUpdates more l := by
  unfold nearbyUpdates spoken
  rw [List.filter_filter]
  simp

theorem charge_silent {u : Bytes → Str} {cs : List Client} {f : Frame} {l : List Frame} {c : Option (Str × Int)} (hf : f.body = [])
    (h : Charge u cs f l c) : c = none := by
  have no : ∀ {text more}, ¬ Announces u f.body text more := by
    rintro text more ⟨p, _, _, _, e, _⟩
    rw [hf] at e
    simp [PrintMsg.encode] at e
  cases h with
  | frag a b => exact absurd a no
  | death a b => exact absurd a no
  | suicide a b => exact absurd a no
  | suicideByWeapon a b => exact absurd a no
  | teamkill a b => exact absurd a no
  | blamed a b c => exact absurd a no
  | unsolved a b c => rfl
  | nothing h => rfl

theorem charges_spoken {u : Bytes → Str} {cs : List Client} {fs : List Frame} {c : List (Str × Int)} (h : Charges u cs fs c) :
    Charges u cs (spoken fs) c := by
  induction h with
  | nil => exact .nil
  | @cons f fs c charges h _ ih =>
    by_cases hf : f.body = []
    · rw [charge_silent hf h, spoken_cons_nil _ hf]
      exact ih
    · rw [spoken_cons _ hf]
      exact .cons (charge_nearby (fun m => (nearby_spoken m fs).symm) h) ih

theorem needs_spoken {u : Bytes → Str} {fs : List Frame} :
    (∃ before f later, spoken fs = before ++ f :: later ∧ NeedsClients u f later) ↔
    ∃ before f later, fs = before ++ f :: later ∧ NeedsClients u f later := by
  have silent : ∀ {f l}, NeedsClients u f l → f.body ≠ [] := by
    rintro f l ⟨t, m, v, ⟨p, _, _, _, e, _⟩, _⟩ hb
    rw [hb] at e
    simp [PrintMsg.encode] at e
  have later : ∀ {f l}, NeedsClients u f (spoken l) ↔ NeedsClients u f l := by
    intro f l
    unfold NeedsClients
    simp only [nearby_spoken]
  constructor
  · rintro ⟨a, f, l, e, hn⟩
    obtain ⟨a', r, rfl, _, h2⟩ := List.filter_eq_append_iff.mp e
    obtain ⟨b', l', rfl, _, _, h3⟩ := List.filter_eq_cons_iff.mp h2
    refine ⟨a' ++ b', f, l', by simp, later.mp ?_⟩
    unfold spoken
    rw [h3]
    exact hn
  · rintro ⟨a, f, l, rfl, hn⟩
    refine ⟨spoken a, f, spoken l, ?_, later.mpr hn⟩
    have := spoken_cons l (silent hn)
    unfold spoken at this ⊢
    rw [List.filter_append, this]

/-- C95: the prints depend only on the bodies of the frames that carry something. -/
theorem C95_prints (g : Env) (data data' : Bytes) (fs fs' : List Frame) (rest rest' : Bytes)
    (h : Splits data fs rest) (hs : Stops data.length rest) (h' : Splits data' fs' rest') (hs' : Stops data'.length rest')
    (he : (fs.map Frame.body).filter (· ≠ []) = (fs'.map Frame.body).filter (· ≠ [])) : prints g data = prints g data' := by
  obtain ⟨pss, hp⟩ := leading_exists fs
  obtain ⟨pss', hp'⟩ := leading_exists fs'
  have h0 : ∀ (f : Frame) l, f.body = [] → LeadingPrints f.body l → l = [] := by
    intro f l hb hl
    rw [hb] at hl
    exact leadingPrints_unique hl ⟨[], rfl, by simp, by rintro p t _ e; simp [PrintMsg.encode] at e⟩
  obtain ⟨q, q1, q2, _⟩ := forall2_spoken h0 hp
  obtain ⟨q', q1', q2', _⟩ := forall2_spoken h0 hp'
  have := forall2_unique (P := fun (f : Frame) us => LeadingPrints f.body us) (fun _ _ _ h k => leadingPrints_unique h k)
    (forall2_bodies (spoken_bodies he) q1) q1'
  rw [prints_stops g h hs hp, prints_stops g h' hs' hp', ← q2, ← q2', this]

/-- C95: so do the flag events. -/
theorem C95_flags (g : Env) (data data' : Bytes) (fs fs' : List Frame) (rest rest' : Bytes)
    (h : Splits data fs rest) (hs : Stops data.length rest) (h' : Splits data' fs' rest') (hs' : Stops data'.length rest')
    (he : (fs.map Frame.body).filter (· ≠ []) = (fs'.map Frame.body).filter (· ≠ [])) :
    flagEventsPerPlayerName g data = flagEventsPerPlayerName g data' := by
  obtain ⟨pss, hp⟩ := forall2_exists (flagTexts_exists g.toUnicode) fs
  obtain ⟨pss', hp'⟩ := forall2_exists (flagTexts_exists g.toUnicode) fs'
  have h0 : ∀ (f : Frame) l, f.body = [] → FlagTexts g.toUnicode f l → l = [] := by
    rintro f l hb (⟨⟨i, ho⟩, _⟩ | ⟨_, rfl⟩)
    · rw [hb] at ho
      simp at ho
    · rfl
  obtain ⟨q, q1, q2, _⟩ := forall2_spoken h0 hp
  obtain ⟨q', q1', q2', _⟩ := forall2_spoken h0 hp'
  have := forall2_unique (P := FlagTexts g.toUnicode) (fun _ _ _ h k => flagTexts_unique h k)
    (forall2_bodies (P := fun b ts => FlagTexts g.toUnicode ⟨0, 0, [], b⟩ ts) (spoken_bodies he) q1) q1'
  unfold flagEventsPerPlayerName
  rw [flagPrints_stops g h hs hp, flagPrints_stops g h' hs' hp', ← q2, ← q2', this]

/-- C95: so do the pings. -/
theorem C95_pings (g : Env) (data data' : Bytes) (fs fs' : List Frame) (rest rest' : Bytes)
    (h : Splits data fs rest) (hs : Stops data.length rest) (h' : Splits data' fs' rest') (hs' : Stops data'.length rest')
    (he : (fs.map Frame.body).filter (· ≠ []) = (fs'.map Frame.body).filter (· ≠ [])) :
    pingPerPlayerNumber g data = pingPerPlayerNumber g data' := by
  obtain ⟨pss, hp⟩ := pings_exists fs
  obtain ⟨pss', hp'⟩ := pings_exists fs'
  have h0 : ∀ (f : Frame) l, f.body = [] → LeadingPings f.body l → l = [] := by
    intro f l hb hl
    rw [hb] at hl
    cases hl
    rfl
  obtain ⟨q, q1, _, q2⟩ := forall2_spoken h0 hp
  obtain ⟨q', q1', _, q2'⟩ := forall2_spoken h0 hp'
  have hq := forall2_unique (P := fun (f : Frame) us => LeadingPings f.body us) (fun _ _ _ h k => leadingPings_unique h k)
    (forall2_bodies (spoken_bodies he) q1) q1'
  have hw : sampledPings pss = sampledPings pss' := by
    unfold sampledPings
    rw [← q2 _ (by simp), ← q2' _ (by simp), hq]
  obtain ⟨n, e⟩ := totalPings_eq g h (.inl hs) hp
  obtain ⟨n', e'⟩ := totalPings_eq g h' (.inl hs') hp'
  unfold pingPerPlayerNumber
  rw [e, e', hw]
  rfl

/-- C95: and so do the scores, anonymous teamkills and panics included, if the clients are the same. -/
theorem C95_frags (g : Env) (data data' : Bytes) (fs fs' : List Frame) (rest rest' : Bytes)
    (h : Splits data fs rest) (hs : Stops data.length rest) (h' : Splits data' fs' rest') (hs' : Stops data'.length rest')
    (he : (fs.map Frame.body).filter (· ≠ []) = (fs'.map Frame.body).filter (· ≠ [])) (hc : clients g data = clients g data') :
    fragsPerPlayerName g data = fragsPerPlayerName g data' := by
  have hb := spoken_bodies he
  have both : ∀ cs, (∀ a f l, fs = a ++ f :: l → ClientsFor g data cs f l) →
      (∀ a f l, fs' = a ++ f :: l → ClientsFor g data' cs f l) →
      fragsPerPlayerName g data = fragsPerPlayerName g data' := by
    intro cs h1 h2
    obtain ⟨c, hch⟩ := charges_exists g.toUnicode cs fs
    obtain ⟨c', hch'⟩ := charges_exists g.toUnicode cs fs'
    have : c = c' := charges_unique (charges_bodies hb (charges_spoken hch)) (charges_spoken hch')
    rw [frags_charges g h hs h1 hch, frags_charges g h' hs' h2 hch', this]
  have hneeds : (∃ before f later, fs = before ++ f :: later ∧ NeedsClients g.toUnicode f later) ↔
      ∃ before f later, fs' = before ++ f :: later ∧ NeedsClients g.toUnicode f later := by
    rw [← needs_spoken, ← needs_spoken (fs := fs')]
    exact ⟨needs_bodies hb, needs_bodies hb.symm⟩
  by_cases hn : ∃ before f later, fs = before ++ f :: later ∧ NeedsClients g.toUnicode f later
  · cases hcl : clients g data with
    | ok cs => exact both cs (fun _ _ _ _ => .inl hcl) (fun _ _ _ _ => .inl (hc ▸ hcl))
    | err e => exact both [] (fun _ _ _ _ => .inr (.inl ⟨⟨e, hcl⟩, rfl⟩)) (fun _ _ _ _ => .inr (.inl ⟨⟨e, hc ▸ hcl⟩, rfl⟩))
    | panic => rw [C26_panic g data fs rest h hs hcl hn, C26_panic g data' fs' rest' h' hs' (hc ▸ hcl) (hneeds.mp hn)]
    | hang => exact absurd hcl (clients_halts g data)
  · exact both [] (fun a f l e => .inr (.inr fun k => hn ⟨a, f, l, e, k⟩))
      (fun a f l e => .inr (.inr fun k => hn (hneeds.mpr ⟨a, f, l, e, k⟩)))

/-- The hypotheses are met by a match with an anonymous teamkill, in which frames without messages lie between the teamkill and
the score update that tells the killer. -/
example : ∃ fs fs' : List Frame, fs ≠ fs' ∧ (∀ f ∈ fs, f.WF) ∧ (∀ f ∈ fs', f.WF) ∧
    (fs.map Frame.body).filter (· ≠ []) = (fs'.map Frame.body).filter (· ≠ []) ∧
    clients Example.debug (Spec.encode fs) = clients Example.debug (Spec.encode fs') ∧
    fragsPerPlayerName Example.debug (Spec.encode fs') = .ok [(chars!"a", 1), (chars!"b", -1)] :=
  ⟨Example.ambushFrames, Example.ambushFrames.take 4 ++ Example.all [] :: Example.ambushFrames.drop 4 ++ [Example.all []],
    by decide +kernel, by decide +kernel, by decide +kernel, by decide +kernel, by decide +kernel, by decide +kernel⟩

/-- C95: a frame that carries anything at all between the teamkill and the update hides the killer. -/
theorem C95_witness : ∃ (a b : List Frame) (f : Frame), (∀ x ∈ a ++ f :: b, x.WF) ∧ f.body = [1] ∧
    clients Example.debug (Spec.encode (a ++ b)) = clients Example.debug (Spec.encode (a ++ f :: b)) ∧
    fragsPerPlayerName Example.debug (Spec.encode (a ++ b)) = .ok [(chars!"a", 1), (chars!"b", -1)] ∧
    fragsPerPlayerName Example.debug (Spec.encode (a ++ f :: b)) = .ok [(chars!"a", 1)] :=
  ⟨Example.ambushFrames.take 4, Example.ambushFrames.drop 4, Example.all [1], by decide +kernel, rfl, by decide +kernel,
    by decide +kernel, by decide +kernel⟩

/-- The hypotheses of `C27_far` are met by chat after an anonymous teamkill and the score update that tells the killer. -/
example : NoOpenTeamkill Example.debug.toUnicode (Example.ambushFrames.take 6) ∧ ¬ LeadsWithMedium (Example.said bytes!"b: sorry") ∧
    (∀ x ∈ (Example.ambushFrames.take 6) ++ [Example.said bytes!"b: sorry"], x.WF) ∧
    clients Example.debug (Spec.encode (Example.ambushFrames.take 6)) =
      clients Example.debug (Spec.encode ((Example.ambushFrames.take 6) ++ [Example.said bytes!"b: sorry"])) ∧
    fragsPerPlayerName Example.debug (Spec.encode ((Example.ambushFrames.take 6) ++ [Example.said bytes!"b: sorry"])) =
      .ok [(chars!"a", 1), (chars!"b", -1)] := by
  refine ⟨?_, ?_, by decide +kernel, by decide +kernel, by decide +kernel⟩
  · rintro before x later t m v e ⟨p, _, _, _, hb, _⟩ _
    have h8 : x.body.head? = some 8 := by rw [hb]; rfl
    have key : ∀ k < 6, ((Example.ambushFrames.take 6)[k]?.bind fun f => f.body.head?) = some 8 →
        2 ≤ (((Example.ambushFrames.take 6).drop (k + 1)).filter fun f => f.body ≠ []).length := by decide +kernel
    have hk : before.length < 6 := by
      have := congrArg List.length e
      simp only [List.length_append, List.length_cons, show (Example.ambushFrames.take 6).length = 6 from rfl] at this
      omega
    have := key before.length hk (by rw [e]; simpa using h8)
    rw [e] at this
    simpa using this
  · rintro ⟨p, more, _, hl, _, e⟩
    simp [Example.said, PrintMsg.encode, hl] at e

/-- C89: chat between an anonymous teamkill and the score update that tells the killer hides the killer. -/
theorem C89_unknown_witness :
    fragsPerPlayerName Example.debug (Spec.encode Example.ambushFrames) = .ok [(chars!"a", 1), (chars!"b", -1)] ∧
    fragsPerPlayerName Example.debug (Spec.encode (Example.ambushFrames.take 4 ++ Example.said bytes!"b: sorry" ::
      Example.ambushFrames.drop 4)) = .ok [(chars!"a", 1)] := by
  decide +kernel

end Mvd
