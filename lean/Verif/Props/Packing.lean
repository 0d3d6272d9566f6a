import Verif.Spec.Packing
import Verif.Spec.Recorder
import Verif.Props.Content
import Verif.Props.Awards

/-! C112: how messages are packed into frames. -/

namespace Mvd
open Spec

theorem leadingPrints_append {x y : Bytes} {ps qs : List PrintMsg} (hp : ∀ p ∈ ps, p.WF) (hx : x = ps.flatMap PrintMsg.encode)
    (hy : LeadingPrints y qs) : LeadingPrints (x ++ y) (ps ++ qs) := by
  obtain ⟨rem, e, hq, hn⟩ := hy
  refine ⟨rem, by rw [hx, e]; simp, fun p h => ?_, hn⟩
  rcases List.mem_append.mp h with h | h
  · exact hp p h
  · exact hq p h

theorem leadingPrints_whole {x : Bytes} {ps : List PrintMsg} (hp : ∀ p ∈ ps, p.WF) (hx : x = ps.flatMap PrintMsg.encode) :
    LeadingPrints x ps := ⟨[], by simp [hx], hp, noPrint_nil⟩

theorem leadingPings_append {x : Bytes} (hx : WholePings x) : ∃ us, LeadingPings x us ∧ ∀ {y vs}, LeadingPings y vs →
    LeadingPings (x ++ y) (us ++ vs) := by
  induction hx with
  | nil => exact ⟨[], .stop (by simp [NoPing]), fun h => h⟩
  | @cons n lo hi a b c t _ ih =>
    obtain ⟨us, h1, h2⟩ := ih
    exact ⟨_ :: us, .step (t := b :: c :: t) h1, fun h => .step (t := b :: c :: (t ++ _)) (h2 h)⟩

/-- All the messages found in payloads that are packed differently. -/
theorem repacked_flatten {α : Type} {P : Bytes → List α → Prop} {Cut : Bytes → Bytes → Prop}
    (hex : ∀ b, ∃ l, P b l) (hun : ∀ b l m, P b l → P b m → l = m)
    (hc : ∀ x y, Cut x y → ∀ l, P y l → ∃ k, P x k ∧ P (x ++ y) (k ++ l)) {bs bs' : List Bytes} (h : Repacked Cut bs bs') :
    ∀ {ls ls'}, List.Forall₂ P bs ls → List.Forall₂ P bs' ls' → ls.flatten = ls'.flatten := by
  have key : ∀ {a b : List Bytes} {x y : Bytes} {ls ls' : List (List α)}, Cut x y → List.Forall₂ P (a ++ (x ++ y) :: b) ls →
      List.Forall₂ P (a ++ x :: y :: b) ls' → ls.flatten = ls'.flatten := by
    intro a b x y ls ls' hcut h1 h2
    obtain ⟨la, ha⟩ := forall2_exists hex a
    obtain ⟨lb, hb⟩ := forall2_exists hex b
    obtain ⟨l, hl⟩ := hex y
    obtain ⟨k, hk, hkl⟩ := hc x y hcut l hl
    have e1 := forall2_unique hun h1 (List.rel_append ha (.cons hkl hb))
    have e2 := forall2_unique hun h2 (List.rel_append ha (.cons hk (.cons hl hb)))
    rw [e1, e2]
    simp
  induction h with
  | same => intro ls ls' h1 h2; rw [forall2_unique hun h1 h2]
  | split hcut _ ih =>
    intro ls ls' h1 h2
    obtain ⟨m, hm⟩ := forall2_exists hex _
    exact (ih h1 hm).trans (key hcut hm h2)
  | join hcut _ ih =>
    intro ls ls' h1 h2
    obtain ⟨m, hm⟩ := forall2_exists hex _
    exact (ih h1 hm).trans (key hcut h2 hm).symm

/-- C112: it does not matter for the prints in which frames they come. -/
theorem C112_prints (g : Env) (data data' : Bytes) (fs fs' : List Frame) (rest rest' : Bytes)
    (h : Splits data fs rest) (hs : Stops data.length rest) (h' : Splits data' fs' rest') (hs' : Stops data'.length rest')
    (he : Repacked (fun x _ => WholePrints x) (fs.map Frame.body) (fs'.map Frame.body)) : prints g data = prints g data' := by
  obtain ⟨pss, hp⟩ := leading_exists fs
  obtain ⟨pss', hp'⟩ := leading_exists fs'
  have := repacked_flatten (P := LeadingPrints) (fun b => leadingPrints_exists _ b (Nat.le_refl _))
    (fun _ _ _ h k => leadingPrints_unique h k) (by
      rintro x y ⟨ps, hw, hx⟩ l hl
      exact ⟨ps, leadingPrints_whole hw hx, leadingPrints_append hw hx hl⟩) he
    (List.forall₂_map_left_iff.mpr hp) (List.forall₂_map_left_iff.mpr hp')
  rw [prints_stops g h hs hp, prints_stops g h' hs' hp', this]

theorem sampled_all {uss : List (List (UInt8 × Nat))} (h : (uss.filter fun us => us ≠ []).length ≤ 8) :
    sampledPings uss = uss.flatten := by
  unfold sampledPings
  rw [List.take_of_length_le h]
  clear h
  induction uss with
  | nil => rfl
  | cons us uss ih => by_cases hu : us = [] <;> simp [hu] <;> simpa using ih

open Classical in
/-- C112: nor for the pings, if there are not more than eight such frames either way. -/
theorem C112_pings (g : Env) (data data' : Bytes) (fs fs' : List Frame) (rest rest' : Bytes)
    (h : Splits data fs rest) (hs : Stops data.length rest) (h' : Splits data' fs' rest') (hs' : Stops data'.length rest')
    (he : Repacked (fun x _ => WholePings x) (fs.map Frame.body) (fs'.map Frame.body))
    (h8 : (fs.filter fun f => decide (¬ NoPing f.body)).length ≤ 8) (h8' : (fs'.filter fun f => decide (¬ NoPing f.body)).length ≤ 8) :
    pingPerPlayerNumber g data = pingPerPlayerNumber g data' := by
  obtain ⟨uss, hu⟩ := pings_exists fs
  obtain ⟨uss', hu'⟩ := pings_exists fs'
  have := repacked_flatten (P := LeadingPings) (fun b => leadingPings_exists _ b (Nat.le_refl _))
    (fun _ _ _ h k => leadingPings_unique h k) (by
      intro x y hx l hl
      obtain ⟨us, h1, h2⟩ := leadingPings_append hx
      exact ⟨us, h1, h2 hl⟩) he
    (List.forall₂_map_left_iff.mpr hu) (List.forall₂_map_left_iff.mpr hu')
  have s1 := sampled_all (by rw [← (pings_filter hu).length_eq]; exact h8)
  have s2 := sampled_all (by rw [← (pings_filter hu').length_eq]; exact h8')
  obtain ⟨n, e⟩ := totalPings_eq g h (.inl hs) hu
  obtain ⟨n', e'⟩ := totalPings_eq g h' (.inl hs') hu'
  unfold pingPerPlayerNumber
  rw [e, e', s1, s2, this]
  rfl

/-! ### Flag events -/

theorem inPairs_append (u : Bytes → Str) : ∀ (n : Nat) (l m : List Bytes), l.length = 2 * n →
    inPairs u (l ++ m) = inPairs u l ++ inPairs u m
  | 0, [], _, _ => rfl
  | 0, _ :: _, _, h => by simp at h
  | _ + 1, [], _, h => by simp at h
  | _ + 1, [_], _, h => by simp at h; omega
  | n + 1, a :: b :: l, m, h => by
    simp only [List.cons_append, inPairs]
    rw [inPairs_append u n l m (by simp at h; omega)]

theorem allPrints_append {y : Bytes} {qs : List PrintMsg} (hy : AllPrints y qs) : ∀ {ps : List PrintMsg}, (∀ p ∈ ps, p.WF) →
    AllPrints (ps.flatMap PrintMsg.encode ++ y) (ps ++ qs)
  | [], _ => hy
  | p :: ps, h => by
    rw [List.flatMap_cons, List.append_assoc]
    exact .print (h p (by simp)) (allPrints_append hy fun q hq => h q (by simp [hq]))

/-- C112: nor for the flag events, if frames are cut between pairs of high-level prints and the word is in both parts. -/
theorem C112_flags (g : Env) (data data' : Bytes) (fs fs' : List Frame) (rest rest' : Bytes)
    (h : Splits data fs rest) (hs : Stops data.length rest) (h' : Splits data' fs' rest') (hs' : Stops data'.length rest')
    (he : Repacked CutBetweenPairs (fs.map Frame.body) (fs'.map Frame.body)) :
    flagEventsPerPlayerName g data = flagEventsPerPlayerName g data' := by
  obtain ⟨tss, ht⟩ := forall2_exists (flagTexts_exists g.toUnicode) fs
  obtain ⟨tss', ht'⟩ := forall2_exists (flagTexts_exists g.toUnicode) fs'
  have := repacked_flatten (P := fun b ts => FlagTexts g.toUnicode ⟨0, 0, [], b⟩ ts) (fun b => flagTexts_exists g.toUnicode _)
    (fun b _ _ h k => flagTexts_unique h k) (by
      rintro x y ⟨⟨ps, hw, hx, n, hn⟩, ox, oy⟩ l hl
      rcases hl with ⟨_, qs, hq, rfl⟩ | ⟨ho, _⟩
      · have hp : AllPrints x ps := by
          have := allPrints_append .nil hw
          simpa [hx] using this
        refine ⟨_, .inl ⟨ox, ps, hp, rfl⟩, .inl ⟨?_, ps ++ qs, by rw [hx]; exact allPrints_append hq hw, ?_⟩⟩
        · obtain ⟨v, w, e⟩ := ox
          exact ⟨v, w ++ y, by simp [e]⟩
        · rw [List.filter_append, List.map_append, inPairs_append _ n _ _ (by simpa using hn)]
      · exact absurd oy ho) he
    (List.forall₂_map_left_iff.mpr ht) (List.forall₂_map_left_iff.mpr ht')
  unfold flagEventsPerPlayerName
  rw [flagPrints_stops g h hs ht, flagPrints_stops g h' hs' ht', this]

/-! ### Scores -/

/-- A frame with a payload, whenever and to whomever. -/
def frameOf (b : Bytes) : Frame := ⟨0, 0, [], b⟩

theorem announces_cut {u : Bytes → Str} {x y : Bytes} {p : PrintMsg} {more : Bytes} (hp : p.WF) (hx : x = p.encode ++ more)
    {text : Str} : (∃ m, Announces u (x ++ y) text m) ↔ ∃ m, Announces u x text m := by
  constructor
  · rintro ⟨m, q, hq, h1, h2, e, ht⟩
    obtain ⟨rfl, _⟩ := print_encode_inj hp hq (by rw [← e, hx, List.append_assoc] : p.encode ++ (more ++ y) = q.encode ++ m)
    exact ⟨more, p, hp, h1, h2, hx, ht⟩
  · rintro ⟨m, q, hq, h1, h2, e, ht⟩
    exact ⟨m ++ y, q, hq, h1, h2, by rw [e, List.append_assoc], ht⟩

theorem notAnonymous_cut {u : Bytes → Str} {f f1 : Frame} {y : Bytes} {p : PrintMsg} {more : Bytes} (hp : p.WF)
    (hx : f1.body = p.encode ++ more) (hf : f.body = f1.body ++ y) : NotAnonymous u f ↔ NotAnonymous u f1 := by
  unfold NotAnonymous
  rw [hf]
  constructor
  · intro h text m v ha
    obtain ⟨m', ha'⟩ := (announces_cut (y := y) hp hx).mpr ⟨m, ha⟩
    exact h text m' v ha'
  · intro h text m v ha
    obtain ⟨m', ha'⟩ := (announces_cut hp hx).mp ⟨m, ha⟩
    exact h text m' v ha'

theorem charge_cut {u : Bytes → Str} {cs : List Client} {f f1 : Frame} {y : Bytes} {p : PrintMsg} {more : Bytes} (hp : p.WF)
    (hx : f1.body = p.encode ++ more) (hf : f.body = f1.body ++ y) (hn : NotAnonymous u f1) {l l' : List Frame}
    {c : Option (Str × Int)} (h : Charge u cs f1 l c) : Charge u cs f l' c := by
  have up : ∀ {text m}, Announces u f1.body text m → ∃ m', Announces u f.body text m' := by
    intro text m ha
    rw [hf]
    exact (announces_cut hp hx).mpr ⟨m, ha⟩
  cases h with
  | frag a b => obtain ⟨_, a⟩ := up a; exact .frag a b
  | death a b => obtain ⟨_, a⟩ := up a; exact .death a b
  | suicide a b => obtain ⟨_, a⟩ := up a; exact .suicide a b
  | suicideByWeapon a b => obtain ⟨_, a⟩ := up a; exact .suicideByWeapon a b
  | teamkill a b => obtain ⟨_, a⟩ := up a; exact .teamkill a b
  | blamed a b _ => exact absurd b (hn _ _ _ a)
  | unsolved a b _ => exact absurd b (hn _ _ _ a)
  | nothing h =>
    refine .nothing fun t m o a => ?_
    rw [hf] at a
    obtain ⟨m', a'⟩ := (announces_cut hp hx).mp ⟨m, a⟩
    exact h t m' o a'

/-- Scores in demos without anonymous teamkills. -/
theorem frags_named (g : Env) {data : Bytes} {fs : List Frame} {rest : Bytes} {c : List (Str × Int)} (h : Splits data fs rest)
    (hs : Stops data.length rest) (hn : ∀ f ∈ fs, NotAnonymous g.toUnicode f) (hc : Charges g.toUnicode [] fs c) :
    fragsPerPlayerName g data = forR (applyCharge g) [] c := by
  refine frags_charges g h hs (fun a f l e => .inr (.inr ?_)) hc
  rintro ⟨t, m, v, ha, hc, _⟩
  exact hn f (by rw [e]; simp) t m v ha hc

theorem repacked_charges {u : Bytes → Str} {bs bs' : List Bytes} (h : Repacked CutBeforeOther bs bs')
    (hn : ∀ b ∈ bs, NotAnonymous u (frameOf b)) {c : List (Str × Int)} (hc : Charges u [] (bs.map frameOf) c) :
    (∀ b ∈ bs', NotAnonymous u (frameOf b)) ∧ Charges u [] (bs'.map frameOf) c := by
  have named : ∀ {a b : List Bytes} {x y : Bytes}, CutBeforeOther x y →
      ((∀ z ∈ a ++ (x ++ y) :: b, NotAnonymous u (frameOf z)) ↔ ∀ z ∈ a ++ x :: y :: b, NotAnonymous u (frameOf z)) := by
    rintro a b x y ⟨⟨p, more, hp, hx⟩, hy⟩
    have h1 : NotAnonymous u (frameOf (x ++ y)) ↔ NotAnonymous u (frameOf x) := notAnonymous_cut (f1 := frameOf x) hp hx rfl
    have h2 : NotAnonymous u (frameOf y) := by
      rintro t m v ⟨q, hq, l1, l2, e, _⟩
      exact absurd e (hy q m hq l1 l2)
    simp only [List.forall_mem_append, List.forall_mem_cons, h1, h2, true_and]
  have move : ∀ {a b : List Bytes} {x y : Bytes} {c : List (Str × Int)}, CutBeforeOther x y →
      (∀ z ∈ a ++ x :: y :: b, NotAnonymous u (frameOf z)) → Charges u [] ((a ++ x :: y :: b).map frameOf) c →
      Charges u [] ((a ++ (x ++ y) :: b).map frameOf) c := by
    rintro a b x y c ⟨⟨p, more, hp, hx⟩, hy⟩ hn hc
    rw [List.map_append] at hc ⊢
    have na : ∀ f ∈ a.map frameOf, NotAnonymous u f := by
      simp only [List.mem_map]
      rintro _ ⟨z, hz, rfl⟩
      exact hn z (by simp [hz])
    obtain ⟨ca, hca⟩ := charges_exists u [] (a.map frameOf)
    obtain ⟨cb, hcb⟩ := charges_exists u [] ((x :: y :: b).map frameOf)
    have e := charges_unique hc (charges_append hca hcb na)
    subst e
    refine charges_append hca ?_ na
    cases hcb with
    | @cons _ _ c1 _ h1 hcb =>
      cases hcb with
      | @cons _ _ c2 _ h2 hcb =>
        have : c2 = none := by
          refine charge_unique h2 (.nothing ?_)
          rintro t m o ⟨q, hq, l1, l2, e, _⟩
          exact absurd e (hy q m hq l1 l2)
        subst this
        exact .cons (charge_cut (f1 := frameOf x) (f := frameOf (x ++ y)) hp hx rfl (hn x (by simp)) h1) hcb
  induction h with
  | same => exact ⟨hn, hc⟩
  | split hcut _ ih =>
    have n1 := (named hcut).mp ih.1
    obtain ⟨c', hc'⟩ := charges_exists u [] _
    have := charges_unique ih.2 (move hcut n1 hc')
    exact ⟨n1, this ▸ hc'⟩
  | join hcut _ ih => exact ⟨(named hcut).mpr ih.1, move hcut ih.1 ih.2⟩

/-- C112: nor for the scores, if what is moved into a frame of its own, or behind a print into the frame before, does not begin
with a medium-level print, and there are no anonymous teamkills. -/
theorem C112_frags (g : Env) (data data' : Bytes) (fs fs' : List Frame) (rest rest' : Bytes)
    (h : Splits data fs rest) (hs : Stops data.length rest) (h' : Splits data' fs' rest') (hs' : Stops data'.length rest')
    (he : Repacked CutBeforeOther (fs.map Frame.body) (fs'.map Frame.body)) (hn : ∀ f ∈ fs, NotAnonymous g.toUnicode f) :
    fragsPerPlayerName g data = fragsPerPlayerName g data' := by
  obtain ⟨c, hc⟩ := charges_exists g.toUnicode [] fs
  obtain ⟨n', c'⟩ := repacked_charges he (u := g.toUnicode) (by
    simp only [List.mem_map]
    rintro _ ⟨f, hf, rfl⟩
    exact hn f hf) (charges_bodies (by simp [frameOf, Function.comp_def]) hc)
  rw [frags_named g h hs hn hc, frags_named g h' hs' (fun f hf => n' f.body (List.mem_map_of_mem hf))
    (charges_bodies (by simp [frameOf, Function.comp_def]) c')]

/-- C112: an obituary behind another print is not counted; in a frame of its own it is. -/
theorem C112_obituary (g : Env) (a b : List Frame) (f f1 f2 : Frame) (p : PrintMsg) (before more : Bytes) (text : Str) (o : Obituary)
    (who : Str) (worth : Int) (ha : ∀ x ∈ a, x.WF) (hf : f.WF) (hf1 : f1.WF) (hf2 : f2.WF) (hb : ∀ x ∈ b, x.WF)
    (hp : p.WF) (hbefore : f1.body = p.encode ++ before) (hbody : f.body = f1.body ++ f2.body)
    (hn : ∀ x ∈ a ++ f :: b, NotAnonymous g.toUnicode x)
    (hann : Announces g.toUnicode f2.body text more) (hc : Classifies text o) (hw : award o = some (who, worth))
    (hl : (Spec.encode (a ++ f1 :: f2 :: b)).length < 2 ^ 31) :
    fragsPerPlayerName g (Spec.encode (a ++ f :: b)) = fragsPerPlayerName g (Spec.encode (a ++ f1 :: b)) ∧
    ∃ m m', fragsPerPlayerName g (Spec.encode (a ++ f :: b)) = .ok m ∧
      fragsPerPlayerName g (Spec.encode (a ++ f1 :: f2 :: b)) = .ok m' ∧
      m'.get who = some ((m.get who).getD 0 + worth) ∧ ∀ name, name ≠ who → m'.get name = m.get name := by
  have hn1 : NotAnonymous g.toUnicode f1 := (notAnonymous_cut hp hbefore hbody).mp (hn f (by simp))
  have hn' : ∀ x ∈ a ++ f1 :: b, NotAnonymous g.toUnicode x := by
    simp only [List.forall_mem_append, List.forall_mem_cons] at hn ⊢
    exact ⟨hn.1, hn1, hn.2.2⟩
  have e : fragsPerPlayerName g (Spec.encode (a ++ f :: b)) = fragsPerPlayerName g (Spec.encode (a ++ f1 :: b)) := by
    obtain ⟨ca, hca⟩ := charges_exists g.toUnicode [] a
    obtain ⟨cb, hcb⟩ := charges_exists g.toUnicode [] b
    obtain ⟨c, hcf⟩ := charge_exists g.toUnicode [] f1 b
    have na : ∀ x ∈ a, NotAnonymous g.toUnicode x := fun x h => hn x (by simp [h])
    have w : ∀ {x}, Frame.WF x → ∀ y ∈ a ++ x :: b, y.WF := by
      intro x hx
      simp only [List.forall_mem_append, List.forall_mem_cons]
      exact ⟨ha, hx, hb⟩
    obtain ⟨s1, t1⟩ := splits_whole (w hf)
    obtain ⟨s2, t2⟩ := splits_whole (w hf1)
    rw [frags_named g s1 t1 hn (charges_append hca (.cons (charge_cut hp hbefore hbody hn1 hcf) hcb) na),
      frags_named g s2 t2 hn' (charges_append hca (.cons hcf hcb) na)]
  refine ⟨e, ?_⟩
  rw [e]
  have := C68_obituary g (a ++ [f1]) b f2 text more o who worth (by
    simp only [List.forall_mem_append, List.forall_mem_singleton]; exact ⟨ha, hf1⟩) hf2 hb (by simpa using hn') hann hc hw (by simpa using hl)
  simpa using this

/-! ### Examples -/

namespace Example

/-- Two obituaries in one frame, and in two. -/
def together : List Frame := [all (medium bytes!"c was gibbed by a's rocket\n" ++ medium bytes!"b suicides\n")]
def apart : List Frame := [all (medium bytes!"c was gibbed by a's rocket\n"), all (medium bytes!"b suicides\n")]

/-- Two flag messages in one frame, each in two prints, and in two. -/
def carried (name : Bytes) : Bytes := [8, 2] ++ name ++ [0, 8, 2] ++ bytesOf chars!" çïô the ÒÅÄ flag!\n" ++ [0]

end Example

/-- The same messages: the same prints, but other scores. -/
example : Repacked (fun x _ => WholePrints x) (Example.together.map Frame.body) (Example.apart.map Frame.body) ∧
    prints Example.debug (Spec.encode Example.together) = prints Example.debug (Spec.encode Example.apart) ∧
    fragsPerPlayerName Example.debug (Spec.encode Example.together) = .ok [(chars!"a", 1)] ∧
    fragsPerPlayerName Example.debug (Spec.encode Example.apart) = .ok [(chars!"a", 1), (chars!"b", -2)] :=
  ⟨.split (a := []) (b := []) ⟨[⟨1, bytes!"c was gibbed by a's rocket\n"⟩], by decide, by decide⟩ .same, by decide +kernel,
    by decide +kernel, by decide +kernel⟩

/-- Pings of two players in one frame, and in two. -/
example : ∃ fs fs' : List Frame, (∀ f ∈ fs ++ fs', f.WF) ∧
    Repacked (fun x _ => WholePings x) (fs.map Frame.body) (fs'.map Frame.body) ∧ fs.length = 1 ∧ fs'.length = 2 ∧
    pingPerPlayerNumber Example.debug (Spec.encode fs') = .ok [(0, 20), (1, 30)] :=
  ⟨[Example.all [36, 0, 20, 0, 53, 0, 0, 36, 1, 30, 0, 53, 1, 0]], [Example.all [36, 0, 20, 0, 53, 0, 0], Example.all [36, 1, 30, 0, 53, 1, 0]],
    by decide, .split (a := []) (b := []) (.cons .nil) .same, rfl, rfl, by decide +kernel⟩

/-- A score update goes along with the obituary, or in the next frame. -/
example : ∃ fs fs' : List Frame, (∀ f ∈ fs ++ fs', f.WF) ∧ Repacked CutBeforeOther (fs.map Frame.body) (fs'.map Frame.body) ∧
    fs.length = 1 ∧ fs'.length = 2 ∧ fragsPerPlayerName Example.debug (Spec.encode fs') = .ok [(chars!"b", -2)] := by
  refine ⟨[Example.all (Example.medium bytes!"b suicides\n" ++ [14, 1, 254, 255])],
    [Example.all (Example.medium bytes!"b suicides\n"), Example.all [14, 1, 254, 255]], by decide +kernel,
    .split (a := []) (b := []) ⟨⟨⟨1, bytes!"b suicides\n"⟩, [], by decide, by decide⟩, ?_⟩ .same, rfl, rfl, by decide +kernel⟩
  intro p more _ _ _ e
  rw [encode_eq] at e
  cases e

/-- Two flag messages. -/
example : ∃ fs fs' : List Frame, (∀ f ∈ fs ++ fs', f.WF) ∧ Repacked CutBetweenPairs (fs.map Frame.body) (fs'.map Frame.body) ∧
    fs.length = 1 ∧ fs'.length = 2 ∧
    flagEventsPerPlayerName Example.debug (Spec.encode fs') = .ok [(chars!"a", { pickups := 1 }), (chars!"b", { pickups := 1 })] := by
  refine ⟨[Example.all (Example.carried bytes!"a" ++ Example.carried bytes!"b")],
    [Example.all (Example.carried bytes!"a"), Example.all (Example.carried bytes!"b")], by decide +kernel,
    .split (a := []) (b := []) ⟨⟨[⟨2, bytes!"a"⟩, ⟨2, bytesOf chars!" çïô the ÒÅÄ flag!\n"⟩], by decide, by decide +kernel, by decide +kernel⟩,
      ⟨Example.carried bytes!"a" |>.take 19, [33, 10, 0], by decide +kernel⟩,
      ⟨Example.carried bytes!"b" |>.take 19, [33, 10, 0], by decide +kernel⟩⟩ .same, rfl, rfl, by decide +kernel⟩

/-- The hypotheses of `C112_obituary` are met by the two obituaries. -/
example : ∃ f f1 f2 : Frame, f.WF ∧ f1.WF ∧ f2.WF ∧ [f] = Example.together ∧ [f1, f2] = Example.apart ∧ f.body = f1.body ++ f2.body ∧
    (∃ p : PrintMsg, p.WF ∧ f1.body = p.encode ++ []) ∧ NotAnonymous Example.debug.toUnicode f ∧
    Announces Example.debug.toUnicode f2.body chars!"b suicides" [] ∧ Classifies chars!"b suicides" (.suicide chars!"b") ∧
    award (.suicide chars!"b") = some (chars!"b", -2) := by
  have hp : PrintMsg.WF ⟨1, bytes!"c was gibbed by a's rocket\n"⟩ := by decide
  refine ⟨_, _, _, by decide +kernel, by decide +kernel, by decide +kernel, rfl, rfl, rfl, ⟨_, hp, by decide +kernel⟩, ?_,
    ⟨⟨1, bytes!"b suicides\n"⟩, by decide, rfl, by decide, by decide, by
      have := trimEnd_trims (Example.debug.toUnicode bytes!"b suicides\n")
      have e : trimEnd (Example.debug.toUnicode bytes!"b suicides\n") = chars!"b suicides" := by decide +kernel
      rwa [e] at this⟩, (C24_classification chars!"b suicides" (.suicide chars!"b")).mp (by decide +kernel), rfl⟩
  intro text more v ha hc
  obtain ⟨rfl, _⟩ := announces_unique ha
    (⟨_, hp, rfl, by decide, rfl, trimEnd_trims _⟩ : Announces Example.debug.toUnicode
      (Example.medium bytes!"c was gibbed by a's rocket\n" ++ Example.medium bytes!"b suicides\n") _ _)
  have := (C24_classification _ (.teamkillByUnknown v)).mpr hc
  have h2 : FragEvent.tryFrom (trimEnd (Example.debug.toUnicode bytes!"c was gibbed by a's rocket\n")) =
      .ok (.frag chars!"a" chars!"c") := by decide +kernel
  rw [h2] at this
  cases this

end Mvd
