import Verif.Props.Prints
import Verif.Props.Ping
import Verif.Props.Growth
import Verif.Lemmas.Halt

/-! C66, C67 and C69: what the reports depend on, and what they do not depend on. -/

namespace Mvd
open Spec

/-! ### C66: times and recipients are irrelevant -/

theorem forall2_bodies {β : Type} {P : Bytes → β → Prop} : ∀ {fs fs' : List Frame} {l : List β},
    fs.map Frame.body = fs'.map Frame.body → List.Forall₂ (fun (f : Frame) b => P f.body b) fs l →
    List.Forall₂ (fun (f : Frame) b => P f.body b) fs' l
  | [], [], _, _, .nil => .nil
  | [], _ :: _, _, he, _ => by simp at he
  | _ :: _, [], _, he, _ => by simp at he
  | f :: fs, f' :: fs', _, he, .cons h t => by
    simp only [List.map_cons, List.cons.injEq] at he
    exact .cons (he.1 ▸ h) (forall2_bodies he.2 t)

theorem nearby_bodies (more : Bytes) {l l' : List Frame} (he : l.map Frame.body = l'.map Frame.body) :
    nearbyUpdates more l = nearbyUpdates more l' := by
  have key : ∀ l : List Frame, ((l.filter fun f => f.body ≠ []).take 2).filterMap (fun f => scoreUpdate f.body) =
      (((l.map Frame.body).filter fun b => b ≠ []).take 2).filterMap scoreUpdate := by
    intro l
    rw [List.filter_map, ← List.map_take, List.filterMap_map]
    rfl
  unfold nearbyUpdates
  rw [key, key, he]

theorem charge_bodies {u : Bytes → Str} {cs : List Client} {f f' : Frame} {l l' : List Frame} {c : Option (Str × Int)}
    (hb : f.body = f'.body) (he : l.map Frame.body = l'.map Frame.body) (h : Charge u cs f l c) : Charge u cs f' l' c := by
  cases h with
  | frag a b => exact .frag (hb ▸ a) b
  | death a b => exact .death (hb ▸ a) b
  | suicide a b => exact .suicide (hb ▸ a) b
  | suicideByWeapon a b => exact .suicideByWeapon (hb ▸ a) b
  | teamkill a b => exact .teamkill (hb ▸ a) b
  | blamed a b c => exact .blamed (hb ▸ a) b (nearby_bodies _ he ▸ c)
  | unsolved a b c => exact .unsolved (hb ▸ a) b (nearby_bodies _ he ▸ c)
  | nothing h => exact .nothing fun t m o a => h t m o (hb ▸ a)

theorem charges_bodies {u : Bytes → Str} {cs : List Client} : ∀ {fs fs' : List Frame} {c : List (Str × Int)},
    fs.map Frame.body = fs'.map Frame.body → Charges u cs fs c → Charges u cs fs' c
  | [], [], _, _, .nil => .nil
  | [], _ :: _, _, he, _ => by simp at he
  | _ :: _, [], _, he, _ => by simp at he
  | f :: fs, f' :: fs', _, he, .cons h t => by
    simp only [List.map_cons, List.cons.injEq] at he
    exact .cons (charge_bodies he.1 he.2 h) (charges_bodies he.2 t)

theorem needs_bodies {u : Bytes → Str} {fs fs' : List Frame} (he : fs.map Frame.body = fs'.map Frame.body)
    (h : ∃ before f later, fs = before ++ f :: later ∧ NeedsClients u f later) :
    ∃ before f later, fs' = before ++ f :: later ∧ NeedsClients u f later := by
  obtain ⟨a, f, l, e, t, m, v, ha, hc, hn⟩ := h
  rw [e, List.map_append, List.map_cons] at he
  obtain ⟨a', r, rfl, _, h2⟩ := List.map_eq_append_iff.mp he.symm
  obtain ⟨f', l', rfl, h3, h4⟩ := List.map_eq_cons_iff.mp h2
  exact ⟨a', f', l', rfl, t, m, v, h3 ▸ ha, hc, nearby_bodies m h4.symm ▸ hn⟩

/-- C66: demos whose frames carry the same messages have the same prints, whatever the times and the recipients are. -/
theorem C66_prints (g : Env) (data data' : Bytes) (fs fs' : List Frame) (rest rest' : Bytes)
    (h : Splits data fs rest) (hs : Stops data.length rest) (h' : Splits data' fs' rest') (hs' : Stops data'.length rest')
    (he : fs.map Frame.body = fs'.map Frame.body) : prints g data = prints g data' := by
  obtain ⟨pss, hp⟩ := leading_exists fs
  rw [prints_stops g h hs hp, prints_stops g h' hs' (forall2_bodies he hp)]

/-- C66: and the same flag events. -/
theorem C66_flags (g : Env) (data data' : Bytes) (fs fs' : List Frame) (rest rest' : Bytes)
    (h : Splits data fs rest) (hs : Stops data.length rest) (h' : Splits data' fs' rest') (hs' : Stops data'.length rest')
    (he : fs.map Frame.body = fs'.map Frame.body) : flagEventsPerPlayerName g data = flagEventsPerPlayerName g data' := by
  obtain ⟨tss, ht⟩ := forall2_exists (flagTexts_exists g.toUnicode) fs
  have ht' : List.Forall₂ (FlagTexts g.toUnicode) fs' tss :=
    forall2_bodies (P := fun b ts => FlagTexts g.toUnicode ⟨0, 0, [], b⟩ ts) he ht
  unfold flagEventsPerPlayerName
  rw [flagPrints_stops g h hs ht, flagPrints_stops g h' hs' ht']

/-- C66: and the same pings. -/
theorem C66_pings (g : Env) (data data' : Bytes) (fs fs' : List Frame) (rest rest' : Bytes)
    (h : Splits data fs rest) (hs : Stops data.length rest) (h' : Splits data' fs' rest') (hs' : Stops data'.length rest')
    (he : fs.map Frame.body = fs'.map Frame.body) : pingPerPlayerNumber g data = pingPerPlayerNumber g data' := by
  obtain ⟨uss, hu⟩ := pings_exists fs
  obtain ⟨n, e⟩ := totalPings_eq g h (.inl hs) hu
  obtain ⟨n', e'⟩ := totalPings_eq g h' (.inl hs') (forall2_bodies he hu)
  unfold pingPerPlayerNumber
  rw [e, e']
  rfl

/-- C66: and the same scores, if the client lists are the same. -/
theorem C66_frags (g : Env) (data data' : Bytes) (fs fs' : List Frame) (rest rest' : Bytes)
    (h : Splits data fs rest) (hs : Stops data.length rest) (h' : Splits data' fs' rest') (hs' : Stops data'.length rest')
    (he : fs.map Frame.body = fs'.map Frame.body) (hc : clients g data = clients g data') :
    fragsPerPlayerName g data = fragsPerPlayerName g data' := by
  have key : ∀ {data fs rest cs c}, Splits data fs rest → Stops data.length rest →
      (∀ a f l, fs = a ++ f :: l → ClientsFor g data cs f l) →
      Charges g.toUnicode cs fs c → fragsPerPlayerName g data = forR (applyCharge g) [] c := by
    intro data fs rest cs c h hs hn hc
    unfold fragsPerPlayerName
    rw [printFrames_stops g h hs]
    have := score_frames g (cs := cs) hs fs [] c [] h.2.1 (by simpa using h.1) hn hc
    simpa [R.bind] using this
  have both : ∀ cs, (∀ a f l, fs = a ++ f :: l → ClientsFor g data cs f l) →
      (∀ a f l, fs' = a ++ f :: l → ClientsFor g data' cs f l) →
      fragsPerPlayerName g data = fragsPerPlayerName g data' := by
    intro cs h1 h2
    obtain ⟨c, hch⟩ := charges_exists g.toUnicode cs fs
    rw [key h hs h1 hch, key h' hs' h2 (charges_bodies he hch)]
  by_cases hn : ∃ before f later, fs = before ++ f :: later ∧ NeedsClients g.toUnicode f later
  · cases hcl : clients g data with
    | ok cs => exact both cs (fun _ _ _ _ => .inl hcl) (fun _ _ _ _ => .inl (hc ▸ hcl))
    | err e => exact both [] (fun _ _ _ _ => .inr (.inl ⟨⟨e, hcl⟩, rfl⟩)) (fun _ _ _ _ => .inr (.inl ⟨⟨e, hc ▸ hcl⟩, rfl⟩))
    | panic => rw [C26_panic g data fs rest h hs hcl hn, C26_panic g data' fs' rest' h' hs' (hc ▸ hcl) (needs_bodies he hn)]
    | hang => exact absurd hcl (clients_halts g data)
  · refine both [] (fun a f l e => .inr (.inr fun k => hn ⟨a, f, l, e, k⟩)) (fun a f l e => .inr (.inr fun k => ?_))
    exact hn (needs_bodies he.symm ⟨a, f, l, e, k⟩)

/-- The hypotheses are met by a demo and a slower one, in which a print goes to other recipients. -/
example : ∃ fs fs' : List Frame, fs ≠ fs' ∧ (∀ f ∈ fs, f.WF) ∧ (∀ f ∈ fs', f.WF) ∧ fs.map Frame.body = fs'.map Frame.body ∧
    clients Example.debug (Spec.encode fs) = clients Example.debug (Spec.encode fs') ∧
    fragsPerPlayerName Example.debug (Spec.encode fs) = .ok [(chars!"a", -2)] :=
  ⟨[⟨1, 6, [], Example.medium bytes!"a suicides\n"⟩, ⟨1, 6, [], []⟩],
    [⟨9, 1, [], Example.medium bytes!"a suicides\n"⟩, ⟨255, 3, [1, 0, 0, 0], []⟩], by decide, by decide, by decide, by decide,
    by decide +kernel, by decide +kernel⟩

/-! ### C67: only the first eight ping frames are sampled -/

theorem leadingPings_nil_iff {body : Bytes} {us : List (UInt8 × Nat)} (h : LeadingPings body us) : us = [] ↔ NoPing body := by
  constructor
  · rintro rfl
    cases h with
    | stop h => exact h
  · intro hn
    cases h with
    | stop => rfl
    | step => exact absurd rfl (hn _ _ _ _ _)

open Classical in
theorem pings_filter {fs : List Frame} {uss : List (List (UInt8 × Nat))}
    (h : List.Forall₂ (fun (f : Frame) us => LeadingPings f.body us) fs uss) :
    List.Forall₂ (fun (f : Frame) us => LeadingPings f.body us) (fs.filter fun f => decide (¬ NoPing f.body))
      (uss.filter fun us => us ≠ []) := by
  induction h with
  | nil => exact .nil
  | @cons f us fs uss hf _ ih =>
    by_cases hu : us = []
    · have : NoPing f.body := (leadingPings_nil_iff hf).mp hu
      rw [List.filter_cons_of_neg (by simpa using this), List.filter_cons_of_neg (by simpa using hu)]
      exact ih
    · have : ¬ NoPing f.body := fun k => hu ((leadingPings_nil_iff hf).mpr k)
      rw [List.filter_cons_of_pos (by simpa using this), List.filter_cons_of_pos (by simpa using hu)]
      exact .cons hf ih

open Classical in
/-- C67: the pings depend only on the first eight frames that begin with a ping update. -/
theorem C67_window (g : Env) (data data' : Bytes) (fs fs' : List Frame) (rest rest' : Bytes)
    (h : Splits data fs rest) (hs : Stops data.length rest) (h' : Splits data' fs' rest') (hs' : Stops data'.length rest')
    (he : (fs.filter fun f => decide (¬ NoPing f.body)).take 8 = (fs'.filter fun f => decide (¬ NoPing f.body)).take 8) :
    pingPerPlayerNumber g data = pingPerPlayerNumber g data' := by
  obtain ⟨uss, hu⟩ := pings_exists fs
  obtain ⟨uss', hu'⟩ := pings_exists fs'
  have hw := List.forall₂_take 8 (pings_filter hu)
  have hw' := List.forall₂_take 8 (pings_filter hu')
  rw [he] at hw
  have hsame := forall2_unique (P := fun (f : Frame) us => LeadingPings f.body us)
    (fun _ _ _ h k => leadingPings_unique h k) hw hw'
  obtain ⟨n, e⟩ := totalPings_eq g h (.inl hs) hu
  obtain ⟨n', e'⟩ := totalPings_eq g h' (.inl hs') hu'
  unfold pingPerPlayerNumber
  rw [e, e']
  unfold sampledPings
  rw [hsame]
  rfl

open Classical in
/-- C67: after eight frames that begin with a ping update nothing that is recorded later matters. -/
theorem C67_later (g : Env) (fs more more' : List Frame) (hf : ∀ f ∈ fs, f.WF) (hm : ∀ f ∈ more, f.WF)
    (hm' : ∀ f ∈ more', f.WF) (h8 : 8 ≤ (fs.filter fun f => decide (¬ NoPing f.body)).length) :
    pingPerPlayerNumber g (Spec.encode (fs ++ more)) = pingPerPlayerNumber g (Spec.encode (fs ++ more')) := by
  have w : ∀ m : List Frame, (∀ f ∈ m, f.WF) → ∀ f ∈ fs ++ m, f.WF := fun m hm f h =>
    (List.mem_append.mp h).elim (hf f) (hm f)
  have h1 := splits_whole (w _ hm)
  have h2 := splits_whole (w _ hm')
  refine C67_window g _ _ _ _ _ _ h1.1 h1.2 h2.1 h2.2 ?_
  rw [List.filter_append, List.filter_append, List.take_append_of_le_length h8, List.take_append_of_le_length h8]

/-- The hypotheses are met by eight pings of 10 ms; a ninth ping of 99 ms is ignored. -/
example : ∃ fs more more' : List Frame, (∀ f ∈ fs, f.WF) ∧ (∀ f ∈ more, f.WF) ∧ (∀ f ∈ more', f.WF) ∧
    (open Classical in 8 ≤ (fs.filter fun f => decide (¬ NoPing f.body)).length) ∧
    pingPerPlayerNumber Example.debug (Spec.encode (fs ++ more')) = .ok [(0, 10)] ∧ more ≠ more' := by
  refine ⟨List.replicate 8 (Example.all (Example.ping 0 10 0)), [], [Example.all (Example.ping 0 99 0)], by decide +kernel,
    by decide, by decide +kernel, ?_, by decide +kernel, by decide⟩
  have : ¬ NoPing (Example.all (Example.ping 0 10 0)).body := by
    intro h
    exact h _ _ _ _ _ rfl
  rw [List.filter_eq_self.mpr]
  · simp
  · intro f hf
    rw [List.eq_of_mem_replicate hf]
    simpa using this

/-! ### C69: the order of the frames -/

theorem charges_flatMap {u : Bytes → Str} {cs : List Client} (one : Frame → Option (Str × Int))
    (hone : ∀ f, Charge u cs f [] (one f)) : ∀ {fs : List Frame}, (∀ f ∈ fs, NotAnonymous u f) →
    Charges u cs fs (fs.flatMap fun f => (one f).toList)
  | [], _ => .nil
  | f :: fs, hn => by
    rw [List.flatMap_cons]
    exact .cons (charge_later (hone f) (hn f (by simp)) fs) (charges_flatMap one hone fun x hx => hn x (by simp [hx]))

theorem charges_perm {u : Bytes → Str} {cs : List Client} {fs fs' : List Frame} {c c' : List (Str × Int)}
    (hp : fs.Perm fs') (hn : ∀ f ∈ fs, NotAnonymous u f) (h : Charges u cs fs c) (h' : Charges u cs fs' c') : c.Perm c' := by
  choose one hone using fun f => charge_exists u cs f []
  rw [charges_unique h (charges_flatMap one hone hn),
    charges_unique h' (charges_flatMap one hone fun f hf => hn f (hp.mem_iff.mpr hf))]
  exact hp.flatMap_right _

theorem points_perm {c c' : List (Str × Int)} (hp : c.Perm c') (name : Str) : points c name = points c' name :=
  ((hp.filter _).map _).sum_eq

/-- C69: the scores do not depend on the order of the frames (for demos of less than 2 GB and when no killer is unknown). -/
theorem C69_frags (g : Env) (fs fs' : List Frame) (hp : fs.Perm fs') (hf : ∀ f ∈ fs, f.WF)
    (hn : ∀ f ∈ fs, NotAnonymous g.toUnicode f) (hl : (Spec.encode fs).length < 2 ^ 31) :
    ∃ m m', fragsPerPlayerName g (Spec.encode fs) = .ok m ∧ fragsPerPlayerName g (Spec.encode fs') = .ok m' ∧
      ∀ name, m.get name = m'.get name := by
  obtain ⟨c, hc⟩ := charges_exists g.toUnicode [] fs
  obtain ⟨c', hc'⟩ := charges_exists g.toUnicode [] fs'
  have hcc := charges_perm hp hn hc hc'
  have need : ∀ {l : List Frame}, (∀ f ∈ l, NotAnonymous g.toUnicode f) →
      ∀ before f later, l = before ++ f :: later → ¬ NeedsClients g.toUnicode f later := by
    intro l hn before f later e
    rintro ⟨t, m, v, ha, hc, _⟩
    exact hn f (by rw [e]; simp) t m v ha hc
  have h1 := splits_whole hf
  have h2 := splits_whole (fs := fs') fun f h => hf f (hp.mem_iff.mpr h)
  have hb := C26_bound g _ fs [] [] c h1.1 hc hl
  obtain ⟨m, em, gm⟩ := C26_frags g _ fs [] [] c h1.1 h1.2 (.inr (.inr (need hn))) hc hb
  obtain ⟨m', em', gm'⟩ := C26_frags g _ fs' [] [] c' h2.1 h2.2
    (.inr (.inr (need fun f h => hn f (hp.mem_iff.mpr h)))) hc' (by rw [← hcc.length_eq]; exact hb)
  refine ⟨m, m', em, em', fun name => ?_⟩
  rw [gm, gm', points_perm hcc]
  have : name ∈ c.map Prod.fst ↔ name ∈ c'.map Prod.fst := (hcc.map _).mem_iff
  simp only [this]

/-- A frame whose first message is a frag message of another kind is no anonymous teamkill. -/
theorem notAnonymous_of_event {u : Bytes → Str} {f : Frame} {p : PrintMsg} {more : Bytes} {o : FragEvent} (hp : p.WF)
    (h1 : p.level = 1) (ht : p.text ≠ []) (e : f.body = p.encode ++ more) (ho : FragEvent.tryFrom (trimEnd (u p.text)) = .ok o)
    (hne : ∀ v, o ≠ .teamkillByUnknown v) : NotAnonymous u f := by
  intro text more' v ha hc
  obtain ⟨rfl, _⟩ := announces_unique ha (⟨p, hp, h1, ht, e, trimEnd_trims _⟩ : Announces u f.body _ more)
  have := (C24_classification _ (.teamkillByUnknown v)).mpr hc
  rw [ho] at this
  exact hne v (by injection this)

/-- The hypotheses are met by a frag and a suicide, in either order. -/
example : ∃ fs fs' : List Frame, fs.Perm fs' ∧ fs ≠ fs' ∧ (∀ f ∈ fs, f.WF) ∧
    (∀ f ∈ fs, NotAnonymous Example.debug.toUnicode f) ∧ (Spec.encode fs).length < 2 ^ 31 ∧
    fragsPerPlayerName Example.debug (Spec.encode fs) = .ok [(chars!"b", 1), (chars!"a", -2)] := by
  refine ⟨[Example.all (Example.medium bytes!"a was nailed by b\n"), Example.all (Example.medium bytes!"a suicides\n")],
    [Example.all (Example.medium bytes!"a suicides\n"), Example.all (Example.medium bytes!"a was nailed by b\n")],
    .swap _ _ _, by decide +kernel, by decide +kernel, ?_, by decide +kernel, by decide +kernel⟩
  intro f hf
  simp only [List.mem_cons, List.not_mem_nil, or_false] at hf
  rcases hf with rfl | rfl
  · exact notAnonymous_of_event (p := ⟨1, bytes!"a was nailed by b\n"⟩) (more := []) (o := .frag chars!"b" chars!"a") (by decide)
      rfl (by decide) (by decide) (by decide +kernel) (by intro v h; cases h)
  · exact notAnonymous_of_event (p := ⟨1, bytes!"a suicides\n"⟩) (more := []) (o := .suicide chars!"a") (by decide)
      rfl (by decide) (by decide) (by decide +kernel) (by intro v h; cases h)

theorem flagCount_perm {u : Bytes → Str} {a b : List Bytes} (hp : a.Perm b) (p : Str) (k : FlagKind) :
    flagCount u a p k = flagCount u b p k := by
  unfold flagCount
  exact (hp.filter _).length_eq

theorem forall2_map {α β : Type} {P : α → β → Prop} (one : α → β) (hone : ∀ a, P a (one a)) :
    ∀ l : List α, List.Forall₂ P l (l.map one)
  | [] => .nil
  | a :: l => .cons (hone a) (forall2_map one hone l)

/-- C69: nor do the flag statistics: either both demos panic, or all counters are the same. -/
theorem C69_flags (g : Env) (fs fs' : List Frame) (hp : fs.Perm fs') (hf : ∀ f ∈ fs, f.WF) :
    (flagEventsPerPlayerName g (Spec.encode fs) = .panic ∧ flagEventsPerPlayerName g (Spec.encode fs') = .panic) ∨
    ∃ m m', flagEventsPerPlayerName g (Spec.encode fs) = .ok m ∧ flagEventsPerPlayerName g (Spec.encode fs') = .ok m' ∧
      ∀ name, m.get name = m'.get name := by
  choose one hone using flagTexts_exists g.toUnicode
  have ht := forall2_map (P := FlagTexts g.toUnicode) one hone fs
  have ht' := forall2_map (P := FlagTexts g.toUnicode) one hone fs'
  have htt : (fs.map one).flatten.Perm (fs'.map one).flatten := (hp.map one).flatten
  have h1 := splits_whole hf
  have h2 := splits_whole (fs := fs') fun f h => hf f (hp.mem_iff.mpr h)
  have hmem : ∀ player, (∃ t ∈ (fs.map one).flatten, ∃ kind, ClassifiesFlag (g.toUnicode t) kind player) ↔
      ∃ t ∈ (fs'.map one).flatten, ∃ kind, ClassifiesFlag (g.toUnicode t) kind player := by
    intro player
    constructor <;> rintro ⟨t, ht, k⟩
    · exact ⟨t, htt.mem_iff.mp ht, k⟩
    · exact ⟨t, htt.mem_iff.mpr ht, k⟩
  by_cases hlt : ∀ player kind, flagCount g.toUnicode (fs.map one).flatten player kind < 256
  · right
    obtain ⟨m, em, a, b⟩ := C30_counts g _ fs [] _ h1.1 h1.2 ht hlt
    obtain ⟨m', em', a', b'⟩ := C30_counts g _ fs' [] _ h2.1 h2.2 ht' fun p k => by rw [← flagCount_perm htt]; exact hlt p k
    refine ⟨m, m', em, em', fun name => ?_⟩
    by_cases hn : ∃ t ∈ (fs.map one).flatten, ∃ kind, ClassifiesFlag (g.toUnicode t) kind name
    · rw [a name hn, a' name ((hmem name).mp hn)]
      exact congrArg (fun c => some (flagReport c)) (funext fun k => flagCount_perm htt name k)
    · rw [b name hn, b' name fun k => hn ((hmem name).mpr k)]
  · cases hc : g.checks
    · right
      obtain ⟨m, em, a, b⟩ := C30_wraps g _ fs [] _ h1.1 h1.2 ht hc
      obtain ⟨m', em', a', b'⟩ := C30_wraps g _ fs' [] _ h2.1 h2.2 ht' hc
      refine ⟨m, m', em, em', fun name => ?_⟩
      by_cases hn : ∃ t ∈ (fs.map one).flatten, ∃ kind, ClassifiesFlag (g.toUnicode t) kind name
      · rw [a name hn, a' name ((hmem name).mp hn)]
        exact congrArg (fun c => some (flagReport c)) (funext fun k => by rw [flagCount_perm htt name k])
      · rw [b name hn, b' name fun k => hn ((hmem name).mpr k)]
    · left
      simp only [not_forall, Nat.not_lt] at hlt
      obtain ⟨player, kind, hge⟩ := hlt
      exact ⟨C30_panics g _ fs [] _ h1.1 h1.2 ht hc player kind hge,
        C30_panics g _ fs' [] _ h2.1 h2.2 ht' hc player kind (by rw [← flagCount_perm htt]; exact hge)⟩

/-- The hypotheses are met by two different orders of flag messages; the counters do not change. -/
example : ∃ fs fs' : List Frame, fs.Perm fs' ∧ fs ≠ fs' ∧ (∀ f ∈ fs, f.WF) ∧
    flagEventsPerPlayerName Example.debug (Spec.encode fs) =
      .ok [(chars!"a", { pickups := 1, carrierFrags := 1 }), (chars!"b", { pickups := 1 })] :=
  ⟨Example.flagFrames, Example.flagFrames.reverse, (List.reverse_perm _).symm, by decide +kernel, by decide +kernel,
    by decide +kernel⟩

end Mvd
