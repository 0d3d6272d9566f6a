import Verif.Spec.Award
import Verif.Props.Content
import Verif.Props.Names

/-! C68: one message, one change. -/

namespace Mvd
open Spec

/-! ### Obituaries -/

theorem charge_award {u : Bytes → Str} {cs : List Client} {f : Frame} {later : List Frame} {text : Str} {more : Bytes}
    {o : Obituary} {c : Str × Int} (ha : Announces u f.body text more) (hc : Classifies text o) (hw : award o = some c) :
    Charge u cs f later (some c) := by
  cases o <;> simp only [award, Option.some.injEq, reduceCtorEq] at hw <;> subst hw
  · exact .death ha hc
  · exact .suicide ha hc
  · exact .suicideByWeapon ha hc
  · exact .frag ha hc
  · exact .teamkill ha hc

theorem award_notAnonymous {u : Bytes → Str} {f : Frame} {text : Str} {more : Bytes}
    {o : Obituary} {c : Str × Int} (ha : Announces u f.body text more) (hc : Classifies text o) (hw : award o = some c) :
    NotAnonymous u f := by
  intro t m v ha' hc'
  obtain ⟨rfl, _⟩ := announces_unique ha ha'
  rw [C24_unique _ _ _ hc hc'] at hw
  cases hw

/-- C68: a frame that announces an obituary, inserted anywhere, changes the score of one player by what the obituary is
worth, and no other score. -/
theorem C68_obituary (g : Env) (a b : List Frame) (f : Frame) (text : Str) (more : Bytes) (o : Obituary) (who : Str) (worth : Int)
    (ha : ∀ x ∈ a, x.WF) (hf : f.WF) (hb : ∀ x ∈ b, x.WF) (hn : ∀ x ∈ a ++ b, NotAnonymous g.toUnicode x)
    (hann : Announces g.toUnicode f.body text more) (hc : Classifies text o) (hw : award o = some (who, worth))
    (hl : (Spec.encode (a ++ f :: b)).length < 2 ^ 31) :
    ∃ m m', fragsPerPlayerName g (Spec.encode (a ++ b)) = .ok m ∧ fragsPerPlayerName g (Spec.encode (a ++ f :: b)) = .ok m' ∧
      m'.get who = some ((m.get who).getD 0 + worth) ∧ ∀ name, name ≠ who → m'.get name = m.get name := by
  have hnf := award_notAnonymous hann hc hw
  obtain ⟨ca, hca⟩ := charges_exists g.toUnicode [] a
  obtain ⟨cb, hcb⟩ := charges_exists g.toUnicode [] b
  have na : ∀ x ∈ a, NotAnonymous g.toUnicode x := fun x h => hn x (by simp [h])
  have h1 := charges_append hca hcb na
  have h2 := charges_append hca (.cons (charge_award hann hc hw) hcb) na
  have w1 : ∀ x ∈ a ++ b, x.WF := fun x h => (List.mem_append.mp h).elim (ha x) (hb x)
  have w2 : ∀ x ∈ a ++ f :: b, x.WF := by
    intro x h
    simp only [List.mem_append, List.mem_cons] at h
    rcases h with h | rfl | h
    · exact ha x h
    · exact hf
    · exact hb x h
  have n2 : ∀ x ∈ a ++ f :: b, NotAnonymous g.toUnicode x := by
    intro x h
    simp only [List.mem_append, List.mem_cons] at h
    rcases h with h | rfl | h
    · exact na x h
    · exact hnf
    · exact hn x (by simp [h])
  have need : ∀ {l : List Frame}, (∀ f ∈ l, NotAnonymous g.toUnicode f) →
      ∀ before f later, l = before ++ f :: later → ¬ NeedsClients g.toUnicode f later := by
    intro l hn before f later e
    rintro ⟨t, m, v, ha, hc, _⟩
    exact hn f (by rw [e]; simp) t m v ha hc
  have s1 := splits_whole w1
  have s2 := splits_whole w2
  have hle : (Spec.encode (a ++ b)).length ≤ (Spec.encode (a ++ f :: b)).length := by
    simp [Spec.encode]
  obtain ⟨m, em, gm⟩ := C26_frags g _ _ [] [] _ s1.1 s1.2 (.inr (.inr (need hn))) h1
    (C26_bound g _ _ [] [] _ s1.1 h1 (by omega))
  obtain ⟨m', em', gm'⟩ := C26_frags g _ _ [] [] _ s2.1 s2.2 (.inr (.inr (need n2))) h2
    (C26_bound g _ _ [] [] _ s2.1 h2 hl)
  refine ⟨m, m', em, em', ?_, fun name hne => ?_⟩
  · rw [gm', gm, if_pos (by simp)]
    simp only [Option.toList_some, points_append]
    have one : points [(who, worth)] who = worth := by simp [points]
    by_cases hm : who ∈ (ca ++ cb).map Prod.fst
    · rw [if_pos hm, one]
      simp only [Option.getD_some, Option.some.injEq]
      omega
    · rw [if_neg hm, one]
      have h0 := points_not_mem hm
      rw [points_append] at h0
      simp only [Option.getD_none, Option.some.injEq]
      omega
  · rw [gm', gm]
    simp only [Option.toList_some, points_append]
    have none' : points [(who, worth)] name = 0 := by
      apply points_not_mem
      simpa using hne
    have : name ∈ (ca ++ ([(who, worth)] ++ cb)).map Prod.fst ↔ name ∈ (ca ++ cb).map Prod.fst := by
      simp [hne]
    simp only [this, none', Int.zero_add]

/-- C68: an obituary with two names counts one frag for the killer and nothing for the victim, for all names
that can be recognised. -/
theorem C68_two_names (g : Env) (a b : List Frame) (f : Frame) (p : PrintMsg) (more : Bytes) (x y killer : Str) (q : TwoNames)
    (ha : ∀ x ∈ a, x.WF) (hf : f.WF) (hb : ∀ x ∈ b, x.WF) (hn : ∀ x ∈ a ++ b, NotAnonymous g.toUnicode x)
    (hp : p.WF) (hp1 : p.level = 1) (hp2 : p.text ≠ []) (he : f.body = p.encode ++ more)
    (ht : Trims (g.toUnicode p.text) (x ++ q.between ++ y ++ q.after)) (hx : FirstName x) (hy : SecondName y)
    (hq : q ∈ killerFirstPhrases ∧ killer = x ∨ q ∈ victimFirstPhrases ∧ killer = y)
    (hl : (Spec.encode (a ++ f :: b)).length < 2 ^ 31) :
    ∃ m m', fragsPerPlayerName g (Spec.encode (a ++ b)) = .ok m ∧ fragsPerPlayerName g (Spec.encode (a ++ f :: b)) = .ok m' ∧
      m'.get killer = some ((m.get killer).getD 0 + 1) ∧ ∀ name, name ≠ killer → m'.get name = m.get name := by
  have hann : Announces g.toUnicode f.body _ more := ⟨p, hp, hp1, hp2, he, ht⟩
  rcases hq with ⟨hq, rfl⟩ | ⟨hq, rfl⟩
  · exact C68_obituary g a b f _ more (.frag killer y) killer 1 ha hf hb hn hann
      ((C24_classification _ _).mp ((C84_two_names killer y hx hy).1 q hq)) rfl hl
  · exact C68_obituary g a b f _ more (.frag killer x) killer 1 ha hf hb hn hann
      ((C24_classification _ _).mp ((C84_two_names x killer hx hy).2 q hq)) rfl hl

/-- C68: an obituary with one name costs that player one point, or two for a suicide by command. -/
theorem C68_one_name (g : Env) (a b : List Frame) (f : Frame) (p : PrintMsg) (more : Bytes) (x q : Str) (worth : Int)
    (ha : ∀ x ∈ a, x.WF) (hf : f.WF) (hb : ∀ x ∈ b, x.WF) (hn : ∀ x ∈ a ++ b, NotAnonymous g.toUnicode x)
    (hp : p.WF) (hp1 : p.level = 1) (hp2 : p.text ≠ []) (he : f.body = p.encode ++ more)
    (ht : Trims (g.toUnicode p.text) (x ++ q)) (hx : FirstName x)
    (hq : q ∈ deathPhrases ++ weaponPhrases ++ teamkillPhrases ∧ worth = -1 ∨ q = suicidePhrase ∧ worth = -2)
    (hl : (Spec.encode (a ++ f :: b)).length < 2 ^ 31) :
    ∃ m m', fragsPerPlayerName g (Spec.encode (a ++ b)) = .ok m ∧ fragsPerPlayerName g (Spec.encode (a ++ f :: b)) = .ok m' ∧
      m'.get x = some ((m.get x).getD 0 + worth) ∧ ∀ name, name ≠ x → m'.get name = m.get name := by
  have hann : Announces g.toUnicode f.body _ more := ⟨p, hp, hp1, hp2, he, ht⟩
  obtain ⟨h1, h2, h3, h4, _⟩ := C84_one_name x hx
  rcases hq with ⟨hq, rfl⟩ | ⟨rfl, rfl⟩
  · rcases List.mem_append.mp hq with hq | hq
    · rcases List.mem_append.mp hq with hq | hq
      · exact C68_obituary g a b f _ more (.death x) x _ ha hf hb hn hann ((C24_classification _ _).mp (h1 q hq)) rfl hl
      · exact C68_obituary g a b f _ more (.suicideByWeapon x) x _ ha hf hb hn hann ((C24_classification _ _).mp (h2 q hq)) rfl hl
    · exact C68_obituary g a b f _ more (.teamkill x) x _ ha hf hb hn hann ((C24_classification _ _).mp (h4 q hq)) rfl hl
  · exact C68_obituary g a b f _ more (.suicide x) x _ ha hf hb hn hann ((C24_classification _ _).mp h3) rfl hl

/-- The hypotheses are met by a suicide in front of which a frag is inserted. -/
example : ∃ (a b : List Frame) (f : Frame) (p : PrintMsg) (x y killer : Str) (q : TwoNames),
    (∀ x ∈ a, x.WF) ∧ f.WF ∧ (∀ x ∈ b, x.WF) ∧ (∀ x ∈ a ++ b, NotAnonymous Example.debug.toUnicode x) ∧
    p.WF ∧ p.level = 1 ∧ p.text ≠ [] ∧ f.body = p.encode ++ [] ∧
    Trims (Example.debug.toUnicode p.text) (x ++ q.between ++ y ++ q.after) ∧ FirstName x ∧ SecondName y ∧
    (q ∈ killerFirstPhrases ∧ killer = x ∨ q ∈ victimFirstPhrases ∧ killer = y) ∧
    (Spec.encode (a ++ f :: b)).length < 2 ^ 31 ∧
    fragsPerPlayerName Example.debug (Spec.encode (a ++ b)) = .ok [(chars!"b", -2)] ∧
    fragsPerPlayerName Example.debug (Spec.encode (a ++ f :: b)) = .ok [(chars!"b", -1)] := by
  refine ⟨[], [Example.all (Example.medium bytes!"b suicides\n")], Example.all (Example.medium bytes!"a rides b's rocket\n"),
    ⟨1, bytes!"a rides b's rocket\n"⟩, chars!"a", chars!"b", chars!"b", ⟨chars!" rides ", chars!"'s rocket"⟩, by decide,
    by decide +kernel, by decide +kernel, ?_, by decide, rfl, by decide, by decide +kernel,
    ⟨chars!"\n", by decide +kernel, by decide, by decide⟩, by decide +kernel, by decide +kernel,
    .inr ⟨by decide +kernel, rfl⟩, by decide +kernel, by decide +kernel, by decide +kernel⟩
  intro f hf
  simp only [List.nil_append, List.mem_cons, List.not_mem_nil, or_false] at hf
  subst hf
  exact notAnonymous_of_event (p := ⟨1, bytes!"b suicides\n"⟩) (more := []) (o := .suicide chars!"b") (by decide)
    rfl (by decide) (by decide) (by decide +kernel) (by intro v h; cases h)

/-- The hypotheses of the theorem with one name are met by a suicide after an obituary that is not recognised. -/
example : ∃ (a b : List Frame) (f : Frame) (p : PrintMsg) (x q : Str),
    (∀ x ∈ a, x.WF) ∧ f.WF ∧ (∀ x ∈ b, x.WF) ∧ (∀ x ∈ a ++ b, NotAnonymous Example.debug.toUnicode x) ∧
    p.WF ∧ p.level = 1 ∧ p.text ≠ [] ∧ f.body = p.encode ++ [] ∧
    Trims (Example.debug.toUnicode p.text) (x ++ q) ∧ FirstName x ∧ q = suicidePhrase ∧
    (Spec.encode (a ++ f :: b)).length < 2 ^ 31 ∧
    fragsPerPlayerName Example.debug (Spec.encode (a ++ b)) = .ok [] ∧
    fragsPerPlayerName Example.debug (Spec.encode (a ++ f :: b)) = .ok [(chars!"b", -2)] := by
  refine ⟨[Example.all (Example.high bytes!"hello\n")], [], Example.all (Example.medium bytes!"b suicides\n"),
    ⟨1, bytes!"b suicides\n"⟩, chars!"b", chars!" suicides", by decide +kernel,
    by decide +kernel, by decide +kernel, ?_, by decide, rfl, by decide, by decide +kernel,
    ⟨chars!"\n", by decide +kernel, by decide, by decide⟩, by decide, rfl,
    by decide +kernel, by decide +kernel, by decide +kernel⟩
  intro f hf
  simp only [List.append_nil, List.mem_cons, List.not_mem_nil, or_false] at hf
  subst hf
  rintro t m v ⟨p, hp, h1, _, e, _⟩ _
  have : (Example.all (Example.high bytes!"hello\n")).body.take 2 = (p.encode ++ m).take 2 := by rw [e]
  rw [show (p.encode ++ m).take 2 = [8, p.level] from rfl, h1] at this
  revert this
  decide

/-! ### Flag messages -/

/-- The reported counter for a kind of event. -/
def shownCount (r : PlayerFlagEvents) : FlagKind → Nat
  | .captured => r.captures
  | .got => r.pickups
  | .returned => r.returns
  | .assist => r.carrierFrags
  | .defendsFlag => r.defends
  | .defendsCarrier => r.carrierDefends
  | .defendsCarrierVsAggressive => r.carrierDefendsVsAggressive

theorem shownCount_flagReport (n : FlagKind → Nat) (k : FlagKind) : shownCount (flagReport n) k = n k := by cases k <;> rfl

/-- The counters determine the report. -/
theorem shownCount_ext {r s : PlayerFlagEvents} (h : ∀ k, shownCount r k = shownCount s k) : r = s := by
  obtain ⟨⟩ := r
  obtain ⟨⟩ := s
  have h1 := h .captured
  have h2 := h .got
  have h3 := h .returned
  have h4 := h .assist
  have h5 := h .defendsFlag
  have h6 := h .defendsCarrier
  have h7 := h .defendsCarrierVsAggressive
  simp only [shownCount] at h1 h2 h3 h4 h5 h6 h7
  simp only [PlayerFlagEvents.mk.injEq]
  exact ⟨h1, h2, h3, h4, h5, h6, h7⟩

/-- A frame that consists of one flag message. -/
theorem flagTexts_single {u : Bytes → Str} {f : Frame} {p : PrintMsg} (hp : p.WF) (h2 : p.level = 2)
    (ho : Occurs bytes!"flag" p.text) (e : f.body = p.encode) : FlagTexts u f [p.text] := by
  obtain ⟨s, t, he⟩ := ho
  refine .inl ⟨⟨[8, p.level] ++ s, t ++ [0], ?_⟩, [p], ?_, ?_⟩
  · rw [e, PrintMsg.encode, he]
    simp
  · rw [e]
    have := AllPrints.print (t := []) hp .nil
    simpa using this
  · have : p.text ≠ [] := by
      rw [he]
      simp
    simp [h2, this, inPairs]

open Classical in
theorem flagCount_single (u : Bytes → Str) (t : Bytes) (player : Str) (kind : FlagKind)
    (h : ClassifiesFlag (u t) kind player) (name : Str) (k : FlagKind) :
    flagCount u [t] name k = if name = player ∧ k = kind then 1 else 0 := by
  unfold flagCount
  by_cases hk : name = player ∧ k = kind
  · obtain ⟨rfl, rfl⟩ := hk
    simp [h]
  · have : ¬ ClassifiesFlag (u t) k name := fun h' => hk ⟨(C29_unique _ _ _ _ _ h' h).2, (C29_unique _ _ _ _ _ h' h).1⟩
    simp [this, hk]

/-- C68: a frame with one flag message, inserted anywhere, adds one to the counter of its kind for its player. No other counter
and no other player changes. -/
theorem C68_flag (g : Env) (a b : List Frame) (f : Frame) (p : PrintMsg) (kind : FlagKind) (player : Str)
    (m : Map Str PlayerFlagEvents) (ha : ∀ x ∈ a, x.WF) (hf : f.WF) (hb : ∀ x ∈ b, x.WF)
    (hp : p.WF) (h2 : p.level = 2) (ho : Occurs bytes!"flag" p.text) (he : f.body = p.encode)
    (hc : ClassifiesFlag (g.toUnicode p.text) kind player) (hm : flagEventsPerPlayerName g (Spec.encode (a ++ b)) = .ok m)
    (hlt : shownCount ((m.get player).getD {}) kind < 255) :
    ∃ m' r, flagEventsPerPlayerName g (Spec.encode (a ++ f :: b)) = .ok m' ∧ m'.get player = some r ∧
      (∀ k, shownCount r k = shownCount ((m.get player).getD {}) k + if k = kind then 1 else 0) ∧
      ∀ name, name ≠ player → m'.get name = m.get name := by
  obtain ⟨ta, hta⟩ := forall2_exists (flagTexts_exists g.toUnicode) a
  obtain ⟨tb, htb⟩ := forall2_exists (flagTexts_exists g.toUnicode) b
  have h1 : List.Forall₂ (FlagTexts g.toUnicode) (a ++ b) (ta ++ tb) := List.rel_append hta htb
  have h2' : List.Forall₂ (FlagTexts g.toUnicode) (a ++ f :: b) (ta ++ [p.text] :: tb) :=
    List.rel_append hta (.cons (flagTexts_single (u := g.toUnicode) hp h2 ho he) htb)
  have s1 := splits_whole (fs := a ++ b) fun x h => (List.mem_append.mp h).elim (ha x) (hb x)
  have s2 := splits_whole (fs := a ++ f :: b) (by
    intro x h
    simp only [List.mem_append, List.mem_cons] at h
    rcases h with h | rfl | h
    · exact ha x h
    · exact hf
    · exact hb x h)
  have hcount : ∀ name k, flagCount g.toUnicode (ta ++ [p.text] :: tb).flatten name k =
      flagCount g.toUnicode (ta ++ tb).flatten name k + if name = player ∧ k = kind then 1 else 0 := by
    intro name k
    rw [← flagCount_single g.toUnicode p.text player kind hc name k]
    simp only [List.flatten_append, List.flatten_cons, flagCount_append]
    omega
  have zero : ∀ {name}, (¬ ∃ t ∈ (ta ++ tb).flatten, ∃ kind, ClassifiesFlag (g.toUnicode t) kind name) → ∀ k,
      flagCount g.toUnicode (ta ++ tb).flatten name k = 0 := by
    intro name hn k
    unfold flagCount
    rw [List.length_eq_zero_iff, List.filter_eq_nil_iff]
    intro t ht
    simp only [decide_eq_true_eq]
    exact fun h => hn ⟨t, ht, k, h⟩
  have mem : ∀ {name}, (∃ t ∈ (ta ++ [p.text] :: tb).flatten, ∃ kind, ClassifiesFlag (g.toUnicode t) kind name) ↔
      (name = player ∨ ∃ t ∈ (ta ++ tb).flatten, ∃ kind, ClassifiesFlag (g.toUnicode t) kind name) := by
    intro name
    simp only [List.flatten_append, List.flatten_cons, List.mem_append, List.mem_cons, List.not_mem_nil, or_false]
    constructor
    · rintro ⟨t, ht | rfl | ht, k, h⟩
      · exact .inr ⟨t, .inl ht, k, h⟩
      · exact .inl (C29_unique _ _ _ _ _ h hc).2
      · exact .inr ⟨t, .inr ht, k, h⟩
    · rintro (rfl | ⟨t, ht | ht, k, h⟩)
      · exact ⟨p.text, .inr (.inl rfl), kind, hc⟩
      · exact ⟨t, .inl ht, k, h⟩
      · exact ⟨t, .inr (.inr ht), k, h⟩
  -- In either build the reported counters are the numbers of events, reduced by some function `w`.
  have key : ∃ w : Nat → Nat, w 0 = 0 ∧ (∀ n, w n < 255 → w (n + 1) = w n + 1) ∧
      (∀ name, (∃ t ∈ (ta ++ tb).flatten, ∃ kind, ClassifiesFlag (g.toUnicode t) kind name) →
        m.get name = some (flagReport fun k => w (flagCount g.toUnicode (ta ++ tb).flatten name k))) ∧
      (∀ name, (¬ ∃ t ∈ (ta ++ tb).flatten, ∃ kind, ClassifiesFlag (g.toUnicode t) kind name) → m.get name = none) ∧
      ((w (flagCount g.toUnicode (ta ++ tb).flatten player kind) < 255) →
        ∃ m', flagEventsPerPlayerName g (Spec.encode (a ++ f :: b)) = .ok m' ∧
        (∀ name, (∃ t ∈ (ta ++ [p.text] :: tb).flatten, ∃ kind, ClassifiesFlag (g.toUnicode t) kind name) →
          m'.get name = some (flagReport fun k => w (flagCount g.toUnicode (ta ++ [p.text] :: tb).flatten name k))) ∧
        ∀ name, (¬ ∃ t ∈ (ta ++ [p.text] :: tb).flatten, ∃ kind, ClassifiesFlag (g.toUnicode t) kind name) →
          m'.get name = none) := by
    cases hch : g.checks
    · obtain ⟨n, en, gn, nn⟩ := C30_wraps g _ _ [] _ s1.1 s1.2 h1 hch
      obtain ⟨m', em', gm', nm'⟩ := C30_wraps g _ _ [] _ s2.1 s2.2 h2' hch
      rw [hm] at en
      cases en
      exact ⟨fun n => n % 256, rfl, fun n h => by simp only at h ⊢; omega, gn, nn, fun _ => ⟨m', em', gm', nm'⟩⟩
    · have hall : ∀ name k, flagCount g.toUnicode (ta ++ tb).flatten name k < 256 := by
        intro name k
        by_contra hge
        rw [C30_panics g _ _ [] _ s1.1 s1.2 h1 hch name k (by omega)] at hm
        cases hm
      obtain ⟨n, en, gn, nn⟩ := C30_counts g _ _ [] _ s1.1 s1.2 h1 hall
      rw [hm] at en
      cases en
      refine ⟨id, rfl, fun n _ => rfl, gn, nn, fun h255 => ?_⟩
      exact C30_counts g _ _ [] _ s2.1 s2.2 h2' fun name k => by
        rw [hcount]
        split
        · rename_i hk
          rw [hk.1, hk.2]
          simp only [id] at h255
          omega
        · exact hall name k
  obtain ⟨w, w0, w1, gm, nm, rest⟩ := key
  have old : ∀ k, shownCount ((m.get player).getD {}) k = w (flagCount g.toUnicode (ta ++ tb).flatten player k) := by
    intro k
    by_cases hp' : ∃ t ∈ (ta ++ tb).flatten, ∃ kind, ClassifiesFlag (g.toUnicode t) kind player
    · rw [gm player hp', Option.getD_some, shownCount_flagReport]
    · rw [nm player hp', zero hp', w0]
      cases k <;> rfl
  rw [old kind] at hlt
  obtain ⟨m', em', gm', nm'⟩ := rest hlt
  refine ⟨m', _, em', gm' player (mem.mpr (.inl rfl)), fun k => ?_, fun name hne => ?_⟩
  · rw [shownCount_flagReport, hcount, old]
    by_cases hk : k = kind
    · subst hk
      rw [if_pos ⟨rfl, rfl⟩, if_pos rfl, w1 _ hlt]
    · rw [if_neg fun h => hk h.2, if_neg hk]
      rfl
  · by_cases hp' : ∃ t ∈ (ta ++ tb).flatten, ∃ kind, ClassifiesFlag (g.toUnicode t) kind name
    · rw [gm name hp', gm' name (mem.mpr (.inr hp'))]
      simp only [hcount, hne, false_and, if_false, Nat.add_zero]
    · rw [nm name hp', nm' name fun h => (mem.mp h).elim hne hp']

/-- The hypotheses are met by a pickup after two pickups of the same player. -/
example : ∃ (a b : List Frame) (f : Frame) (p : PrintMsg) (m : Map Str PlayerFlagEvents),
    (∀ x ∈ a, x.WF) ∧ f.WF ∧ (∀ x ∈ b, x.WF) ∧ p.WF ∧ p.level = 2 ∧ Occurs bytes!"flag" p.text ∧ f.body = p.encode ∧
    ClassifiesFlag (Example.debug.toUnicode p.text) .got chars!"b" ∧
    flagEventsPerPlayerName Example.debug (Spec.encode (a ++ b)) = .ok m ∧
    shownCount ((m.get chars!"b").getD {}) .got < 255 ∧ m = [(chars!"b", { pickups := 2 })] := by
  refine ⟨Example.pickups 2, [], Example.all (Example.high (bytes!"b" ++ Example.gotFlag)), ⟨2, bytes!"b" ++ Example.gotFlag⟩,
    [(chars!"b", { pickups := 2 })], (Example.pickups_split 2).1.2.1, by decide +kernel, by decide, by decide +kernel, rfl,
    by decide +kernel, by decide +kernel, ?_, by decide +kernel, by decide +kernel, rfl⟩
  exact (C29_classification _ (.gotFlag chars!"b")).mp (by decide +kernel)

end Mvd
