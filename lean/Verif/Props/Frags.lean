import Verif.Lemmas.Scores
import Verif.Props.Frames
import Verif.Props.Clients

/-! C26–C28, C06 for `frags_per_player_name`. -/

namespace Mvd
open Spec

/-! ### C26 -/

/-- C26: every sequence of frames has exactly one list of charges. -/
theorem C26_charges (toUnicode : Bytes → Str) (cs : List Client) (fs : List Frame) :
    ∃ charges, Charges toUnicode cs fs charges ∧ ∀ l, Charges toUnicode cs fs l → l = charges := by
  obtain ⟨c, h⟩ := charges_exists toUnicode cs fs
  exact ⟨c, h, fun l hl => charges_unique hl h⟩

/-- C26: the score of every name is the sum of its charges, and a name is listed exactly when it is charged. The client
list is needed only for anonymous teamkills; if it cannot be read, these are charged to nobody. -/
theorem C26_frags (g : Env) (data : Bytes) (fs : List Frame) (rest : Bytes) (cs : List Client)
    (charges : List (Str × Int)) (h : Splits data fs rest) (hs : Stops data.length rest)
    (hcs : clients g data = .ok cs ∨ ((∃ e, clients g data = .err e) ∧ cs = []) ∨
      ∀ before f later, fs = before ++ f :: later → ¬ NeedsClients g.toUnicode f later)
    (hch : Charges g.toUnicode cs fs charges) (hlen : charges.length < 2 ^ 30) :
    ∃ m, fragsPerPlayerName g data = .ok m ∧
      ∀ name, m.get name = if name ∈ charges.map Prod.fst then some (points charges name) else none := by
  obtain ⟨m, hm, hget⟩ := applyCharges_get g charges [] 0 (charges_size hch) (by simp [Map.get]) (by omega)
  refine ⟨m, ?_, by intro name; rw [hget]; simp [Map.get]⟩
  unfold fragsPerPlayerName
  rw [printFrames_stops g h hs]
  simp only [R.bind]
  have := score_frames g (cs := cs) hs fs [] charges [] h.2.1 (by simpa using h.1) (by
    intro a f l e
    rcases hcs with hcs | hcs | hcs
    · exact .inl hcs
    · exact .inr (.inl hcs)
    · exact .inr (.inr (hcs a f l e))) hch
  simp only [List.length_nil] at this
  rw [this, hm]

/-- C26: the remaining case. If reading the clients panics and an anonymous teamkill needs them, the score panics. -/
theorem C26_panic (g : Env) (data : Bytes) (fs : List Frame) (rest : Bytes) (h : Splits data fs rest)
    (hs : Stops data.length rest) (hcs : clients g data = .panic)
    (hn : ∃ before f later, fs = before ++ f :: later ∧ NeedsClients g.toUnicode f later) :
    fragsPerPlayerName g data = .panic := by
  unfold fragsPerPlayerName
  rw [printFrames_stops g h hs]
  simp only [R.bind]
  have := score_frames_panic g hs hcs fs [] [] h.2.1 (by simpa using h.1) hn
  simpa using this

/-- C26: the bound on the number of charges follows from a bound on the size of the data. -/
theorem C26_bound (g : Env) (data : Bytes) (fs : List Frame) (rest : Bytes) (cs : List Client)
    (charges : List (Str × Int)) (h : Splits data fs rest) (hch : Charges g.toUnicode cs fs charges)
    (hlen : data.length < 2 ^ 31) : charges.length < 2 ^ 30 := by
  have h1 : ∀ {fs charges}, Charges g.toUnicode cs fs charges → charges.length ≤ fs.length := by
    intro fs charges hch
    induction hch with
    | nil => simp
    | @cons f fs c charges hc _ ih =>
      cases c <;> simp <;> omega
  have h2 : ∀ fs : List Frame, 2 * fs.length ≤ (Spec.encode fs).length := by
    intro fs
    induction fs with
    | nil => simp
    | cons f fs ih =>
      have hf : 2 ≤ f.encode.length := by simp [Frame.encode, Frame.header]
      have : Spec.encode (f :: fs) = f.encode ++ Spec.encode fs := rfl
      rw [this, List.length_append, List.length_cons]
      omega
  have h3 : data.length = (Spec.encode fs).length + rest.length := by
    conv => lhs; rw [h.1]
    simp
  have := h1 hch
  have := h2 fs
  omega

namespace Example

/-- A message to all with the given payload. -/
def all (body : Bytes) : Frame := ⟨1, 6, [], body⟩

/-- A medium-level print. -/
def medium (text : Bytes) : Bytes := [8, 1] ++ text ++ [0]

/-- Two team mates and an opponent. -/
def teamFrame : Frame :=
  all (spawnCommand ++ [0] ++ bytes!"\\name\\a\\team\\red" ++ [0, 0] ++ bytes!"\\name\\b\\team\\red" ++ [0, 0] ++
    bytes!"\\name\\c\\team\\blue" ++ [0] ++ List.replicate 600 10)

/-- A frag, a suicide, chat, a high-level print, and an anonymous teamkill next to score updates of players 0 (the victim),
2 (the opponent) and 1. -/
def fragFrames : List Frame := [teamFrame, all (medium bytes!"c was gibbed by a's rocket\n"),
  all (medium bytes!"a suicides\n"), all ([8, 3] ++ bytes!"c died" ++ [0]), all ([8, 2] ++ bytes!"c died" ++ [0]),
  all (medium bytes!"a was telefragged by his teammate\n" ++ [14, 0, 1, 0]), all [], all [14, 2, 1, 0], all [14, 1, 1, 0],
  all [14, 2, 1, 0]]

theorem fragFrames_split : Splits (Spec.encode fragFrames) fragFrames [] ∧
    Stops (Spec.encode fragFrames).length [] :=
  ⟨⟨by simp, by decide +kernel, noFrame_iff.mpr (by simp [Spec.announced])⟩, by decide⟩

/-- The clients of the example. -/
def team : List Client := (match clients debug (Spec.encode fragFrames) with | .ok l => l | _ => [])

theorem team_eq : clients debug (Spec.encode fragFrames) = .ok team := by decide +kernel

end Example

/-- The hypotheses of C26 are met by an example with an anonymous teamkill. -/
example : ∃ charges, Splits (Spec.encode Example.fragFrames) Example.fragFrames [] ∧
    Stops (Spec.encode Example.fragFrames).length [] ∧ clients Example.debug (Spec.encode Example.fragFrames) = .ok Example.team ∧
    Charges Example.debug.toUnicode Example.team Example.fragFrames charges ∧ charges.length < 2 ^ 30 ∧
    fragsPerPlayerName Example.debug (Spec.encode Example.fragFrames) = .ok [(chars!"a", -1), (chars!"b", -1)] := by
  obtain ⟨c, hc, _⟩ := C26_charges Example.debug.toUnicode Example.team Example.fragFrames
  exact ⟨c, Example.fragFrames_split.1, Example.fragFrames_split.2, Example.team_eq, hc,
    C26_bound Example.debug _ _ _ _ c Example.fragFrames_split.1 hc (by decide +kernel), by decide +kernel⟩

/-- C06 for `frags_per_player_name`: a cut-off frame makes it panic. -/
theorem C06_frags (g : Env) (data : Bytes) (fs : List Frame) (rest : Bytes) (h : Splits data fs rest)
    (hs : Overruns data.length rest) : fragsPerPlayerName g data = .panic := by
  unfold fragsPerPlayerName
  rw [printFrames_overruns g h hs]
  rfl

example : Splits ([1, 6, 3, 0, 0, 0, 9, 9, 9, 1, 6, 3, 0, 0, 0] : Bytes) [⟨1, 6, [], [9, 9, 9]⟩] [1, 6, 3, 0, 0, 0] ∧
    Overruns 15 ([1, 6, 3, 0, 0, 0] : Bytes) :=
  ⟨⟨by decide, by decide, noFrame_iff.mpr (by simp [Spec.announced])⟩, by decide⟩

/-! ### C27 -/

/-- The frame begins with a medium-level print that is not empty. -/
def LeadsWithMedium (f : Frame) : Prop :=
  ∃ (p : PrintMsg) (more : Bytes), p.WF ∧ p.level = 1 ∧ p.text ≠ [] ∧ f.body = p.encode ++ more

/-- The frame does not announce an anonymous teamkill. -/
def NotAnonymous (toUnicode : Bytes → Str) (f : Frame) : Prop :=
  ∀ text more v, Announces toUnicode f.body text more → ¬ Classifies text (.teamkillByUnknown v)

theorem charge_later {u : Bytes → Str} {cs : List Client} {f : Frame} {l : List Frame} {c : Option (Str × Int)}
    (h : Charge u cs f l c) (hn : NotAnonymous u f) (l' : List Frame) : Charge u cs f l' c := by
  cases h with
  | frag a b => exact .frag a b
  | death a b => exact .death a b
  | suicide a b => exact .suicide a b
  | suicideByWeapon a b => exact .suicideByWeapon a b
  | teamkill a b => exact .teamkill a b
  | blamed a b _ => exact absurd b (hn _ _ _ a)
  | unsolved a b _ => exact absurd b (hn _ _ _ a)
  | nothing h => exact .nothing h

theorem charge_nearby {u : Bytes → Str} {cs : List Client} {f : Frame} {l l' : List Frame} {c : Option (Str × Int)}
    (he : ∀ more, nearbyUpdates more l = nearbyUpdates more l') (h : Charge u cs f l c) : Charge u cs f l' c := by
  cases h with
  | frag a b => exact .frag a b
  | death a b => exact .death a b
  | suicide a b => exact .suicide a b
  | suicideByWeapon a b => exact .suicideByWeapon a b
  | teamkill a b => exact .teamkill a b
  | blamed a b c => exact .blamed a b (he _ ▸ c)
  | unsolved a b c => exact .unsolved a b (he _ ▸ c)
  | nothing h => exact .nothing h

theorem frags_charges (g : Env) {data : Bytes} {fs : List Frame} {rest : Bytes} {cs : List Client} {c : List (Str × Int)}
    (h : Splits data fs rest) (hs : Stops data.length rest) (hn : ∀ a f l, fs = a ++ f :: l → ClientsFor g data cs f l)
    (hc : Charges g.toUnicode cs fs c) : fragsPerPlayerName g data = forR (applyCharge g) [] c := by
  unfold fragsPerPlayerName
  rw [printFrames_stops g h hs]
  have := score_frames g (cs := cs) hs fs [] c [] h.2.1 (by simpa using h.1) hn hc
  simpa [R.bind] using this

open Classical in
theorem charges_filter {u : Bytes → Str} {cs : List Client} : ∀ {fs : List Frame} {c : List (Str × Int)},
    Charges u cs fs c → (∀ f ∈ fs, NotAnonymous u f) → Charges u cs (fs.filter fun f => decide (LeadsWithMedium f)) c
  | [], _, .nil, _ => .nil
  | f :: fs, _, .cons (c := c) h1 h2, hn => by
    have ih := charges_filter h2 fun x hx => hn x (by simp [hx])
    by_cases hf : LeadsWithMedium f
    · rw [List.filter_cons_of_pos (by simpa using hf)]
      exact .cons (charge_later h1 (hn f (by simp)) _) ih
    · rw [List.filter_cons_of_neg (by simpa using hf)]
      have : c = none := by
        refine charge_unique h1 (.nothing fun t m o a => ?_)
        obtain ⟨p, hp, h1, h2, e, _⟩ := a
        exact absurd ⟨p, m, hp, h1, h2, e⟩ hf
      rw [this]
      exact ih

open Classical in
/-- C27: two demos whose frames that begin with a medium-level print are the same have the same scores, whatever other
frames are inserted or removed. -/
theorem C27_only_medium_prints (g : Env) (data data' : Bytes) (fs fs' : List Frame) (rest rest' : Bytes)
    (h : Splits data fs rest) (hs : Stops data.length rest) (h' : Splits data' fs' rest') (hs' : Stops data'.length rest')
    (hn : ∀ f ∈ fs, NotAnonymous g.toUnicode f) (hn' : ∀ f ∈ fs', NotAnonymous g.toUnicode f)
    (he : fs.filter (fun f => decide (LeadsWithMedium f)) = fs'.filter (fun f => decide (LeadsWithMedium f))) :
    fragsPerPlayerName g data = fragsPerPlayerName g data' := by
  obtain ⟨c, hc⟩ := charges_exists g.toUnicode [] fs
  obtain ⟨c', hc'⟩ := charges_exists g.toUnicode [] fs'
  have hcc : c = c' := by
    have h1 := charges_filter hc hn
    have h2 := charges_filter hc' hn'
    rw [he] at h1
    exact charges_unique h1 h2
  have key : ∀ {data fs rest c}, Splits data fs rest → Stops data.length rest → (∀ f ∈ fs, NotAnonymous g.toUnicode f) →
      Charges g.toUnicode [] fs c → fragsPerPlayerName g data = forR (applyCharge g) [] c := by
    intro data fs rest c h hs hn hc
    unfold fragsPerPlayerName
    rw [printFrames_stops g h hs]
    have := score_frames g (cs := []) hs fs [] c [] h.2.1 (by simpa using h.1) (by
      intro a f l e
      refine .inr (.inr ?_)
      rintro ⟨t, m, v, ha, hc, _⟩
      exact hn f (by rw [e]; simp) t m v ha hc) hc
    simpa [R.bind] using this
  rw [key h hs hn hc, key h' hs' hn' hc', hcc]

/-- C27, special case: one frame inserted. -/
theorem C27_insert (g : Env) (data data' : Bytes) (a b : List Frame) (f : Frame) (rest rest' : Bytes)
    (h : Splits data (a ++ b) rest) (hs : Stops data.length rest) (h' : Splits data' (a ++ f :: b) rest')
    (hs' : Stops data'.length rest') (hn : ∀ f ∈ a ++ b, NotAnonymous g.toUnicode f) (hf : ¬ LeadsWithMedium f) :
    fragsPerPlayerName g data = fragsPerPlayerName g data' := by
  classical
  refine C27_only_medium_prints g data data' _ _ rest rest' h hs h' hs' hn ?_ ?_
  · intro x hx
    simp only [List.mem_append, List.mem_cons] at hx
    rcases hx with hx | rfl | hx
    · exact hn x (by simp [hx])
    · rintro t m v ⟨p, hp, h1, h2, e, _⟩
      exact absurd ⟨p, m, hp, h1, h2, e⟩ hf
    · exact hn x (by simp [hx])
  · rw [List.filter_append, List.filter_append, List.filter_cons_of_neg (by simpa using hf)]

/-- Chat is such a frame, an obituary is not anonymous. -/
example : ¬ LeadsWithMedium (Example.all [8, 3, 104, 105, 0]) ∧
    NotAnonymous Example.debug.toUnicode (Example.all (Example.medium bytes!"a suicides\n")) := by
  constructor
  · rintro ⟨⟨l, t⟩, m, _, hl, _, e⟩
    simp only at hl
    subst hl
    simp [Example.all, encode_eq] at e
  · intro text more v ha hc
    obtain ⟨rfl, _⟩ := announces_unique ha
      (⟨⟨1, bytes!"a suicides\n"⟩, by decide, rfl, by decide, by decide, trimEnd_trims _⟩ :
        Announces Example.debug.toUnicode (Example.all (Example.medium bytes!"a suicides\n")).body _ [])
    have := (C24_classification _ (.teamkillByUnknown v)).mpr hc
    have h2 : FragEvent.tryFrom (trimEnd (Example.debug.toUnicode bytes!"a suicides\n")) = .ok (.suicide chars!"a") := by
      decide +kernel
    rw [h2] at this
    cases this

/-! ### C28 -/

/-- C28: the search for the killer of an anonymous teamkill finds exactly the blamed client. -/
theorem C28_exact (g : Env) (data : Bytes) (before later : List Frame) (f : Frame) (rest : Bytes) (text more : _) (v : Str)
    (cs : List Client) (h : Splits data (before ++ f :: later) rest) (hs : Stops data.length rest)
    (ha : Announces g.toUnicode f.body text more) (hcs : clients g data = .ok cs) :
    (∀ k, findTeamKiller g data (Spec.encode before).length v = .ok k ↔ Blamed cs (nearbyUpdates more later) v k) ∧
    ((∀ k, ¬ Blamed cs (nearbyUpdates more later) v k) →
      ∃ e, findTeamKiller g data (Spec.encode before).length v = .err e) := by
  obtain ⟨p, hp, hl, _, hb, _⟩ := ha
  obtain ⟨n, hn⟩ := fragUpdates_eq g (pre := Spec.encode before) (f := f) (later := later) (rest := rest) (data := data)
    (fun x hx => h.2.1 x (by simp at hx; simp; tauto)) (by rw [h.1]; simp [Spec.encode]) hs hp hl hb
  exact (findTeamKiller_eq g data _ v hn).2.2.2 cs hcs

/-- C28: whoever is blamed is a client on the victim's team, has another name than the victim, and their score was updated in
the rest of the frame or at the beginning of one of the next two frames that are not empty. -/
theorem C28_sound (cs : List Client) (more : Bytes) (later : List Frame) (v k : Str)
    (h : Blamed cs (nearbyUpdates more later) v k) :
    ∃ victim killer, victim ∈ cs ∧ killer ∈ cs ∧ victim.name = v ∧ killer.name = k ∧ killer.team = victim.team ∧ k ≠ v ∧
      ∃ n : UInt8, killer.number = n.toNat ∧
        (scoreUpdate more = some n ∨
          ∃ x y z, later = x ++ y :: z ∧ (x.filter fun f => f.body ≠ []).length < 2 ∧ scoreUpdate y.body = some n) := by
  obtain ⟨vc, ⟨b, a, rfl, rfl, _⟩, nb, n, na, en, _, kc, ⟨⟨kb, ka, ek, hkn, _⟩, ht, hne⟩, rfl⟩ := h
  refine ⟨vc, kc, by simp, by rw [ek]; simp, rfl, rfl, ht, hne, n, hkn, ?_⟩
  have hmem : n ∈ nearbyUpdates more later := by rw [en]; simp
  unfold nearbyUpdates at hmem
  rw [List.mem_append] at hmem
  rcases hmem with hm | hm
  · exact .inl (by simpa using hm)
  · refine .inr ?_
    have key : ∀ (later : List Frame) (j : Nat), n ∈ ((later.filter fun f => f.body ≠ []).take j).filterMap (fun f => scoreUpdate f.body) →
        ∃ x y z, later = x ++ y :: z ∧ (x.filter fun f => f.body ≠ []).length < j ∧ scoreUpdate y.body = some n := by
      intro later
      induction later with
      | nil => intro j h; simp at h
      | cons f l ih =>
        intro j h
        by_cases hf : f.body = []
        · obtain ⟨x, y, z, e, hx, hy⟩ := ih j (by simpa [hf] using h)
          exact ⟨f :: x, y, z, by rw [e]; rfl, by simpa [hf] using hx, hy⟩
        · cases j with
          | zero => simp at h
          | succ j =>
            rw [List.filter_cons_of_pos (by simpa using hf), List.take_succ_cons] at h
            by_cases hu : scoreUpdate f.body = some n
            · exact ⟨[], f, l, rfl, by simp, hu⟩
            · have h' : n ∈ ((l.filter fun f => f.body ≠ []).take j).filterMap (fun f => scoreUpdate f.body) := by
                simp only [List.mem_filterMap, List.mem_cons] at h ⊢
                obtain ⟨q, rfl | hq, hs⟩ := h
                · exact absurd hs hu
                · exact ⟨q, hq, hs⟩
              obtain ⟨x, y, z, e, hx, hy⟩ := ih j h'
              exact ⟨f :: x, y, z, by rw [e]; rfl, by simp [hf]; simpa using hx, hy⟩
    exact key later 2 hm

/-- In the example the update of the opponent is passed over and the team mate is found; without that update nobody is
charged. -/
example : findTeamKiller Example.debug (Spec.encode Example.fragFrames) (Spec.encode (Example.fragFrames.take 5)).length
      chars!"a" = .ok chars!"b" ∧
    findTeamKiller Example.debug (Spec.encode (Example.fragFrames.take 8)) (Spec.encode (Example.fragFrames.take 5)).length
      chars!"a" = .err .noTeamKiller := by decide +kernel

end Mvd
