import Verif.Lemmas.Flags
import Verif.Props.Frags

/-! C30, C31, C06 for `flag_events_per_player_name`. -/

namespace Mvd
open Spec

/-- The reported counters of a player, given the number of events of each kind. -/
abbrev flagReport (n : FlagKind → Nat) : PlayerFlagEvents where
  captures := n .captured
  pickups := n .got
  returns := n .returned
  carrierFrags := n .assist
  defends := n .defendsFlag
  carrierDefends := n .defendsCarrier
  carrierDefendsVsAggressive := n .defendsCarrierVsAggressive

/-- C30: every sequence of frames has exactly one sequence of texts about flags. -/
theorem C30_texts (toUnicode : Bytes → Str) (fs : List Frame) :
    ∃ tss, List.Forall₂ (FlagTexts toUnicode) fs tss ∧ ∀ l, List.Forall₂ (FlagTexts toUnicode) fs l → l = tss := by
  obtain ⟨tss, h⟩ := forall2_exists (flagTexts_exists toUnicode) fs
  exact ⟨tss, h, fun l hl => forall2_unique (P := FlagTexts toUnicode) (fun _ _ _ h k => flagTexts_unique h k) hl h⟩

/-- C30: below 256 every counter is the number of events, and exactly the players with an event are listed. -/
theorem C30_counts (g : Env) (data : Bytes) (fs : List Frame) (rest : Bytes) (tss : List (List Bytes))
    (h : Splits data fs rest) (hs : Stops data.length rest) (ht : List.Forall₂ (FlagTexts g.toUnicode) fs tss)
    (hlt : ∀ player kind, flagCount g.toUnicode tss.flatten player kind < 256) :
    ∃ m, flagEventsPerPlayerName g data = .ok m ∧
      (∀ player, (∃ t ∈ tss.flatten, ∃ kind, ClassifiesFlag (g.toUnicode t) kind player) →
        m.get player = some (flagReport (flagCount g.toUnicode tss.flatten player))) ∧
      ∀ player, (¬ ∃ t ∈ tss.flatten, ∃ kind, ClassifiesFlag (g.toUnicode t) kind player) → m.get player = none := by
  obtain ⟨m, hm, hget⟩ := countEvents_ok g (flagEvents g tss.flatten) [] (by intro p k; cases k <;> simp [Map.get, counter])
    (.inl (by intro p k; rw [flagEvents_count]; have := hlt p k; cases k <;> simpa [Map.get, counter] using this))
  refine ⟨m, ?_, ?_, ?_⟩
  · unfold flagEventsPerPlayerName
    rw [flagPrints_stops g h hs ht]
    simp only [R.bind]
    rw [countFlagPrints_eq, hm]
  · intro p hp
    rw [hget, if_pos ((flagEvents_mem g _ p).mpr hp)]
    have : (fun k => (counter ((Map.get ([] : Map Str PlayerFlagEvents) p).getD {}) k +
        (flagEvents g tss.flatten).count (k, p)) % 256) = flagCount g.toUnicode tss.flatten p := by
      funext k
      rw [flagEvents_count, ← Nat.mod_eq_of_lt (hlt p k)]
      cases k <;> simp [Map.get, counter]
    rw [this]
    rfl
  · intro p hp
    rw [hget, if_neg fun h => hp ((flagEvents_mem g _ p).mp h)]
    rfl

/-- C30: without overflow checks the counters are the numbers of events modulo 256, for exactly the players with an event. -/
theorem C30_wraps (g : Env) (data : Bytes) (fs : List Frame) (rest : Bytes) (tss : List (List Bytes))
    (h : Splits data fs rest) (hs : Stops data.length rest) (ht : List.Forall₂ (FlagTexts g.toUnicode) fs tss)
    (hc : g.checks = false) :
    ∃ m, flagEventsPerPlayerName g data = .ok m ∧
      (∀ player, (∃ t ∈ tss.flatten, ∃ kind, ClassifiesFlag (g.toUnicode t) kind player) →
        m.get player = some (flagReport fun kind => flagCount g.toUnicode tss.flatten player kind % 256)) ∧
      ∀ player, (¬ ∃ t ∈ tss.flatten, ∃ kind, ClassifiesFlag (g.toUnicode t) kind player) → m.get player = none := by
  obtain ⟨m, hm, hget⟩ := countEvents_ok g (flagEvents g tss.flatten) [] (by intro p k; cases k <;> simp [Map.get, counter])
    (.inr hc)
  refine ⟨m, ?_, ?_, fun p hp => ?_⟩
  · unfold flagEventsPerPlayerName
    rw [flagPrints_stops g h hs ht]
    simp only [R.bind]
    rw [countFlagPrints_eq, hm]
  · intro p hp
    rw [hget, if_pos ((flagEvents_mem g _ p).mpr hp)]
    have : (fun k => (counter ((Map.get ([] : Map Str PlayerFlagEvents) p).getD {}) k +
        (flagEvents g tss.flatten).count (k, p)) % 256) = fun k => flagCount g.toUnicode tss.flatten p k % 256 := by
      funext k
      rw [flagEvents_count]
      cases k <;> simp [Map.get, counter]
    rw [this]
    rfl
  · rw [hget, if_neg (fun hm => hp ((flagEvents_mem g _ p).mp hm))]
    rfl

/-- C30: with overflow checks the 256th event of a kind for a player is a panic. -/
theorem C30_panics (g : Env) (data : Bytes) (fs : List Frame) (rest : Bytes) (tss : List (List Bytes))
    (h : Splits data fs rest) (hs : Stops data.length rest) (ht : List.Forall₂ (FlagTexts g.toUnicode) fs tss)
    (hc : g.checks = true) (player : Str) (kind : FlagKind)
    (hge : 256 ≤ flagCount g.toUnicode tss.flatten player kind) : flagEventsPerPlayerName g data = .panic := by
  unfold flagEventsPerPlayerName
  rw [flagPrints_stops g h hs ht]
  simp only [R.bind]
  rw [countFlagPrints_eq]
  refine countEvents_panic g hc _ [] (by intro p k; cases k <;> simp [Map.get, counter]) ⟨player, kind, ?_⟩
  rw [flagEvents_count]
  omega

/-- A high-level print. -/
def Example.high (text : Bytes) : Bytes := [8, 2] ++ text ++ [0]

/-- The bytes of ` got the BLUE flag!` in the alternative alphabet. -/
def Example.gotFlag : Bytes :=
  [32, 0xE7, 0xEF, 0xF4] ++ bytes!" the " ++ [0xC2, 0xCC, 0xD5, 0xC5] ++ bytes!" flag!\n"

/-- A pickup sent as name and message, a message of its own, a frame without the word, and chat. -/
def Example.flagFrames : List Frame := [Example.all (Example.high bytes!"a" ++ Example.high Example.gotFlag),
  Example.all (Example.high (bytes!"b" ++ Example.gotFlag)), Example.all (Example.high bytes!"x"),
  Example.all ([8, 3] ++ bytes!"c" ++ Example.gotFlag ++ [0]),
  Example.all (Example.high bytes!"a gets an assist for fragging the flag carrier!\n")]

theorem Example.flagFrames_split : Splits (Spec.encode Example.flagFrames) Example.flagFrames [] ∧
    Stops (Spec.encode Example.flagFrames).length [] :=
  ⟨⟨by simp, by decide +kernel, noFrame_iff.mpr (by simp [Spec.announced])⟩, by decide⟩

/-- The hypotheses of C30 are met with events of two players. -/
example : flagEventsPerPlayerName Example.debug (Spec.encode Example.flagFrames) =
      .ok [(chars!"a", { pickups := 1, carrierFrags := 1 }), (chars!"b", { pickups := 1 })] := by decide +kernel

/-- Fewer than 256 texts cannot overflow a counter, so the hypothesis of C30 on the counters is met. -/
theorem C30_few (toUnicode : Bytes → Str) (texts : List Bytes) (h : texts.length < 256) (player : Str) (kind : FlagKind) :
    flagCount toUnicode texts player kind < 256 := by
  unfold flagCount
  exact Nat.lt_of_le_of_lt (List.length_filter_le _ _) h

example : ∃ tss, List.Forall₂ (FlagTexts Example.debug.toUnicode) Example.flagFrames tss ∧ tss.flatten.length < 256 := by
  refine ⟨[[bytes!"a" ++ Example.gotFlag], [bytes!"b" ++ Example.gotFlag], [], [],
    [bytes!"a gets an assist for fragging the flag carrier!\n"]], ?_, by decide⟩
  refine .cons (.inl ⟨by decide +kernel, [⟨2, bytes!"a"⟩, ⟨2, Example.gotFlag⟩], ?_, by decide +kernel⟩)
    (.cons (.inl ⟨by decide +kernel, [⟨2, bytes!"b" ++ Example.gotFlag⟩], ?_, by decide +kernel⟩)
    (.cons (.inr ⟨by decide +kernel, rfl⟩)
    (.cons (.inl ⟨by decide +kernel, [⟨3, bytes!"c" ++ Example.gotFlag⟩], ?_, by decide +kernel⟩)
    (.cons (.inl ⟨by decide +kernel, [⟨2, bytes!"a gets an assist for fragging the flag carrier!\n"⟩], ?_, by decide +kernel⟩)
      .nil))))
  · exact .print (p := ⟨2, bytes!"a"⟩) (by decide +kernel) (.print (p := ⟨2, Example.gotFlag⟩) (t := []) (by decide +kernel) .nil)
  · exact .print (p := ⟨2, bytes!"b" ++ Example.gotFlag⟩) (t := []) (by decide +kernel) .nil
  · exact .print (p := ⟨3, bytes!"c" ++ Example.gotFlag⟩) (t := []) (by decide +kernel) .nil
  · exact .print (p := ⟨2, bytes!"a gets an assist for fragging the flag carrier!\n"⟩) (t := []) (by decide +kernel) .nil

/-- A demo of `n` frames that each report a pickup by `b`. -/
def Example.pickups (n : Nat) : List Frame := List.replicate n (Example.all (Example.high (bytes!"b" ++ Example.gotFlag)))

theorem Example.pickups_split (n : Nat) : Splits (Spec.encode (Example.pickups n)) (Example.pickups n) [] ∧
    Stops (Spec.encode (Example.pickups n)).length [] := by
  refine ⟨⟨by simp, ?_, noFrame_iff.mpr (by simp [Spec.announced])⟩, by simp [Stops, Spec.announced]⟩
  intro f hf
  rw [(List.mem_replicate.mp hf).2]
  decide +kernel

theorem Example.pickups_texts (n : Nat) : List.Forall₂ (FlagTexts Example.debug.toUnicode) (Example.pickups n)
    (List.replicate n [bytes!"b" ++ Example.gotFlag]) := by
  induction n with
  | zero => exact .nil
  | succ n ih =>
    refine .cons (.inl ⟨by decide +kernel, [⟨2, bytes!"b" ++ Example.gotFlag⟩], ?_, by decide +kernel⟩) ih
    exact .print (p := ⟨2, bytes!"b" ++ Example.gotFlag⟩) (t := []) (by decide +kernel) .nil

theorem Example.pickups_count (n : Nat) : flagCount Example.debug.toUnicode
    (List.replicate n [bytes!"b" ++ Example.gotFlag]).flatten chars!"b" .got = n := by
  rw [← flagEvents_count]
  have hone : FlagEvent.tryFrom (Example.debug.toUnicode (bytes!"b" ++ Example.gotFlag)) = .ok (.gotFlag chars!"b") := by
    decide +kernel
  induction n with
  | zero => rfl
  | succ n ih =>
    rw [List.replicate_succ, List.flatten_cons]
    have : flagEvents Example.debug ([bytes!"b" ++ Example.gotFlag] ++ (List.replicate n [bytes!"b" ++ Example.gotFlag]).flatten) =
        (.got, chars!"b") :: flagEvents Example.debug (List.replicate n [bytes!"b" ++ Example.gotFlag]).flatten := by
      conv => lhs; unfold flagEvents
      rw [List.singleton_append, List.filterMap_cons, hone]
      rfl
    rw [this, count_cons_pair, ih]
    simp

/-- C30, overflow: after 256 pickups a debug build panics and a release build reports none. -/
theorem C30_witness : flagEventsPerPlayerName Example.debug (Spec.encode (Example.pickups 256)) = .panic ∧
    ∃ m, flagEventsPerPlayerName Example.release (Spec.encode (Example.pickups 256)) = .ok m ∧
      (m.get chars!"b").map PlayerFlagEvents.pickups = some 0 := by
  constructor
  · exact C30_panics Example.debug _ _ _ _ (Example.pickups_split 256).1 (Example.pickups_split 256).2
      (Example.pickups_texts 256) rfl chars!"b" .got (by rw [Example.pickups_count])
  · obtain ⟨m, h, hm, _⟩ := C30_wraps Example.release _ _ _ _ (Example.pickups_split 256).1 (Example.pickups_split 256).2
      (Example.pickups_texts 256) rfl
    refine ⟨m, h, ?_⟩
    rw [hm chars!"b" ⟨bytes!"b" ++ Example.gotFlag, List.mem_flatten.mpr ⟨_, List.mem_replicate.mpr ⟨by decide, rfl⟩, List.mem_singleton.mpr rfl⟩, .got, ?_⟩]
    · have := Example.pickups_count 256
      simp only [Option.map_some, Option.some.injEq, flagReport]
      show flagCount Example.debug.toUnicode _ _ _ % 256 = 0
      rw [this]
    · have := (C29_classification (Example.release.toUnicode (bytes!"b" ++ Example.gotFlag)) (.gotFlag chars!"b")).mp (by decide +kernel)
      exact this

/-- C06 for `flag_events_per_player_name`: a cut-off frame makes it panic. -/
theorem C06_flags (g : Env) (data : Bytes) (fs : List Frame) (rest : Bytes) (h : Splits data fs rest)
    (hs : Overruns data.length rest) : flagEventsPerPlayerName g data = .panic := by
  unfold flagEventsPerPlayerName
  rw [flagPrints_overruns g h hs]
  rfl

/-! ### C31 -/

theorem flagTexts_filter {u : Bytes → Str} : ∀ {fs : List Frame} {tss : List (List Bytes)},
    List.Forall₂ (FlagTexts u) fs tss → ∃ tss', List.Forall₂ (FlagTexts u) (fs.filter fun f => decide (Occurs bytes!"flag" f.body)) tss' ∧
      tss'.flatten = tss.flatten
  | [], _, .nil => ⟨[], .nil, rfl⟩
  | f :: fs, _, .cons (b := t) h1 h2 => by
    obtain ⟨tss', h3, h4⟩ := flagTexts_filter h2
    by_cases hf : Occurs bytes!"flag" f.body
    · rw [List.filter_cons_of_pos (by simpa using hf)]
      exact ⟨t :: tss', .cons h1 h3, by simp [h4]⟩
    · rw [List.filter_cons_of_neg (by simpa using hf)]
      refine ⟨tss', h3, ?_⟩
      rcases h1 with ⟨h, _⟩ | ⟨_, rfl⟩
      · exact absurd h hf
      · simpa using h4

/-- C31: two demos whose frames that contain the bytes `flag` are the same have the same flag events. -/
theorem C31_only_flag_frames (g : Env) (data data' : Bytes) (fs fs' : List Frame) (rest rest' : Bytes)
    (h : Splits data fs rest) (hs : Stops data.length rest) (h' : Splits data' fs' rest') (hs' : Stops data'.length rest')
    (he : fs.filter (fun f => decide (Occurs bytes!"flag" f.body)) = fs'.filter (fun f => decide (Occurs bytes!"flag" f.body))) :
    flagEventsPerPlayerName g data = flagEventsPerPlayerName g data' := by
  obtain ⟨t, ht⟩ := forall2_exists (flagTexts_exists g.toUnicode) fs
  obtain ⟨t', ht'⟩ := forall2_exists (flagTexts_exists g.toUnicode) fs'
  obtain ⟨a, ha, ea⟩ := flagTexts_filter ht
  obtain ⟨b, hb, eb⟩ := flagTexts_filter ht'
  rw [he] at ha
  have hab := forall2_unique (P := FlagTexts g.toUnicode) (fun _ _ _ h k => flagTexts_unique h k) ha hb
  unfold flagEventsPerPlayerName
  rw [flagPrints_stops g h hs ht, flagPrints_stops g h' hs' ht', ← ea, ← eb, hab]

/-- C31, special case: one frame inserted. -/
theorem C31_insert (g : Env) (data data' : Bytes) (a b : List Frame) (f : Frame) (rest rest' : Bytes)
    (h : Splits data (a ++ b) rest) (hs : Stops data.length rest) (h' : Splits data' (a ++ f :: b) rest')
    (hs' : Stops data'.length rest') (hf : ¬ Occurs bytes!"flag" f.body) :
    flagEventsPerPlayerName g data = flagEventsPerPlayerName g data' := by
  refine C31_only_flag_frames g data data' _ _ rest rest' h hs h' hs' ?_
  rw [List.filter_append, List.filter_append, List.filter_cons_of_neg (by simpa using hf)]

example : ¬ Occurs bytes!"flag" (Example.all (Example.high bytes!"a defends the base\n")).body := by decide +kernel

end Mvd
