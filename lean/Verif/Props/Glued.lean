import Verif.Props.Forged
import Verif.Props.Loss
import Verif.Props.Metadata
import Verif.Props.Growth
import Verif.Props.Locality
import Verif.Props.Content

/-! C115: two demos in one file. -/

namespace Mvd
open Spec

/-- C115: what the header tells, and the people, are those of the first demo. -/
theorem C115_first (g : Env) (a b : Bytes) (o : Nat) (hs : FirstAt spawnCommand a o) (hl : o + 13056 ≤ a.length) :
    serverinfo g (a ++ b) = serverinfo g a ∧ filename g (a ++ b) = filename g a ∧
    timestampFromEpoch g (a ++ b) = timestampFromEpoch g a ∧ clients g (a ++ b) = clients g a ∧
    playerNames g (a ++ b) = playerNames g a ∧ spectatorNames g (a ++ b) = spectatorNames g a ∧
    teamNames g (a ++ b) = teamNames g a ∧
    (∀ d, FirstAt matchdatePrint a d → 10 ∈ a.drop (d + matchdatePrint.length) →
      matchdateString (a ++ b) = matchdateString a ∧ timestamp g (a ++ b) = timestamp g a) := by
  have h1 := C70_header g a b (by omega)
  have h2 := C63_clients g a b o hs hl
  refine ⟨h1.2.1, h1.2.2.1, h1.2.2.2, h2.2.1, h2.2.2.1, h2.2.2.2.1, h2.2.2.2.2.1, fun d hd hn => ?_⟩
  have h3 := C70_matchdate g a b d hd hn
  exact ⟨h3.1, h3.2.2 (by omega)⟩

/-- C115: match stats are those of the second demo, and with them server, players, teams and duration. -/
theorem C115_second (g : Env) (a b : Bytes) (m : Nat) (hm : LastAt statsMarker b m) (h18 : 18 ≤ m) (hl : (a ++ b).length < 2 ^ 63) :
    ktxstatsString g (a ++ b) = ktxstatsString g b ∧ server g (a ++ b) = server g b ∧
    matchDurationFromKtxstats g (a ++ b) = matchDurationFromKtxstats g b ∧
    ((∃ stats, ktxstatsV3 g b = .ok stats) → players g (a ++ b) = players g b ∧ teams g (a ++ b) = teams g b) := by
  have hl' : ([] ++ b : Bytes).length < 2 ^ 63 := by simp only [List.length_append, List.length_nil] at hl ⊢; omega
  obtain ⟨h1, h2, h3⟩ := C94_stats g [] a b m hm h18 hl' hl
  rw [List.nil_append] at h1 h2 h3
  refine ⟨h1.symm, h2.symm, ?_, fun h => ⟨(h3 h).1.symm, (h3 h).2.symm⟩⟩
  unfold matchDurationFromKtxstats
  rw [h1]

theorem endsWithMarker_append {a b : Bytes} (hb : endOfDemo.length < b.length) : EndsWithMarker (a ++ b) ↔ EndsWithMarker b := by
  constructor
  · rintro ⟨pre, hp, e⟩
    have hsuf : endOfDemo <:+ b := List.suffix_of_suffix_length_le ⟨pre, e.symm⟩ ⟨a, rfl⟩ (Nat.le_of_lt hb)
    obtain ⟨p, rfl⟩ := hsuf
    refine ⟨p, ?_, rfl⟩
    rintro rfl
    simp at hb
  · rintro ⟨pre, hp, rfl⟩
    exact ⟨a ++ pre, by simp [hp], by simp⟩

/-- C115: whether the file is complete is up to the second demo. If either is aborted, so is the file; if the second is paused, so
is the file. -/
theorem C115_verdicts (g : Env) (a b : Bytes) (hb : endOfDemo.length < b.length) :
    (∀ o, FirstAt spawnCommand a o → o + 13056 ≤ a.length → isValid g a = .ok true →
      (isValid g (a ++ b) = .ok true ↔ EndsWithMarker b)) ∧
    (isAborted a = true ∨ isAborted b = true → isAborted (a ++ b) = true) ∧
    (isPaused b = true → isPaused (a ++ b) = true) ∧ (EndsWithMarker b → isPaused (a ++ b) = false) := by
  refine ⟨fun o hs hl hv => ?_, ?_, ?_, fun hm => ?_⟩
  · rw [C12_exact, endsWithMarker_append hb]
    obtain ⟨h1, _, ⟨text, ht⟩, strings, hst, hne⟩ := (C12_exact g a).mp hv
    refine ⟨fun h => h.2.1, fun h => ⟨by simp; omega, h, ⟨text, ?_⟩, strings, ?_, hne⟩⟩
    · unfold ServerinfoText at ht ⊢
      rw [List.take_append_of_le_length h1]
      exact ht
    · rw [C63_client_strings g a b o hs hl, hst]
  · rw [C08_is_aborted, C08_is_aborted, C08_is_aborted]
    rintro (⟨s, t, rfl⟩ | ⟨s, t, rfl⟩)
    · exact ⟨s, t ++ b, by simp⟩
    · exact ⟨a ++ s, t, by simp⟩
  · rw [C10_is_paused, C10_is_paused, endsWithMarker_append hb]
    rintro ⟨hm, ⟨s, t, rfl⟩ | ⟨s, t, rfl⟩⟩
    · exact ⟨hm, .inl ⟨a ++ s, t, by simp⟩⟩
    · exact ⟨hm, .inr ⟨a ++ s, t, by simp⟩⟩
  · cases h : isPaused (a ++ b) with
    | false => rfl
    | true => exact absurd ((endsWithMarker_append hb).mpr hm) ((C10_is_paused _).mp h).1

/-- C115: the duration of the file reaches to the end of the second match, with all of the first demo. Without match stats the
duration of the match is counted from the beginning of the first match. -/
theorem C115_duration (g : Env) (a b : List Frame) (ha : ∀ f ∈ a, f.WF) (hb : ∀ f ∈ b, f.WF) (k : Nat)
    (hk : LastAt matchOver (Spec.encode b) k) (hms : lasts a + msBefore k b < 2 ^ 32) :
    ∃ ns, demoDuration g (Spec.encode (a ++ b)) = .ok ns ∧ Converted (lasts a + msBefore k b) ns ∧
      ∀ d, FirstAt matchdatePrint (Spec.encode a) d → 1280 ≤ (Spec.encode a).length →
        ∃ c, countdownDuration g (Spec.encode a) = .ok c ∧ c ≤ ns ∧ matchDurationFromSeeking g (Spec.encode (a ++ b)) = .ok (ns - c) := by
  obtain ⟨h1, h2⟩ := splits_whole (append_wf ha hb)
  have hl : LastAt matchOver (Spec.encode (a ++ b)) ((Spec.encode a).length + k) := by
    rw [encode_unsent]
    exact lastAt_prepend hk
  have e : msBefore ((Spec.encode a).length + k) (a ++ b) = lasts a + msBefore k b := by
    rw [← msFrom_zero, msFrom_append _ _ _ _ (by omega), Nat.zero_add]
    have := msFrom_shift (Spec.encode a).length b 0 k
    rw [Nat.zero_add, Nat.add_comm k] at this
    rw [this, msFrom_zero]
    rfl
  have hd := demo_ms g _ _ [] _ h1 (.inl hl) (.inl h2) (by rw [e]; exact hms)
  rw [e] at hd
  refine ⟨_, hd, ?_, fun d hf hlen => ?_⟩
  · have := (C35_demo_duration g _ _ [] _ h1 (.inl hl) (.inl h2) (by rw [e]; exact hms) _).mp hd
    rwa [e] at this
  · have hf' : FirstAt matchdatePrint (Spec.encode (a ++ b)) d := by
      rw [encode_unsent]
      exact firstAt_append hf
    have hbound := hf.1.bound
    obtain ⟨c, hc, hle, hseek⟩ := C37_countdown_le_demo g _ _ [] d _ _ (by rw [encode_unsent]; simp; omega) h1 hf' (.inl hl)
      (by omega) (by rw [e]; exact hms) hd
    exact ⟨c, by rw [← C70_countdown g a b d ha hb hlen hf]; exact hc, hle, hseek⟩

open Classical in
/-- C115: pings are those of the first demo, if it has at least eight frames with pings. -/
theorem C115_pings (g : Env) (a b : List Frame) (ha : ∀ f ∈ a, f.WF) (hb : ∀ f ∈ b, f.WF)
    (h8 : 8 ≤ (a.filter fun f => decide (¬ NoPing f.body)).length) :
    pingPerPlayerNumber g (Spec.encode (a ++ b)) = pingPerPlayerNumber g (Spec.encode a) := by
  have := C67_later g a b [] ha hb (by simp) h8
  rwa [List.append_nil] at this

/-! ### Examples -/

namespace Example

/-- A complete demo of 21 ms in which the match begins after 7 ms. -/
def firstDemo (padding : Nat) : List Frame :=
  [⟨0, 6, [], bytes!"fullserverinfo \"\\map\\dm3\""⟩] ++ ending ++ [joined padding, ⟨0, 6, [], bytes!"x" ++ endOfDemo⟩]

/-- A demo whose match ends after 5 ms, with match stats and the end marker. -/
def secondDemo : List Frame :=
  [joined 1300, ⟨0, 6, [], (PrintMsg.mk 2 bytes!"The match is over\n").encode⟩] ++ oneStats ++
    [⟨0, 6, [], bytes!"x" ++ endOfDemo⟩]

end Example

/-- C115: the hypotheses are met. -/
example : (∀ f ∈ (Example.firstDemo 13100), f.WF) ∧ (∀ f ∈ Example.secondDemo, f.WF) ∧
    FirstAt spawnCommand (Spec.encode (Example.firstDemo 13100)) 113 ∧ 113 + 13056 ≤ (Spec.encode (Example.firstDemo 13100)).length ∧
    isValid Example.debug (Spec.encode (Example.firstDemo 13100)) = .ok true ∧
    (∃ d, FirstAt matchdatePrint (Spec.encode (Example.firstDemo 13100)) d ∧ 10 ∈ (Spec.encode (Example.firstDemo 13100)).drop (d + matchdatePrint.length)) ∧
    (∃ m, LastAt statsMarker (Spec.encode Example.secondDemo) m ∧ 18 ≤ m) ∧
    (∃ k, LastAt matchOver (Spec.encode Example.secondDemo) k ∧ lasts (Example.firstDemo 13100) + msBefore k Example.secondDemo < 2 ^ 32) ∧
    EndsWithMarker (Spec.encode Example.secondDemo) := by
  refine ⟨by decide +kernel, by decide +kernel, find_eq_some_iff.mp (by decide +kernel), by decide +kernel, by decide +kernel,
    ⟨37, find_eq_some_iff.mp (by decide +kernel), by decide +kernel⟩, ⟨1372, rfind_eq_some_iff.mp (by decide +kernel), by decide⟩,
    ⟨1335, rfind_eq_some_iff.mp (by decide +kernel), by decide +kernel⟩, (C09_end_of_demo _).mp (by decide +kernel)⟩

/-- C115: the duration of the match spans both demos: from 7 ms in the first to 5 ms in the second, which begins after 21 ms. -/
theorem C115_witness :
    matchDurationFromSeeking Example.debug (Spec.encode (Example.firstDemo 1300 ++ Example.secondDemo)) = .ok 19000001 := by
  decide +kernel

end Mvd
