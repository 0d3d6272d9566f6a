import Verif.Props.Panics
import Verif.Props.Growth
import Verif.Props.FragOverflow
import Verif.Props.Timeline

/-! Demos that meet the hypotheses of the theorems about overflow and cut-off frames. Some of them are too large to be
evaluated, so what happens follows from the theorems. -/

namespace Mvd

open Spec

/-! ### Durations -/

theorem occurs_mem {α : Type} {w hay : List α} {b : α} (h : Occurs w hay) (hb : b ∈ w) : b ∈ hay := by
  obtain ⟨x, y, rfl⟩ := h
  simp [hb]

namespace Example

/-- Frames of 255 ms without content. -/
def idle (n : Nat) : List Frame := List.replicate n ⟨255, 7, [], []⟩

end Example

theorem idle_wf {n : Nat} : ∀ f ∈ Example.idle n, f.WF := by
  intro f hf
  rw [(List.mem_replicate.mp hf).2]
  decide

theorem idle_encode (n : Nat) : Spec.encode (Example.idle n) = (List.replicate n [255, 7]).flatten := by
  unfold Spec.encode Example.idle
  induction n with
  | zero => rfl
  | succ n ih => rw [List.replicate_succ, List.flatMap_cons, ih]; rfl

theorem idle_bytes {n : Nat} {b : UInt8} (h : b ∈ Spec.encode (Example.idle n)) : b = 255 ∨ b = 7 := by
  rw [idle_encode] at h
  obtain ⟨l, hl, hb⟩ := List.mem_flatten.mp h
  rw [(List.mem_replicate.mp hl).2] at hb
  simpa using hb

theorem idle_length (n : Nat) : (Spec.encode (Example.idle n)).length = 2 * n := by
  rw [idle_encode]
  simp [Nat.mul_comm]

theorem idle_total (n : Nat) : ((Example.idle n).map fun f => f.duration.toNat).sum = 255 * n := by
  simp [Example.idle, Nat.mul_comm]

/-- C35, overflow: 2^25 frames of 255 ms, 99 days. A debug build panics; a release build reports 49 days less. -/
theorem C35_overflow_witness :
    demoDuration Example.debug (Spec.encode (Example.idle (2 ^ 25))) = .panic ∧
    demoDuration Example.release (Spec.encode (Example.idle (2 ^ 25))) =
      .ok 4261413000000000 := by
  have hs := splits_whole (idle_wf (n := 2 ^ 25))
  have ht : MeasuredTo (Spec.encode (Example.idle (2 ^ 25))) (Spec.encode (Example.idle (2 ^ 25))).length := by
    refine .inr (.inr ⟨fun h => ?_, fun h => ?_, rfl⟩)
    · have := idle_bytes (occurs_mem h (b := 84) (by decide))
      revert this
      decide
    · have := idle_bytes (occurs_mem h (b := 52) (by decide))
      revert this
      decide
  have e := C35_all_frames _ _ _ hs.1
  rw [idle_total] at e
  have h (g : Env) := demo_ms_overflow g _ _ _ _ hs.1 ht (.inl hs.2) (by rw [e]; decide)
  refine ⟨(h Example.debug).1 rfl, ?_⟩
  rw [(h Example.release).2 rfl, e, show 255 * 2 ^ 25 % 2 ^ 32 = 255 * 2 ^ 25 - 2 ^ 32 from by decide,
    show msToDuration (255 * 2 ^ 25 - 2 ^ 32) = 4261413000000000 from by decide +kernel]

namespace Example

/-- The same frames, and then the print of the match date. -/
def longCountdown : List Frame := idle (2 ^ 25) ++ [⟨0, 6, [], matchdatePrint⟩]

end Example

/-- C35, overflow of the countdown: the match starts after 99 days. -/
theorem C35_countdown_overflow_witness :
    countdownDuration Example.debug (Spec.encode Example.longCountdown) = .panic ∧
    countdownDuration Example.release (Spec.encode Example.longCountdown) =
      .ok 4261413000000000 := by
  have hwf : ∀ f ∈ Example.longCountdown, f.WF := by
    intro f hf
    rcases List.mem_append.mp hf with hf | hf
    · exact idle_wf f hf
    · rw [List.mem_singleton.mp hf]
      decide
  have hs := splits_whole hwf
  have he : Spec.encode Example.longCountdown =
      Spec.encode (Example.idle (2 ^ 25)) ++ [0, 6, 13, 0, 0, 0] ++ matchdatePrint := by
    unfold Example.longCountdown Spec.encode
    rw [List.flatMap_append, List.append_assoc]
    rfl
  have hlen : (Spec.encode (Example.idle (2 ^ 25)) ++ [0, 6, 13, 0, 0, 0]).length = 2 ^ 26 + 6 := by
    rw [List.length_append, idle_length]
    rfl
  have hl : (Spec.encode Example.longCountdown).length = 2 ^ 26 + 19 := by
    rw [he, List.length_append, hlen]
    rfl
  have h8 : (8 : UInt8) ∉ Spec.encode (Example.idle (2 ^ 25)) ++ [0, 6, 13, 0, 0, 0] := by
    intro h
    rcases List.mem_append.mp h with h | h
    · have := idle_bytes h
      revert this
      decide
    · revert h
      decide
  have ho : FirstAt matchdatePrint (Spec.encode Example.longCountdown) (2 ^ 26 + 6) := by
    refine ⟨⟨Spec.encode (Example.idle (2 ^ 25)) ++ [0, 6, 13, 0, 0, 0], [], by simpa using he, hlen⟩, ?_⟩
    intro j hj
    by_contra hlt
    have h1 := occursAt_getElem? hj 0 (by decide)
    rw [he, List.getElem?_append_left (by omega)] at h1
    exact h8 (List.mem_of_getElem? (h1.trans rfl))
  have hh : ∀ g, ¬ Hoonymode g (Spec.encode Example.longCountdown) := by
    rintro g ⟨text, ⟨pre, post, e, _⟩, _⟩
    have : (102 : UInt8) ∈ (Spec.encode Example.longCountdown).take 1280 := by
      rw [e]
      simp [show (102 : UInt8) ∈ bytes!"fullserverinfo \"" from by decide]
    have := List.mem_of_mem_take this
    rw [he, List.append_assoc, List.mem_append] at this
    rcases this with h | h
    · have := idle_bytes h
      revert this
      decide
    · revert h
      decide
  have hms : msBefore (2 ^ 26 + 6) Example.longCountdown = 255 * 2 ^ 25 := by
    have := msBefore_mid (Example.idle (2 ^ 25)) [] ⟨0, 6, [], matchdatePrint⟩ (2 ^ 26 + 6)
      (by rw [idle_length]; decide) (Nat.le_trans (by omega) (Nat.le_of_eq hl.symm))
    rw [idle_total] at this
    exact this
  have h (g : Env) := countdown_ms_overflow g _ _ _ _ (by rw [hl]; decide) (hh g) hs.1 ho (.inl hs.2) (by rw [hms]; decide)
  refine ⟨(h Example.debug).1 rfl, ?_⟩
  rw [(h Example.release).2 rfl, hms, show 255 * 2 ^ 25 % 2 ^ 32 = 255 * 2 ^ 25 - 2 ^ 32 from by decide,
    show msToDuration (255 * 2 ^ 25 - 2 ^ 32) = 4261413000000000 from by decide +kernel]

/-! ### Scores -/

theorem charges_replicate {u : Bytes → Str} {cs : List Client} {f : Frame} {c : Str × Int}
    (h : ∀ later, Charge u cs f later (some c)) : ∀ n, Charges u cs (List.replicate n f) (List.replicate n c)
  | 0 => .nil
  | n + 1 => .cons (h _) (charges_replicate h n)

theorem points_replicate (name : Str) (x : Int) (n : Nat) : points (List.replicate n (name, x)) name = n * x := by
  simp [points]

namespace Example

/-- A player with very many suicides. -/
def suicides : List Frame := List.replicate (2 ^ 30 + 1) (all (medium bytes!"a suicides\n"))

end Example

/-- C26, overflow: a score of −2^31 − 2 points is a panic in a debug build and 2^31 − 2 points in a release build. -/
theorem C26_overflow_witness :
    fragsPerPlayerName Example.debug (Spec.encode Example.suicides) = .panic ∧
    ∃ m, fragsPerPlayerName Example.release (Spec.encode Example.suicides) = .ok m ∧
      m.get chars!"a" = some (2 ^ 31 - 2) := by
  have hwf : ∀ f ∈ Example.suicides, f.WF := by
    intro f hf
    rw [(List.mem_replicate.mp hf).2]
    decide +kernel
  have hs := splits_whole hwf
  have ha : Announces Example.latin1 (Example.all (Example.medium bytes!"a suicides\n")).body chars!"a suicides" [] :=
    ⟨⟨1, bytes!"a suicides\n"⟩, by decide, rfl, by decide, by decide, [Char.ofNat 10], by decide, by decide, by decide⟩
  have hc : Classifies chars!"a suicides" (.suicide chars!"a") :=
    (C24_classification _ (.suicide chars!"a")).mp (by decide +kernel)
  have hch : Charges Example.latin1 [] Example.suicides (List.replicate (2 ^ 30 + 1) (chars!"a", -2)) :=
    charges_replicate (fun later => .suicide ha hc) _
  have hn : ∀ before f later, Example.suicides = before ++ f :: later → ¬ NeedsClients Example.latin1 f later := by
    rintro before f later e ⟨text, more, v, ha', hc', _⟩
    have : f ∈ Example.suicides := by rw [e]; simp
    rw [(List.mem_replicate.mp this).2] at ha'
    obtain ⟨rfl, _⟩ := announces_unique ha ha'
    have h1 := (C24_classification _ (.teamkillByUnknown v)).mpr hc'
    have h2 := (C24_classification _ (.suicide chars!"a")).mpr hc
    rw [h2] at h1
    cases h1
  have hp : points (List.replicate (2 ^ 30 + 1) (chars!"a", -2)) chars!"a" = -2 ^ 31 - 2 := by
    rw [points_replicate]
    decide
  constructor
  · refine (C26_debug Example.debug _ _ _ [] _ hs.1 hs.2 (.inr (.inr hn)) hch rfl).2 fun hr => ?_
    have := (hr _ (List.prefix_refl _) chars!"a").1
    rw [hp] at this
    revert this
    decide
  · obtain ⟨m, hm, hg⟩ := C26_release Example.release _ _ _ [] _ hs.1 hs.2 (.inr (.inr hn)) hch rfl
    refine ⟨m, hm, ?_⟩
    rw [hg, hp, if_pos]
    · decide
    · rw [List.map_replicate, List.mem_replicate]
      exact ⟨by decide, rfl⟩

namespace Example

/-- An anonymous teamkill with a score update, and client strings that end with the data. -/
def cutClients : List Frame :=
  [all (medium bytes!"a was telefragged by his teammate\n" ++ [14, 0, 1, 0]), all spawnCommand]

end Example

/-- The hypotheses of `C26_panic` and `C87_frags` are met: the search for clients runs over the end of the data. -/
example : Splits (Spec.encode Example.cutClients) Example.cutClients [] ∧ Stops (Spec.encode Example.cutClients).length [] ∧
    clients Example.debug (Spec.encode Example.cutClients) = .panic ∧
    (∃ before f later, Example.cutClients = before ++ f :: later ∧ NeedsClients Example.debug.toUnicode f later) ∧
    fragsPerPlayerName Example.debug (Spec.encode Example.cutClients) = .panic := by
  have hs := splits_whole (fs := Example.cutClients) (by decide +kernel)
  refine ⟨hs.1, hs.2, by decide +kernel, ⟨[], _, _, rfl, chars!"a was telefragged by his teammate", [14, 0, 1, 0], chars!"a",
    ⟨⟨1, bytes!"a was telefragged by his teammate\n"⟩, by decide, rfl, by decide, by decide, [Char.ofNat 10], by decide,
      by decide, by decide⟩, ?_, by decide⟩, by decide +kernel⟩
  exact (C24_classification _ (.teamkillByUnknown chars!"a")).mp (by decide +kernel)

/-! ### Pings -/

namespace Example

/-- Frames with a ping of 65535 ms. -/
def slow (n : Nat) : List Frame := List.replicate n (all (ping 0 255 255))

end Example

theorem slow_updates : ∀ n, List.Forall₂ (fun (f : Frame) us => LeadingPings f.body us) (Example.slow n)
    (List.replicate n [(0, 65535)])
  | 0 => .nil
  | n + 1 => .cons (.step (.stop (by intro n lo hi x t e; cases e))) (slow_updates n)

/-- The hypotheses of `C33_wraps`, `C33_panics`, `C34_error` and `C34_players` are met: a sum of 131070. -/
example : Splits (Spec.encode (Example.slow 2)) (Example.slow 2) [] ∧ Stops (Spec.encode (Example.slow 2)).length [] ∧
    List.Forall₂ (fun (f : Frame) us => LeadingPings f.body us) (Example.slow 2) [[(0, 65535)], [(0, 65535)]] ∧
    sampledPings [[(0, 65535)], [(0, 65535)]] ≠ [] ∧
    65536 ≤ (samplesOf (sampledPings [[(0, 65535)], [(0, 65535)]]) 0).sum :=
  have hs := splits_whole (fs := Example.slow 2) (by decide +kernel)
  ⟨hs.1, hs.2, slow_updates 2, by decide, by decide⟩

theorem slow_cut (n : Nat) (hn : 0 < n) : Splits (Spec.encode (Example.slow n) ++ [1, 6, 3, 0, 0, 0]) (Example.slow n) [1, 6, 3, 0, 0, 0] ∧
    Overruns (Spec.encode (Example.slow n) ++ [1, 6, 3, 0, 0, 0]).length [1, 6, 3, 0, 0, 0] := by
  refine ⟨⟨rfl, ?_, noFrame_iff.mpr (by simp [Spec.announced])⟩, ?_⟩
  · intro f hf
    rw [(List.mem_replicate.mp hf).2]
    decide
  · obtain ⟨k, rfl⟩ := Nat.exists_eq_succ_of_ne_zero (Nat.ne_of_gt hn)
    have : Spec.encode (Example.slow k.succ) = (Example.all (Example.ping 0 255 255)).encode ++ Spec.encode (Example.slow k) := by
      simp [Spec.encode, Example.slow, List.replicate_succ]
    rw [this]
    simp [Overruns, Spec.announced, Example.all, Example.ping, Frame.encode, Frame.header]
    omega

/-- The hypotheses of `C06_ping` and `C06_ping_enough` are met: seven pings before the cut are not enough, eight are. -/
example : pingPerPlayerNumber Example.release (Spec.encode (Example.slow 7) ++ [1, 6, 3, 0, 0, 0]) = .panic ∧
    pingPerPlayerNumber Example.release (Spec.encode (Example.slow 8) ++ [1, 6, 3, 0, 0, 0]) =
      pingPerPlayerNumber Example.release (Spec.encode (Example.slow 8)) ∧
    pingPerPlayerNumber Example.release (Spec.encode (Example.slow 8)) = .ok [(0, 8191)] :=
  ⟨C06_ping Example.release _ _ _ _ (slow_cut 7 (by decide)).1 (slow_cut 7 (by decide)).2 (slow_updates 7) (by decide),
    C06_ping_enough Example.release _ _ _ _ (slow_cut 8 (by decide)).1 (slow_cut 8 (by decide)).2 (slow_updates 8) (by decide), by decide +kernel⟩

/-! ### Cut-off frames -/

/-- The hypotheses of `C06_flags` are met. -/
example : flagEventsPerPlayerName Example.debug (Spec.encode (Example.slow 3) ++ [1, 6, 3, 0, 0, 0]) = .panic :=
  C06_flags Example.debug _ _ _ (slow_cut 3 (by decide)).1 (slow_cut 3 (by decide)).2

namespace Example

/-- A frame that is announced longer than the data, with the print of the match date in it. -/
def cutCountdown : Bytes := [1, 6, 100, 0, 0, 0] ++ matchdatePrint

end Example

/-- The hypotheses of `C06_countdown_duration` are met: the match date print is in the frame that is cut off. -/
example : countdownDuration Example.debug (Spec.encode [Example.pad 200] ++ Example.cutCountdown) = .panic :=
  C06_countdown_duration Example.debug _ [Example.pad 200] Example.cutCountdown 1312 (by decide +kernel)
    (not_hoonymode _ (by decide +kernel) (by decide +kernel))
    ⟨rfl, by decide +kernel, noFrame_iff.mpr (by simp [Example.cutCountdown, Spec.announced, matchdatePrint])⟩ (by decide +kernel) (find_eq_some_iff.mp (by decide +kernel))
    (by decide +kernel)

/-- The hypotheses of `C37_panic` are met. -/
example : ∃ c d, demoDuration Example.release (Spec.encode Example.lateFrames) = .ok d ∧
    countdownDuration Example.release (Spec.encode Example.lateFrames) = .ok c ∧ d < c :=
  ⟨msToDuration 202, msToDuration 1, by decide +kernel⟩

/-- The hypotheses of `C39_panic` are met: a recorded duration of −1. -/
example : matchDuration Example.debug (Example.statsWith bytes!"{\"version\": 3, \"duration\": -1, }") = .panic := by
  refine C39_panic Example.debug _ chars!"{\"version\": 3, \"duration\": -1, }" chars!"-1" (.finite (-1)) (by decide +kernel)
    (not_hoonymode _ (by decide +kernel) (by decide +kernel)) (by decide +kernel) ?_ (by decide +kernel) ?_
  · exact ⟨chars!"{\"version\": 3, ", chars!" }", by decide, find_eq_some_iff.mp (by decide +kernel), by decide, by decide⟩
  · intro q hq
    cases hq
    left
    norm_num

/-- The hypotheses of `C39_stats_panic` are met: the block of the stats is too long. -/
example : matchDuration Example.debug (List.replicate 1300 7 ++ le32 100 ++ le16 3 ++ le16 0 ++ statsMarker) = .panic :=
  C39_stats_panic Example.debug _ (by decide +kernel) (not_hoonymode _ (by decide +kernel) (by decide +kernel)) (by decide +kernel)

end Mvd
