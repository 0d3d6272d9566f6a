import Verif.Lemmas.Ping
import Verif.Props.Frags

/-! C32–C34, C06 for `ping_per_player_number`. -/

namespace Mvd
open Spec

/-- Every sequence of frames has exactly one sequence of ping updates. -/
theorem C34_updates (fs : List Frame) :
    ∃ uss, List.Forall₂ (fun (f : Frame) us => LeadingPings f.body us) fs uss ∧
      ∀ l, List.Forall₂ (fun (f : Frame) us => LeadingPings f.body us) fs l → l = uss := by
  obtain ⟨uss, h⟩ := pings_exists fs
  exact ⟨uss, h, fun l hl => forall2_unique (P := fun (f : Frame) us => LeadingPings f.body us)
    (fun _ _ _ h h' => leadingPings_unique h h') hl h⟩

/-- C32: the ping of a player is the mean of the samples, rounded down. -/
theorem C32_pings (g : Env) (data : Bytes) (fs : List Frame) (rest : Bytes) (uss : List (List (UInt8 × Nat)))
    (h : Splits data fs rest) (hs : Stops data.length rest)
    (hu : List.Forall₂ (fun f us => LeadingPings f.body us) fs uss) (hne : sampledPings uss ≠ [])
    (hsum : ∀ p, (samplesOf (sampledPings uss) p).sum < 65536) :
    ∃ m, pingPerPlayerNumber g data = .ok m ∧
      ∀ p, m.get p =
        if p ∈ (sampledPings uss).map Prod.fst then
          some ((samplesOf (sampledPings uss) p).sum / (samplesOf (sampledPings uss) p).length)
        else none := by
  obtain ⟨n, ht⟩ := totalPings_eq g h (.inl hs) hu
  exact ping_of_averages g (avg := fun l => l.sum / l.length) ht hne fun p hp => averagePing_ok g _ (hsum p) (samplesOf_ne_nil hp)

/-- C33: without overflow checks the sum is reduced modulo 65536 before the division. -/
theorem C33_wraps (g : Env) (data : Bytes) (fs : List Frame) (rest : Bytes) (uss : List (List (UInt8 × Nat)))
    (h : Splits data fs rest) (hs : Stops data.length rest)
    (hu : List.Forall₂ (fun f us => LeadingPings f.body us) fs uss) (hne : sampledPings uss ≠ [])
    (hc : g.checks = false) :
    ∃ m, pingPerPlayerNumber g data = .ok m ∧
      ∀ p, m.get p =
        if p ∈ (sampledPings uss).map Prod.fst then
          some ((samplesOf (sampledPings uss) p).sum % 65536 / (samplesOf (sampledPings uss) p).length)
        else none := by
  obtain ⟨n, ht⟩ := totalPings_eq g h (.inl hs) hu
  exact ping_of_averages g (avg := fun l => l.sum % 65536 / l.length) ht hne
    fun p hp => averagePing_wrap g hc _ (samplesOf_ne_nil hp)

/-- C33: with overflow checks a sum of 65536 or more panics. -/
theorem C33_panics (g : Env) (data : Bytes) (fs : List Frame) (rest : Bytes) (uss : List (List (UInt8 × Nat)))
    (h : Splits data fs rest) (hs : Stops data.length rest)
    (hu : List.Forall₂ (fun f us => LeadingPings f.body us) fs uss) (hc : g.checks = true) (p : UInt8)
    (hsum : 65536 ≤ (samplesOf (sampledPings uss) p).sum) : pingPerPlayerNumber g data = .panic := by
  obtain ⟨n, ht⟩ := totalPings_eq g h (.inl hs) hu
  refine ping_panic g ht p ?_ (averagePing_panic g hc _ hsum)
  refine Classical.byContradiction fun hn => ?_
  have : samplesOf (sampledPings uss) p = [] := by
    unfold samplesOf
    rw [List.filter_eq_nil_iff.mpr]
    · rfl
    · intro e he h
      exact hn (List.mem_map.mpr ⟨e, he, by simpa using h⟩)
  rw [this] at hsum
  simp at hsum

/-- C34: the call fails exactly when no frame begins with a complete ping update. -/
theorem C34_error (g : Env) (data : Bytes) (fs : List Frame) (rest : Bytes) (h : Splits data fs rest)
    (hs : Stops data.length rest) (e : Err) :
    pingPerPlayerNumber g data = .err e ↔ e = .noPings ∧ ∀ f ∈ fs, NoPing f.body := by
  obtain ⟨uss, hu⟩ := pings_exists fs
  obtain ⟨n, ht⟩ := totalPings_eq g h (.inl hs) hu
  have hall : sampledPings uss = [] ↔ ∀ f ∈ fs, NoPing f.body := by
    have h1 : sampledPings uss = [] ↔ ∀ us ∈ uss, us = [] := by
      unfold sampledPings
      constructor
      · intro h us hus
        refine Classical.byContradiction fun hne => ?_
        cases hl : uss.filter fun us => us ≠ [] with
        | nil =>
          rw [List.filter_eq_nil_iff] at hl
          exact hl us hus (by simpa using hne)
        | cons a l =>
          rw [hl] at h
          simp only [List.take_succ_cons, List.flatten_cons, List.append_eq_nil_iff] at h
          have : a ∈ uss.filter fun us => us ≠ [] := by rw [hl]; simp
          rw [List.mem_filter] at this
          simp [h.1] at this
      · intro h
        rw [List.filter_eq_nil_iff.mpr]
        · rfl
        · intro us hus; simp [h us hus]
    rw [h1]
    clear h1 ht h hs
    have one : ∀ {body : Bytes} {us}, LeadingPings body us → (us = [] ↔ NoPing body) := by
      intro body us hl
      cases hl with
      | stop hn => simpa using hn
      | step _ =>
        simp only [reduceCtorEq, false_iff]
        intro hn
        exact hn _ _ _ _ _ rfl
    induction hu with
    | nil => simp
    | cons hf _ ih =>
      simp only [List.mem_cons, forall_eq_or_imp, one hf, ih]
  rw [← hall]
  by_cases hne : sampledPings uss = []
  · unfold pingPerPlayerNumber
    rw [ht]
    simp only [R.bind]
    rw [ping_isEmpty, if_pos (by simp [hne])]
    simp [hne, eq_comm]
  · simp only [hne, and_false, iff_false]
    intro he
    by_cases hp : ∃ p ∈ (sampledPings uss).map Prod.fst, averagePing g (samplesOf (sampledPings uss) p) = .panic
    · obtain ⟨p, hp, ha⟩ := hp
      rw [ping_panic g ht p hp ha] at he
      cases he
    · have hall : ∀ p, ∃ n, p ∈ (sampledPings uss).map Prod.fst → averagePing g (samplesOf (sampledPings uss) p) = .ok n := by
        intro p
        rcases averagePing_safe g (samplesOf (sampledPings uss) p) with ⟨n, hn⟩ | hn
        · exact ⟨n, fun _ => hn⟩
        · exact ⟨0, fun h => absurd ⟨p, h, hn⟩ hp⟩
      obtain ⟨m, hm, _⟩ := ping_of_averages g (avg := fun l => match averagePing g l with | .ok n => n | _ => 0) ht hne (by
        intro p hp
        obtain ⟨n, hn⟩ := hall p
        rw [hn hp])
      rw [hm] at he
      cases he

/-- C34: the reported player numbers are those of the sampled updates. -/
theorem C34_players (g : Env) (data : Bytes) (fs : List Frame) (rest : Bytes) (uss : List (List (UInt8 × Nat)))
    (h : Splits data fs rest) (hs : Stops data.length rest)
    (hu : List.Forall₂ (fun f us => LeadingPings f.body us) fs uss) (m : Map UInt8 Nat)
    (hm : pingPerPlayerNumber g data = .ok m) (p : UInt8) :
    (∃ ping, m.get p = some ping) ↔ ∃ ping, (p, ping) ∈ sampledPings uss := by
  have hmem : (∃ ping, (p, ping) ∈ sampledPings uss) ↔ p ∈ (sampledPings uss).map Prod.fst := by
    simp
  rw [hmem]
  obtain ⟨n, ht⟩ := totalPings_eq g h (.inl hs) hu
  have hne : sampledPings uss ≠ [] := by
    intro h0
    unfold pingPerPlayerNumber at hm
    rw [ht] at hm
    simp only [R.bind] at hm
    rw [ping_isEmpty, if_pos (by simp [h0])] at hm
    cases hm
  have hgen : ∀ avg : List Nat → Nat,
      (∀ p ∈ (sampledPings uss).map Prod.fst, averagePing g (samplesOf (sampledPings uss) p) =
        .ok (avg (samplesOf (sampledPings uss) p))) →
      ((∃ ping, m.get p = some ping) ↔ p ∈ (sampledPings uss).map Prod.fst) := by
    intro avg ha
    obtain ⟨m', hm', hg⟩ := ping_of_averages g ht hne ha
    rw [hm] at hm'
    cases hm'
    rw [hg]
    split <;> simp [*]
  refine hgen (fun l => match averagePing g l with | .ok n => n | _ => 0) ?_
  intro q hq
  rcases averagePing_safe g (samplesOf (sampledPings uss) q) with ⟨n, hn⟩ | hn
  · rw [hn]
  · rw [ping_panic g ht q hq hn] at hm
    cases hm

/-- C06 for `ping_per_player_number`: a cut-off frame makes it panic, unless eight frames with pings come before it. -/
theorem C06_ping (g : Env) (data : Bytes) (fs : List Frame) (rest : Bytes) (uss : List (List (UInt8 × Nat)))
    (h : Splits data fs rest) (hs : Overruns data.length rest)
    (hu : List.Forall₂ (fun f us => LeadingPings f.body us) fs uss) (h8 : (uss.filter fun us => us ≠ []).length < 8) :
    pingPerPlayerNumber g data = .panic := by
  unfold pingPerPlayerNumber
  rw [totalPings_panic g h hs hu h8]
  rfl

/-- C06 for `ping_per_player_number`: with eight frames with pings before the cut the result is that of the complete
frames. -/
theorem C06_ping_enough (g : Env) (data : Bytes) (fs : List Frame) (rest : Bytes) (uss : List (List (UInt8 × Nat)))
    (h : Splits data fs rest) (hs : Overruns data.length rest)
    (hu : List.Forall₂ (fun f us => LeadingPings f.body us) fs uss) (h8 : 8 ≤ (uss.filter fun us => us ≠ []).length) :
    pingPerPlayerNumber g data = pingPerPlayerNumber g (Spec.encode fs) := by
  obtain ⟨n, ht⟩ := totalPings_eq g h (.inr ⟨hs, h8⟩) hu
  obtain ⟨n', ht'⟩ := totalPings_eq g (data := Spec.encode fs) (fs := fs) (rest := [])
    ⟨by simp, h.2.1, noFrame_iff.mpr (by simp [Spec.announced])⟩ (.inl (by simp [Stops, Spec.announced])) hu
  unfold pingPerPlayerNumber
  rw [ht, ht']
  rfl

namespace Example

/-- A ping update with its packet loss update. -/
def ping (player : UInt8) (lo hi : UInt8) : Bytes := [36, player, lo, hi, 53, player, 0]

/-- Three frames with pings of players 0 and 3, a frame that does not begin with a ping. -/
def pingFrames : List Frame := [all (ping 0 25 0 ++ ping 3 0 1), all [9], all (ping 0 26 0), all ([9] ++ ping 0 99 0),
  all (ping 3 1 1)]

theorem pingFrames_updates : List.Forall₂ (fun (f : Frame) us => LeadingPings f.body us) pingFrames
    [[(0, 25), (3, 256)], [], [(0, 26)], [], [(3, 257)]] := by
  have hnil : NoPing [] := by intro n lo hi x t h; cases h
  have h9 : ∀ t, NoPing (9 :: t) := by intro t n lo hi x t' h; cases h
  refine .cons (.step (.step (.stop hnil))) (.cons (.stop (h9 _)) (.cons (.step (.stop hnil)) (.cons (.stop (h9 _))
    (.cons (.step (.stop hnil)) .nil))))

end Example

theorem samplesOf_sum_le : ∀ (l : List (UInt8 × Nat)) (p : UInt8), (samplesOf l p).sum ≤ (l.map fun u => u.2).sum
  | [], p => Nat.le_refl _
  | u :: l, p => by
    have := samplesOf_sum_le l p
    unfold samplesOf at this ⊢
    rw [List.filter_cons]
    split <;> simp <;> omega

/-- The hypotheses of C32 are met: the means 25.5 and 256.5 are rounded down. -/
example : Splits (Spec.encode Example.pingFrames) Example.pingFrames [] ∧
    Stops (Spec.encode Example.pingFrames).length [] ∧
    (∃ uss, List.Forall₂ (fun f us => LeadingPings f.body us) Example.pingFrames uss ∧ sampledPings uss ≠ [] ∧
      ∀ p, (samplesOf (sampledPings uss) p).sum < 65536) ∧
    pingPerPlayerNumber Example.debug (Spec.encode Example.pingFrames) = .ok [(0, 25), (3, 256)] :=
  ⟨⟨by simp, by decide +kernel, noFrame_iff.mpr (by simp [Spec.announced])⟩, by decide,
    ⟨_, Example.pingFrames_updates, by decide, fun p => Nat.lt_of_le_of_lt (samplesOf_sum_le _ p) (by decide)⟩,
    by decide +kernel⟩

/-- C33, witness: two pings of 65535 ms. Their mean is reported as 32767 in a release build; a debug build panics. -/
theorem C33_witness :
    pingPerPlayerNumber Example.debug (Spec.encode [Example.all (Example.ping 0 255 255), Example.all (Example.ping 0 255 255)])
      = .panic ∧
    pingPerPlayerNumber Example.release (Spec.encode [Example.all (Example.ping 0 255 255), Example.all (Example.ping 0 255 255)])
      = .ok [(0, 32767)] := by decide +kernel

end Mvd
