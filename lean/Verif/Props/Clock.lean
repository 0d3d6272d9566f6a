import Verif.Props.Duration

/-! C99: durations depend on the headers of the frames and on where the words are that begin and end the match. -/

namespace Mvd
open Spec

/-- Frames of the same sizes, the times of the first no longer than those of the second. -/
def NoSlower (fs fs' : List Frame) : Prop :=
  List.Forall₂ (fun f f' : Frame => f.encode.length = f'.encode.length ∧ f.duration.toNat ≤ f'.duration.toNat) fs fs'

/-- Frames of the same sizes and times. -/
def SamePace (fs fs' : List Frame) : Prop :=
  List.Forall₂ (fun f f' : Frame => f.encode.length = f'.encode.length ∧ f.duration = f'.duration) fs fs'

theorem msFrom_noSlower {target : Nat} : ∀ {fs fs' : List Frame} (i : Nat), NoSlower fs fs' →
    (((starts i fs).filter fun p => p.1 < target).map fun p => p.2.duration.toNat).sum ≤
      (((starts i fs').filter fun p => p.1 < target).map fun p => p.2.duration.toNat).sum
  | [], [], _, _ => Nat.le_refl _
  | f :: fs, f' :: fs', i, h => by
    obtain ⟨⟨hl, hd⟩, ht⟩ := List.forall₂_cons.mp h
    have := msFrom_noSlower (target := target) (i + f.encode.length) ht
    simp only [starts, ← hl, List.filter_cons]
    split
    · simp only [List.map_cons, List.sum_cons]
      omega
    · exact this
  | [], _ :: _, _, h => nomatch h
  | _ :: _, [], _, h => nomatch h

theorem SamePace.noSlower {fs fs' : List Frame} (h : SamePace fs fs') : NoSlower fs fs' ∧ NoSlower fs' fs :=
  ⟨h.imp fun _ _ e => ⟨e.1, e.2 ▸ Nat.le_refl _⟩, (h.imp fun _ _ e => ⟨e.1.symm, e.2 ▸ Nat.le_refl _⟩).flip⟩

theorem msBefore_pace {target : Nat} {fs fs' : List Frame} (h : SamePace fs fs') : msBefore target fs = msBefore target fs' :=
  Nat.le_antisymm (msFrom_noSlower 0 h.noSlower.1) (msFrom_noSlower 0 h.noSlower.2)

/-- C99: of two demos measured to the same offset, whose frames have the same sizes, the one with the longer frames is
the longer one, whatever the frames contain. -/
theorem C99_longer (g : Env) (data data' : Bytes) (fs fs' : List Frame) (rest rest' : Bytes) (target : Nat)
    (h : Splits data fs rest) (hs : Stops data.length rest) (h' : Splits data' fs' rest') (hs' : Stops data'.length rest')
    (he : NoSlower fs fs') (ht : MeasuredTo data target) (ht' : MeasuredTo data' target)
    (hms : msBefore target fs' < 2 ^ 32) :
    ∃ d d', demoDuration g data = .ok d ∧ demoDuration g data' = .ok d' ∧ d ≤ d' :=
  have hle : msBefore target fs ≤ msBefore target fs' := msFrom_noSlower 0 he
  ⟨_, _, demo_ms g data fs rest target h ht (.inl hs) (by omega),
    demo_ms g data' fs' rest' target h' ht' (.inl hs') hms, C36_monotone _ _ hle⟩

/-- C99: the same for the countdown, when the match dates stand at the same offset. -/
theorem C99_longer_countdown (g : Env) (data data' : Bytes) (fs fs' : List Frame) (rest rest' : Bytes) (o : Nat)
    (hl : 1280 ≤ data.length) (hh : ¬ Hoonymode g data) (hl' : 1280 ≤ data'.length) (hh' : ¬ Hoonymode g data')
    (h : Splits data fs rest) (hs : Stops data.length rest) (h' : Splits data' fs' rest') (hs' : Stops data'.length rest')
    (he : NoSlower fs fs') (ho : FirstAt matchdatePrint data o) (ho' : FirstAt matchdatePrint data' o)
    (hms : msBefore o fs' < 2 ^ 32) :
    ∃ d d', countdownDuration g data = .ok d ∧ countdownDuration g data' = .ok d' ∧ d ≤ d' :=
  have hle : msBefore o fs ≤ msBefore o fs' := msFrom_noSlower 0 he
  ⟨_, _, countdown_ms g data fs rest o hl hh h ho (.inl hs) (by omega),
    countdown_ms g data' fs' rest' o hl' hh' h' ho' (.inl hs') hms, C36_monotone _ _ hle⟩

/-- C99: frames of the same sizes and times make demos of the same duration, also when the total does not fit into 32
bits, if the demos are measured to the same offset. -/
theorem C99_demo (g : Env) (data data' : Bytes) (fs fs' : List Frame) (rest rest' : Bytes) (target : Nat)
    (h : Splits data fs rest) (hs : Stops data.length rest) (h' : Splits data' fs' rest') (hs' : Stops data'.length rest')
    (he : SamePace fs fs') (ht : MeasuredTo data target) (ht' : MeasuredTo data' target) :
    demoDuration g data = demoDuration g data' := by
  have e := msBefore_pace (target := target) he
  by_cases hms : msBefore target fs < 2 ^ 32
  · rw [demo_ms g data fs rest target h ht (.inl hs) hms,
      demo_ms g data' fs' rest' target h' ht' (.inl hs') (e ▸ hms), e]
  · have hms := Nat.le_of_not_lt hms
    have a := demo_ms_overflow g data fs rest target h ht (.inl hs) hms
    have b := demo_ms_overflow g data' fs' rest' target h' ht' (.inl hs') (e ▸ hms)
    cases hc : g.checks
    · rw [a.2 hc, b.2 hc, e]
    · rw [a.1 hc, b.1 hc]

/-- C99: and the same countdown, if the match date stands at the same offset or nowhere. -/
theorem C99_countdown (g : Env) (data data' : Bytes) (fs fs' : List Frame) (rest rest' : Bytes)
    (hl : 1280 ≤ data.length) (hl' : 1280 ≤ data'.length) (hh : Hoonymode g data ↔ Hoonymode g data')
    (h : Splits data fs rest) (hs : Stops data.length rest) (h' : Splits data' fs' rest') (hs' : Stops data'.length rest')
    (he : SamePace fs fs') (ho : ∀ o, FirstAt matchdatePrint data o ↔ FirstAt matchdatePrint data' o) :
    countdownDuration g data = countdownDuration g data' := by
  by_cases hm : Hoonymode g data
  · rw [(C38_hoonymode g data hl hm).1, (C38_hoonymode g data' hl' (hh.mp hm)).1]
  have hm' : ¬ Hoonymode g data' := fun x => hm (hh.mpr x)
  cases hf : find matchdatePrint data with
  | none =>
    have hf' : find matchdatePrint data' = none := by
      cases hf' : find matchdatePrint data' with
      | none => rfl
      | some o => rw [find_eq_some_iff.mpr ((ho o).mpr (find_eq_some_iff.mp hf'))] at hf; cases hf
    rw [(C35_no_countdown g data hl hm).mpr (find_eq_none_iff.mp hf), (C35_no_countdown g data' hl' hm').mpr (find_eq_none_iff.mp hf')]
  | some o =>
    have hf := find_eq_some_iff.mp hf
    have hf' := (ho o).mp hf
    have e := msBefore_pace (target := o) he
    by_cases hms : msBefore o fs < 2 ^ 32
    · rw [countdown_ms g data fs rest o hl hm h hf (.inl hs) hms,
        countdown_ms g data' fs' rest' o hl' hm' h' hf' (.inl hs') (e ▸ hms), e]
    · have hms := Nat.le_of_not_lt hms
      have a := countdown_ms_overflow g data fs rest o hl hm h hf (.inl hs) hms
      have b := countdown_ms_overflow g data' fs' rest' o hl' hm' h' hf' (.inl hs') (e ▸ hms)
      cases hc : g.checks
      · rw [a.2 hc, b.2 hc, e]
      · rw [a.1 hc, b.1 hc]

/-- C99: and the same match duration by seeking. -/
theorem C99_match (g : Env) (data data' : Bytes) (fs fs' : List Frame) (rest rest' : Bytes) (target : Nat)
    (hl : 1280 ≤ data.length) (hl' : 1280 ≤ data'.length) (hh : Hoonymode g data ↔ Hoonymode g data')
    (h : Splits data fs rest) (hs : Stops data.length rest) (h' : Splits data' fs' rest') (hs' : Stops data'.length rest')
    (he : SamePace fs fs') (ht : MeasuredTo data target) (ht' : MeasuredTo data' target)
    (ho : ∀ o, FirstAt matchdatePrint data o ↔ FirstAt matchdatePrint data' o) :
    matchDurationFromSeeking g data = matchDurationFromSeeking g data' := by
  unfold matchDurationFromSeeking
  rw [C99_demo g data data' fs fs' rest rest' target h hs h' hs' he ht ht',
    C99_countdown g data data' fs fs' rest rest' hl hl' hh h hs h' hs' he ho]

/-- The match of `playFrames` with another message during play and a slower frame. -/
def Example.slowFrames : List Frame := [Example.pad 200,
  ⟨100, 6, [], matchdatePrint ++ bytes!"2025-01-01 00:00:00 CET\n" ++ [0]⟩,
  ⟨9, 6, [], [8]⟩, ⟨2, 6, [], [8, 2] ++ matchOver ++ [0]⟩, ⟨50, 6, [], standby⟩]

/-- The hypotheses of `C99_longer` and `C99_longer_countdown` are met. -/
example : NoSlower Example.playFrames Example.slowFrames ∧ ¬ SamePace Example.playFrames Example.slowFrames ∧
    1280 ≤ (Spec.encode Example.slowFrames).length ∧
    Splits (Spec.encode Example.slowFrames) Example.slowFrames [] ∧ Stops (Spec.encode Example.slowFrames).length [] ∧
    FirstAt matchdatePrint (Spec.encode Example.slowFrames) 1312 ∧ MeasuredTo (Spec.encode Example.slowFrames) 1365 ∧
    demoDuration Example.debug (Spec.encode Example.playFrames) = .ok 303000003 ∧
    demoDuration Example.debug (Spec.encode Example.slowFrames) = .ok 310999990 ∧
    countdownDuration Example.debug (Spec.encode Example.slowFrames) = .ok 300000012 := by
  refine ⟨?_, ?_, by decide +kernel, ⟨by simp, by decide +kernel, noFrame_iff.mpr (by simp [Spec.announced])⟩,
    by decide +kernel, by decide +kernel, by decide +kernel, by decide +kernel, by decide +kernel, by decide +kernel⟩
  · unfold NoSlower; decide +kernel
  · unfold SamePace; decide +kernel

/-- The hypotheses of `C99_demo` are met: another text, the same sizes and times. -/
example : SamePace [Example.all [8, 2, 65, 0]] [⟨1, 1, [], [8, 3, 66, 0]⟩] ∧
    MeasuredTo (Spec.encode [Example.all [8, 2, 65, 0]]) 10 := by
  refine ⟨?_, by decide +kernel⟩
  unfold SamePace; decide +kernel

/-- The match of `playFrames` with another date and another message during play. -/
def Example.otherFrames : List Frame := [Example.pad 200,
  ⟨100, 6, [], matchdatePrint ++ bytes!"2025-01-01 00:00:00 CET\n" ++ [0]⟩,
  ⟨1, 1, [], [8]⟩, ⟨2, 6, [], [8, 2] ++ matchOver ++ [0]⟩, ⟨50, 6, [], standby⟩]

/-- The hypotheses of `C99_countdown` and `C99_match` are met. -/
example : SamePace Example.playFrames Example.otherFrames ∧ Example.playFrames ≠ Example.otherFrames ∧
    1280 ≤ (Spec.encode Example.otherFrames).length ∧
    Splits (Spec.encode Example.otherFrames) Example.otherFrames [] ∧ Stops (Spec.encode Example.otherFrames).length [] ∧
    MeasuredTo (Spec.encode Example.playFrames) 1365 ∧ MeasuredTo (Spec.encode Example.otherFrames) 1365 ∧
    (∀ o, FirstAt matchdatePrint (Spec.encode Example.playFrames) o ↔ FirstAt matchdatePrint (Spec.encode Example.otherFrames) o) ∧
    matchDurationFromSeeking Example.debug (Spec.encode Example.otherFrames) = .ok 2999991 := by
  refine ⟨?_, by decide +kernel, by decide +kernel, ⟨by simp, by decide +kernel, noFrame_iff.mpr (by simp [Spec.announced])⟩,
    by decide +kernel, by decide +kernel, by decide +kernel, fun o => ?_, by decide +kernel⟩
  · unfold SamePace; decide +kernel
  · have h1 : FirstAt matchdatePrint (Spec.encode Example.playFrames) 1312 := by decide +kernel
    have h2 : FirstAt matchdatePrint (Spec.encode Example.otherFrames) 1312 := by decide +kernel
    exact ⟨fun h => h.unique h1 ▸ h2, fun h => h.unique h2 ▸ h1⟩

end Mvd
