import Verif.Lemmas.Prints
import Verif.Props.Example

/-! C04, C05, C06 (prints). -/

namespace Mvd
open Spec (Frame PrintMsg Splits Stops Overruns LeadingPrints Collapses)

/-- C04: `prints` lists the non-empty print messages of the unbroken run at the start of each frame body, in order,
and collapses only adjacent repetitions. -/
theorem C04_prints (g : Env) (data : Bytes) (fs : List Frame) (rest : Bytes) (pss : List (List PrintMsg))
    (h : Splits data fs rest) (hs : Stops data.length rest)
    (hp : List.Forall₂ (fun f ps => LeadingPrints f.body ps) fs pss) :
    ∃ out, prints g data = .ok out ∧
      Collapses ((pss.flatten.filter fun p => p.text ≠ []).map PrintMsg.reported) out := by
  refine ⟨_, prints_stops g h hs hp, ?_⟩
  have : (reportedPrints pss.flatten) = (pss.flatten.filter fun p => p.text ≠ []).map PrintMsg.reported := by
    unfold reportedPrints
    congr 2
    funext p
    by_cases hp : p.text = [] <;> simp [hp]
  rw [← this]
  exact dedup_collapses _

/-- C04: the leading prints of a frame body always exist and are determined by the body; so C04_prints applies to every
data whose walk is not cut off, and determines the result. -/
theorem C04_leading_prints (body : Bytes) :
    (∃ ps, LeadingPrints body ps) ∧ ∀ ps qs, LeadingPrints body ps → LeadingPrints body qs → ps = qs :=
  ⟨leadingPrints_exists _ body (Nat.le_refl _), fun _ _ h k => leadingPrints_unique h k⟩

/-- C04: collapsing is determined, too. -/
theorem C04_collapse_unique {α : Type} [DecidableEq α] (long a b : List α) (ha : Collapses long a)
    (hb : Collapses long b) : a = b := collapses_unique ha hb

/-- Two frames: a repeated print with a different message behind, and a frame with no print in front. -/
def Example.printFrames : List Frame := [
  ⟨0, 6, [], [8, 2, 104, 105, 0, 8, 2, 104, 105, 0, 8, 3, 0, 9, 8, 2, 120, 0]⟩, ⟨3, 6, [], [9, 8, 2, 104, 105, 0]⟩]

theorem Example.printFrames_leading : List.Forall₂ (fun f ps => LeadingPrints f.body ps) Example.printFrames
    [[⟨2, [104, 105]⟩, ⟨2, [104, 105]⟩, ⟨3, []⟩], []] := by
  refine .cons ⟨[9, 8, 2, 120, 0], by decide, by decide, ?_⟩ (.cons ⟨[9, 8, 2, 104, 105, 0], by decide, by decide, ?_⟩ .nil)
  · rw [noPrint_cons_iff]; decide
  · rw [noPrint_cons_iff]; decide

/-- The hypotheses of C04 are met with a non-trivial result. -/
example : Splits (Spec.encode Example.printFrames) Example.printFrames [] ∧
    Stops (Spec.encode Example.printFrames).length [] ∧
    prints Example.debug (Spec.encode Example.printFrames) = .ok [⟨.high, [104, 105]⟩] :=
  ⟨⟨by simp, by decide, noFrame_iff.mpr (by simp [Spec.announced])⟩, by decide, by decide +kernel⟩

/-- C05: every returned print has a non-empty text without NUL that lies in the data together with the level byte and
terminator of the message, and neighbouring prints differ. -/
theorem C05_print_shape (g : Env) (data : Bytes) (out : List Print) (h : prints g data = .ok out) :
    (∀ p ∈ out, p.content ≠ [] ∧ (0 : UInt8) ∉ p.content ∧
      ∃ pre level post, data = pre ++ [8, level] ++ p.content ++ [0] ++ post ∧ p.id = (PrintMsg.mk level p.content).id) ∧
    ∀ i, ∀ hi : i + 1 < out.length, out[i] ≠ out[i + 1] := by
  obtain ⟨fs, rest, hsp⟩ := splits_exists _ data (Nat.le_refl _)
  rcases stops_or_overruns (n := data.length) hsp.2.2 with ⟨hs, _⟩ | ⟨ho, _⟩
  · obtain ⟨pss, hp⟩ := leading_exists fs
    obtain ⟨out', e, hc⟩ := C04_prints g data fs rest pss hsp hs hp
    rw [h] at e
    cases e
    refine ⟨?_, hc.1⟩
    intro p hmem
    have hmem := collapses_mem hc hmem
    simp only [List.mem_map, List.mem_filter, List.mem_flatten, decide_eq_true_eq] at hmem
    obtain ⟨q, ⟨⟨ps, hps, hq⟩, hne⟩, rfl⟩ := hmem
    obtain ⟨f, hf, hl⟩ := forall2_mem_right hp hps
    obtain ⟨rem, e, hwf, _⟩ := hl
    refine ⟨hne, hwf q hq, ?_⟩
    obtain ⟨a, b, rfl⟩ := List.append_of_mem hq
    obtain ⟨c, d, rfl⟩ := List.append_of_mem hf
    refine ⟨Spec.encode c ++ f.header ++ a.flatMap PrintMsg.encode, q.level,
      b.flatMap PrintMsg.encode ++ rem ++ Spec.encode d ++ rest, ?_, rfl⟩
    rw [hsp.1]
    simp [Spec.encode, Frame.encode, e, PrintMsg.encode, PrintMsg.reported]
  · rw [prints_overruns g hsp ho] at h
    cases h

example : ∃ out, prints Example.debug (Spec.encode Example.printFrames) = .ok out ∧ out ≠ [] :=
  ⟨[⟨.high, [104, 105]⟩], by decide +kernel, by simp⟩

/-- C06 for `prints`: it returns normally unless the data ends in a cut-off frame whose announced size is at most the
length of the data, and then it panics. -/
theorem C06_prints (g : Env) (data : Bytes) :
    (prints g data = .panic ↔ ∃ fs rest, Splits data fs rest ∧ Overruns data.length rest) ∧
    ((∃ out, prints g data = .ok out) ↔ ∃ fs rest, Splits data fs rest ∧ Stops data.length rest) := by
  obtain ⟨fs, rest, hsp⟩ := splits_exists _ data (Nat.le_refl _)
  obtain ⟨pss, hp⟩ := leading_exists fs
  have key : ∀ fs' rest', Splits data fs' rest' → rest' = rest := fun _ _ h => (splits_unique h hsp).2
  rcases stops_or_overruns (n := data.length) hsp.2.2 with ⟨hs, hn⟩ | ⟨ho, hn⟩
  · have e := prints_stops g hsp hs hp
    rw [e]
    refine ⟨⟨fun h => by simp at h, ?_⟩, ⟨fun _ => ⟨fs, rest, hsp, hs⟩, fun _ => ⟨_, rfl⟩⟩⟩
    rintro ⟨fs', rest', h1, h2⟩
    rw [key _ _ h1] at h2
    exact absurd h2 hn
  · have e := prints_overruns g hsp ho
    rw [e]
    refine ⟨⟨fun _ => ⟨fs, rest, hsp, ho⟩, fun _ => rfl⟩, ⟨fun ⟨_, h⟩ => by simp at h, ?_⟩⟩
    rintro ⟨fs', rest', h1, h2⟩
    rw [key _ _ h1] at h2
    exact absurd h2 hn

/-- C06, counterexample: a demo of two frames cut off in the second one makes `prints` panic. -/
theorem C06_prints_witness :
    let data := Spec.encode [⟨0, 6, [], [8, 2, 104, 105, 0]⟩, ⟨0, 6, [], [8, 2, 104, 105, 0]⟩]
    prints Example.release (data.take (data.length - 1)) = .panic := by decide +kernel

end Mvd
