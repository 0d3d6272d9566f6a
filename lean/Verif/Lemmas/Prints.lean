import Verif.Lemmas.Walk
import Verif.Lemmas.Messages
import Verif.Lemmas.Search

/-! `prints` over a sequence of frames. -/

namespace Mvd
open Spec (Frame PrintMsg Splits Stops Overruns LeadingPrints)

/-- The loop body of `prints` on a frame. -/
def printsFrame (g : Env) (acc : List Print) (_ : Nat) (f : Frame) : R (Step (List Print)) :=
  if f.body.length > 0 then
    (printsBody g (f.body.length + 1) (Cursor.new f.body) acc).bind fun acc => .ok (.next acc)
  else .ok (.next acc)

/-- The loop body of `prints`. -/
def printsLoopBody (g : Env) (data : Bytes) (prints : List Print) (info : FrameInfo) : R (Step (List Print)) :=
  if info.bodySize > 0 then
    (info.body data).bind fun body =>
    (printsBody g (body.length + 1) (Cursor.new body) prints).bind fun prints => .ok (.next prints)
  else .ok (.next prints)

theorem prints_def (g : Env) (data : Bytes) :
    prints g data = (frameLoopFrom g data 0 [] (printsLoopBody g data)).bind fun ps => .ok (dedup ps) := rfl

theorem prints_describes (g : Env) (data : Bytes) : Describes data (printsLoopBody g data) (printsFrame g) := by
  intro s pre f post h
  have hb := body_encode h
  unfold printsLoopBody printsFrame
  have : (infoOf pre.length f).bodySize = f.body.length := rfl
  rw [this, hb]
  rfl

/-- The prints reported for one frame. -/
def reportedPrints (ps : List PrintMsg) : List Print := (ps.filter fun p => !p.text.isEmpty).map PrintMsg.reported

theorem printsFrame_eq (g : Env) (acc : List Print) (i : Nat) (f : Frame) (ps : List PrintMsg)
    (h : LeadingPrints f.body ps) : printsFrame g acc i f = .ok (.next (acc ++ reportedPrints ps)) := by
  obtain ⟨rem, e, hp, hn⟩ := h
  unfold printsFrame
  split
  · rw [show Cursor.new f.body = ⟨0, ps.flatMap PrintMsg.encode ++ rem⟩ by simp [Cursor.new, e]]
    rw [printsBody_eq g ps rem _ 0 acc hp hn (by rw [← e]; omega)]
    rfl
  · rename_i h0
    have h0 : f.body = [] := List.length_eq_zero_iff.mp (by omega)
    rw [h0] at e
    cases ps with
    | nil => simp [reportedPrints]
    | cons p ps => simp [encode_eq] at e

theorem runFrames_prints (g : Env) {fs : List Frame} {pss : List (List PrintMsg)}
    (h : List.Forall₂ (fun f ps => LeadingPrints f.body ps) fs pss) : ∀ (i : Nat) (acc : List Print),
    runFrames (printsFrame g) i acc fs = .ok (.next (acc ++ reportedPrints pss.flatten)) := by
  induction h with
  | nil => intro i acc; simp [runFrames, reportedPrints]
  | cons hf _ ih =>
    intro i acc
    simp only [runFrames, printsFrame_eq g acc i _ _ hf, R.bind]
    rw [ih]
    simp [reportedPrints]

theorem forall2_exists {α β : Type} {P : α → β → Prop} (h : ∀ a, ∃ b, P a b) : ∀ l : List α, ∃ m, List.Forall₂ P l m
  | [] => ⟨[], .nil⟩
  | a :: l => by
    obtain ⟨b, hb⟩ := h a
    obtain ⟨m, hm⟩ := forall2_exists h l
    exact ⟨b :: m, .cons hb hm⟩

theorem forall2_unique {α β : Type} {P : α → β → Prop} (h : ∀ a b c, P a b → P a c → b = c) :
    ∀ {l : List α} {m n : List β}, List.Forall₂ P l m → List.Forall₂ P l n → m = n
  | _, _, _, .nil, .nil => rfl
  | _, _, _, .cons h1 t1, .cons h2 t2 => by rw [h _ _ _ h1 h2, forall2_unique h t1 t2]

theorem forall2_mem_right {α β : Type} {P : α → β → Prop} {l : List α} {m : List β} (h : List.Forall₂ P l m) {b : β}
    (hb : b ∈ m) : ∃ a ∈ l, P a b := by
  induction h with
  | nil => simp at hb
  | cons hP _ ih =>
    simp only [List.mem_cons] at hb
    rcases hb with rfl | hb
    · exact ⟨_, by simp, hP⟩
    · obtain ⟨a, ha, hp⟩ := ih hb
      exact ⟨a, by simp [ha], hp⟩

theorem leading_exists (fs : List Frame) : ∃ pss, List.Forall₂ (fun (f : Frame) ps => LeadingPrints f.body ps) fs pss :=
  forall2_exists (fun f => leadingPrints_exists _ f.body (Nat.le_refl _)) fs

theorem prints_stops (g : Env) {data : Bytes} {fs : List Frame} {rest : Bytes} {pss : List (List PrintMsg)}
    (h : Splits data fs rest) (hs : Stops data.length rest)
    (hp : List.Forall₂ (fun f ps => LeadingPrints f.body ps) fs pss) :
    prints g data = .ok (dedup (reportedPrints pss.flatten)) := by
  have := walk_stops g (prints_describes g data) h.2.1 (pre := []) (by simpa using h.1) hs []
  simp only [List.length_nil] at this
  rw [prints_def, this, runFrames_prints g hp]
  simp [finish, R.bind]

theorem prints_overruns (g : Env) {data : Bytes} {fs : List Frame} {rest : Bytes}
    (h : Splits data fs rest) (hs : Overruns data.length rest) : prints g data = .panic := by
  obtain ⟨pss, hp⟩ := leading_exists fs
  obtain ⟨d, fl, hh, b, _, hlt, hb, _, e⟩ :=
    walk_overruns g (prints_describes g data) h.2.1 (pre := []) (by simpa using h.1) hs []
  simp only [List.length_nil] at e
  rw [prints_def, e, runFrames_prints g hp]
  simp only [R.bind]
  have : printsLoopBody g data ([] ++ reportedPrints pss.flatten)
      (infoAt (0 + (Spec.encode fs).length) d fl hh b) = .panic := by
    unfold printsLoopBody
    rw [if_pos (by simpa [infoAt] using hb), body_overrun (by simpa using hlt)]
    rfl
  rw [this]

end Mvd
