import Verif.Lemmas.Frags
import Verif.Props.Robustness
import Verif.Props.Growth
import Verif.Props.Ktxstats
import Verif.Spec.Work

/-! C102: the work that is done is proportional to the size of the demo. -/

namespace Mvd
open Spec (Frame Splits Stops Overruns Rounds)

private theorem rounds_of {α : Type} {loop : Nat → R α} : ∀ {n : Nat}, loop n ≠ .hang → ∃ m ≤ n, Rounds loop m
  | 0, h => ⟨0, Nat.le_refl 0, h, fun k hk => absurd hk (by omega)⟩
  | n + 1, h => by
    by_cases hn : ∃ k ≤ n, loop k ≠ .hang
    · obtain ⟨k, hk, hh⟩ := hn
      obtain ⟨m, hm, hr⟩ := rounds_of hh
      exact ⟨m, by omega, hr⟩
    · exact ⟨n + 1, Nat.le_refl _, h, fun k hk => Classical.byContradiction fun hh => hn ⟨k, by omega, hh⟩⟩
termination_by n => n
decreasing_by omega

/-- A walk over frames goes round once for every frame, and once or twice for what is left. -/
private theorem walk_fuel {σ : Type} (g : Env) {data : Bytes} {body : σ → FrameInfo → R (Step σ)}
    (hb : ∀ s info, body s info ≠ .hang) {rest : Bytes} : ∀ (fs : List Frame) (pre : Bytes) (s : σ), (∀ f ∈ fs, f.WF) →
    data = pre ++ Spec.encode fs ++ rest →
    (Stops data.length rest → frameLoop g data body (fs.length + 1) pre.length s ≠ .hang) ∧
    (Overruns data.length rest → frameLoop g data body (fs.length + 2) pre.length s ≠ .hang)
  | [], pre, s, _, he => by
    have he : data = pre ++ rest := by simpa [Spec.encode] using he
    refine ⟨fun hs => ?_, fun hs => ?_⟩
    · rw [List.length_nil, frameLoop_stops g he hs]
      exact ok_halts _
    · obtain ⟨d, fl, h, b, _, _, _, _, e⟩ := frameLoop_overruns g (body := body) he hs 0 s
      rw [List.length_nil, e]
      refine bind_halts (hb _ _) fun st _ => ?_
      cases st
      · exact panic_halts
      · exact ok_halts _
  | f :: fs, pre, s, hwf, he => by
    have he' : data = pre ++ f.encode ++ (Spec.encode fs ++ rest) := by simp [he, Spec.encode]
    have hsz : (infoOf pre.length f).size = f.encode.length := by simp [infoOf, infoAt, Frame_encode_length]
    have ih := fun s => walk_fuel (data := data) g hb (rest := rest) fs (pre ++ f.encode) s (fun x hx => hwf x (by simp [hx])) (by simp [he'])
    simp only [List.length_append] at ih
    have step : ∀ n, (∀ s, frameLoop g data body n (pre.length + f.encode.length) s ≠ .hang) →
        frameLoop g data body (n + 1) pre.length s ≠ .hang := by
      intro n hn
      simp only [frameLoop, fromData_encode g (hwf f (by simp)) he', hsz]
      refine bind_halts (hb _ _) fun st _ => ?_
      cases st
      · exact hn _
      · exact ok_halts _
    exact ⟨fun hs => step _ fun s => (ih s).1 hs, fun hs => step _ fun s => (ih s).2 hs⟩

/-- C102: a walk over a demo, whatever is done with the frames, reads one header per frame and one more, or two more if the demo ends
within a frame. There are at most half as many frames as bytes. -/
theorem C102_walk {σ : Type} (g : Env) (data rest : Bytes) (fs : List Frame) (h : Splits data fs rest)
    (body : σ → FrameInfo → R (Step σ)) (hb : ∀ s info, body s info ≠ .hang) (s : σ) :
    2 * fs.length ≤ data.length ∧ ∃ n, Rounds (fun fuel => frameLoop g data body fuel 0 s) n ∧
      (Stops data.length rest → n ≤ fs.length + 1) ∧ n ≤ fs.length + 2 := by
  have hlen := length_le_encode fs
  have hd : data.length = (Spec.encode fs).length + rest.length := by rw [h.1]; simp
  have hw := walk_fuel g hb fs [] s h.2.1 (by simpa using h.1)
  refine ⟨by omega, ?_⟩
  rcases stops_or_overruns (n := data.length) h.2.2 with ⟨hs, _⟩ | ⟨hs, hs'⟩
  · obtain ⟨n, hn, hr⟩ := rounds_of (loop := fun fuel => frameLoop g data body fuel 0 s) (hw.1 hs)
    exact ⟨n, hr, fun _ => hn, by omega⟩
  · obtain ⟨n, hn, hr⟩ := rounds_of (loop := fun fuel => frameLoop g data body fuel 0 s) (hw.2 hs)
    exact ⟨n, hr, fun x => absurd x hs', hn⟩

/-- The rounds a search makes that ends after `c` frames that are not empty. -/
private def visits : Nat → List Frame → Nat
  | 0, _ => 1
  | _ + 1, [] => 1
  | c + 1, f :: fs => 1 + visits (if f.body = [] then c + 1 else c) fs

private theorem visits_zero (fs : List Frame) : visits 0 fs = 1 := by cases fs <;> rfl

private theorem visits_pos : ∀ (c : Nat) (fs : List Frame), 1 ≤ visits c fs
  | 0, fs => Nat.le_of_eq (visits_zero fs).symm
  | _ + 1, [] => Nat.le_refl 1
  | _ + 1, _ :: _ => by rw [visits]; omega

private theorem look_fuel (g : Env) {data rest : Bytes} (hs : Stops data.length rest) : ∀ (fs : List Frame) (pre : Bytes) (c : Nat)
    (numbers : List UInt8), (∀ f ∈ fs, f.WF) → data = pre ++ Spec.encode fs ++ rest →
    frameLoop g data (lookBody g data) (visits (4 - c) fs) pre.length (c, numbers) ≠ .hang
  | [], pre, c, numbers, _, he => by
    have he : data = pre ++ rest := by simpa [Spec.encode] using he
    have : visits (4 - c) [] = 0 + 1 := by cases 4 - c <;> rfl
    rw [this, frameLoop_stops g he hs]
    exact ok_halts _
  | f :: fs, pre, c, numbers, hwf, he => by
    have he' : data = pre ++ f.encode ++ (Spec.encode fs ++ rest) := by simp [he, Spec.encode]
    have hsz : (infoOf pre.length f).size = f.encode.length := by simp [infoOf, infoAt, Frame_encode_length]
    have ih := fun c numbers => look_fuel g hs fs (pre ++ f.encode) c numbers (fun x hx => hwf x (by simp [hx])) (by simp [he'])
    simp only [List.length_append] at ih
    have hd := look_describes g data (c, numbers) pre f _ he'
    by_cases hc : c ≥ 4
    · have : visits (4 - c) (f :: fs) = 0 + 1 := by rw [Nat.sub_eq_zero_of_le hc, visits_zero]
      rw [this]
      simp only [frameLoop, fromData_encode g (hwf f (by simp)) he', hd, lookFrame, hc, if_true, R.bind]
      exact ok_halts _
    · obtain ⟨k, hk⟩ : ∃ k, 4 - c = k + 1 := ⟨3 - c, by omega⟩
      rw [hk, visits, Nat.add_comm 1]
      simp only [frameLoop, fromData_encode g (hwf f (by simp)) he', hd, lookFrame, hc, if_false, hsz]
      by_cases h0 : f.body = []
      · simp only [h0, if_true, R.bind]
        rw [← hk]
        exact ih c numbers
      · simp only [h0, if_false, R.bind]
        rw [show k = 4 - (c + 1) by omega]
        exact ih (c + 1) _

private theorem entryOf_short (g : Env) (i : Nat) (f : Frame) :
    entryOf g i f = [] ∨ f.body ≠ [] ∧ ∃ p, entryOf g i f = [(p, infoOf i f)] := by
  by_cases h0 : f.body = []
  · refine .inl ?_
    unfold entryOf
    rw [h0]
    simp [Cursor.new, readMessageType_nil]
  · unfold entryOf
    split
    · split
      · split
        · split
          · exact .inr ⟨h0, _, rfl⟩
          · exact .inl rfl
        · exact .inl rfl
      · exact .inl rfl
    · exact .inl rfl

/-- All the searches together, with two that are under way. -/
private theorem search_sum (g : Env) {data rest : Bytes} (hs : Stops data.length rest) : ∀ (fs : List Frame) (pre : Bytes),
    (∀ f ∈ fs, f.WF) → data = pre ++ Spec.encode fs ++ rest → (entries g pre.length fs).length ≤ fs.length ∧
    ∃ ns : List Nat, List.Forall₂ (fun (pf : Print × FrameInfo) n =>
      ∃ m ≤ n, Rounds (fun fuel => frameLoop g data (lookBody g data) fuel pf.2.index (1, [])) m) (entries g pre.length fs) ns ∧
      ns.sum + visits 2 fs + visits 1 fs ≤ 4 * fs.length + 2
  | [], _, _, _ => ⟨Nat.le_refl 0, [], .nil, by decide⟩
  | f :: fs, pre, hwf, he => by
    have he' : data = pre ++ f.encode ++ (Spec.encode fs ++ rest) := by simp [he, Spec.encode]
    obtain ⟨hlen, ns, h1, h2⟩ := search_sum g hs fs (pre ++ f.encode) (fun x hx => hwf x (by simp [hx])) (by simp [he'])
    simp only [List.length_append] at hlen h1
    have hp1 := visits_pos 1 fs
    have hz := visits_zero fs
    rcases entryOf_short g pre.length f with h | ⟨h0, p, h⟩
    · rw [entries, h, List.nil_append]
      refine ⟨by simp; omega, ns, h1, ?_⟩
      by_cases h0 : f.body = []
      · simp only [visits, h0, if_true, List.length_cons, Nat.reduceAdd]
        omega
      · simp only [visits, h0, if_false, Nat.reduceAdd, List.length_cons]
        omega
    · rw [entries, h, List.singleton_append]
      have := look_fuel g hs (f :: fs) pre 1 [] hwf he
      obtain ⟨m, hm, hr⟩ := rounds_of (loop := fun fuel => frameLoop g data (lookBody g data) fuel pre.length (1, [])) this
      refine ⟨by simp; omega, visits 3 (f :: fs) :: ns, .cons ⟨m, hm, hr⟩ h1, ?_⟩
      simp only [visits, h0, if_false, Nat.reduceAdd, List.length_cons, List.sum_cons]
      omega

private theorem forall₂_bounded {α : Type} {P : α → Nat → Prop} : ∀ {l : List α} {ns : List Nat},
    List.Forall₂ (fun a n => ∃ m ≤ n, P a m) l ns → ∃ ms, List.Forall₂ P l ms ∧ ms.sum ≤ ns.sum
  | [], [], .nil => ⟨[], .nil, Nat.le_refl _⟩
  | _ :: _, _ :: _, .cons ⟨m, hm, hp⟩ h => by
    obtain ⟨ms, h1, h2⟩ := forall₂_bounded h
    exact ⟨m :: ms, .cons hp h1, by simp; omega⟩

/-- C102: counting scores, all searches for the killers in anonymous teamkills together read at most four headers per frame, even
though a search may pass over any number of empty frames. -/
theorem C102_searches (g : Env) (data rest : Bytes) (fs : List Frame) (h : Splits data fs rest) (hs : Stops data.length rest) :
    ∃ pfs ns, printFrames g data = .ok pfs ∧ pfs.length ≤ fs.length ∧
      List.Forall₂ (fun (pf : Print × FrameInfo) n =>
        Rounds (fun fuel => frameLoop g data (lookBody g data) fuel pf.2.index (1, [])) n) pfs ns ∧
      ns.sum ≤ 4 * fs.length := by
  obtain ⟨hlen, ns, h1, h2⟩ := search_sum g hs fs [] h.2.1 (by simpa using h.1)
  obtain ⟨ms, h3, h4⟩ := forall₂_bounded h1
  have hp1 := visits_pos 1 fs
  have hp2 := visits_pos 2 fs
  exact ⟨_, ms, printFrames_stops g h hs, hlen, h3, by omega⟩

/-- C102: the scan for clients looks at no more than 2049 places, however long the demo is. -/
theorem C102_clients (g : Env) (data : Bytes) (o : Nat) (l : List Str) :
    ∃ n ≤ 2049, Rounds (fun fuel => clientScan g data (o + 24 * 512) fuel o l) n := by
  have key : ∀ (fuel offset : Nat) (l : List Str), o + 24 * 512 ≤ offset + 6 * fuel →
      clientScan g data (o + 24 * 512) (fuel + 1) offset l ≠ .hang := by
    intro fuel
    induction fuel with
    | zero =>
      intro offset l h
      rw [clientScan_step]
      split
      · split
        · exact ok_halts _
        · rename_i hst
          have := nextClient_progress (scanStep_some hst)
          rw [if_pos (by omega)]
          exact ok_halts _
      · exact panic_halts
    | succ fuel ih =>
      intro offset l h
      rw [clientScan_step]
      split
      · split
        · exact ok_halts _
        · rename_i hst
          have := nextClient_progress (scanStep_some hst)
          split
          · exact ok_halts _
          · exact ih _ _ (by omega)
      · exact panic_halts
  exact rounds_of (loop := fun fuel => clientScan g data (o + 24 * 512) fuel o l) (key 2048 o l (by omega))

/-- C102: the loops over the messages of the frames together read at most one message per byte. -/
theorem C102_messages (g : Env) (data rest : Bytes) (fs : List Frame) (h : Splits data fs rest) :
    (fs.map fun f => f.body.length + 1).sum ≤ data.length ∧ ∀ f ∈ fs,
      (∀ l, ∃ n ≤ f.body.length + 1, Rounds (fun fuel => printsBody g fuel (Cursor.new f.body) l) n) ∧
      (∀ l x, ∃ n ≤ f.body.length + 1, Rounds (fun fuel => flagBody g fuel (Cursor.new f.body) l x) n) ∧
      (∀ m d, ∃ n ≤ f.body.length + 1, Rounds (fun fuel => pingBody g fuel (Cursor.new f.body) m d) n) := by
  refine ⟨?_, fun f _ => ?_⟩
  · have : ∀ fs : List Frame, (fs.map fun f => f.body.length + 1).sum ≤ (Spec.encode fs).length := by
      intro fs
      induction fs with
      | nil => simp
      | cons f fs ih =>
        have := header_pos f
        have := Frame_encode_length f
        simp [Spec.encode] at ih ⊢
        omega
    have hd : data.length = (Spec.encode fs).length + rest.length := by rw [h.1]; simp
    have := this fs
    omega
  · obtain ⟨h1, h2, h3⟩ := C01_message_loops g (Cursor.new f.body) (f.body.length + 1) (by simp [Cursor.new])
    exact ⟨fun l => rounds_of (h1 l).1, fun l x => rounds_of (h2 l x).1, fun m d => rounds_of (h3 m d).1⟩

/-- C102: the loop over the blocks of match stats reads at most one block per 18 bytes of the demo, and two more, wherever it starts
and whatever the sizes of the blocks are said to be. -/
theorem C102_blocks (g : Env) (data : Bytes) (hd : data.length < 2 ^ 63) (offset : Nat) (content : Bytes) :
    ∃ n ≤ data.length / 18 + 2, Rounds (fun fuel => blockLoop g data fuel offset content) n :=
  rounds_of (loop := fun fuel => blockLoop g data fuel offset content)
    (blockLoop_first_halts g data hd (data.length / 18 + 1) (by omega) offset content)

/-- Two anonymous teamkills with empty frames behind them. -/
def Example.ambushes : List Frame :=
  [⟨1, 6, [], [8, 1] ++ bytes!"a was jumped by his teammate\n" ++ [0]⟩, ⟨1, 6, [], []⟩, ⟨1, 6, [], []⟩, ⟨1, 6, [], []⟩,
   ⟨1, 6, [], [8, 1] ++ bytes!"b was jumped by his teammate\n" ++ [0]⟩, ⟨1, 6, [], []⟩, ⟨1, 6, [], [14, 0, 1, 0]⟩, ⟨1, 6, [], []⟩]

/-- One round for each of two blocks of match stats; many more would be possible. -/
example : Rounds (fun fuel => blockLoop Example.debug Example.statsData fuel 1300 []) 2 ∧ Example.statsData.length / 18 + 2 = 79 := by
  exact ⟨⟨by decide +kernel, by decide +kernel⟩, by decide +kernel⟩

/-- The hypotheses are met: a walk of nine rounds, searches of eight and five rounds for eight frames. -/
example : Splits (Spec.encode Example.ambushes) Example.ambushes [] ∧ Stops (Spec.encode Example.ambushes).length [] ∧
    (∀ s info, printFramesBody Example.debug (Spec.encode Example.ambushes) s info ≠ .hang) ∧
    Rounds (fun fuel => frameLoop Example.debug (Spec.encode Example.ambushes) (printFramesBody Example.debug (Spec.encode Example.ambushes)) fuel 0 []) 9 ∧
    ((printFrames Example.debug (Spec.encode Example.ambushes)).bind fun pfs => .ok (pfs.map (·.2.index))) = .ok [0, 56] ∧
    Rounds (fun fuel => frameLoop Example.debug (Spec.encode Example.ambushes) (lookBody Example.debug (Spec.encode Example.ambushes)) fuel 0 (1, [])) 8 ∧
    Rounds (fun fuel => frameLoop Example.debug (Spec.encode Example.ambushes) (lookBody Example.debug (Spec.encode Example.ambushes)) fuel 56 (1, [])) 5 := by
  refine ⟨(splits_whole (by decide +kernel)).1, by decide +kernel, printFramesBody_halts _ _, ?_, by decide +kernel, ?_, ?_⟩
  all_goals exact ⟨by decide +kernel, by decide +kernel⟩

end Mvd
