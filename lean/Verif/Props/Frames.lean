import Verif.Lemmas.Walk
import Verif.Lemmas.Messages
import Verif.Spec.Layout
import Verif.Props.Example

/-! C02, C03, C58: frames and primitive readers. -/

namespace Mvd
open Spec (Frame PrintMsg Splits Stops Overruns NoFrame le16 le32)

/-! ### C02 -/

theorem infoOf_eq (i : Nat) (f : Frame) : infoOf i f = f.described i := by
  have ht : targetOf f.flags = f.target := by
    unfold targetOf Frame.target Frame.kind
    rcases kind_cases f.flags with hk | hk | hk | hk | hk | hk | hk | hk <;> simp [hk]
  have hc : commandOf f.flags = f.command := by
    unfold commandOf Frame.command Frame.kind
    rcases kind_cases f.flags with hk | hk | hk | hk | hk | hk | hk | hk <;> simp [hk]
  simp [infoOf, infoAt, Frame.described, ht, hc, Frame_encode_length, Nat.add_assoc]

theorem runFrames_collect : ∀ (fs : List Frame) (i : Nat) (acc : List FrameInfo),
    runFrames (fun acc i f => .ok (.next (acc ++ [infoOf i f]))) i acc fs = .ok (.next (acc ++ Spec.layout i fs))
  | [], i, acc => by simp [runFrames, Spec.layout]
  | f :: fs, i, acc => by
    simp only [runFrames, R.bind]
    rw [runFrames_collect fs]
    simp [Spec.layout, infoOf_eq]

/-- C02: on any sequence of well-formed frames followed by bytes at which the walk stops, the frame loop visits exactly
these frames, in order, each with its duration, target, command and ranges. -/
theorem C02_frame_walk (g : Env) (fs : List Frame) (rest : Bytes) (hwf : ∀ f ∈ fs, f.WF)
    (hs : Stops (Spec.encode fs ++ rest).length rest) :
    frameLoopFrom g (Spec.encode fs ++ rest) 0 [] (fun seen info => .ok (.next (seen ++ [info]))) =
      .ok (Spec.layout 0 fs) := by
  have := walk_stops g (data := Spec.encode fs ++ rest) (pre := []) (rest := rest) (fs := fs)
    (body := fun seen info => .ok (.next (seen ++ [info])))
    (body' := fun seen i f => .ok (.next (seen ++ [infoOf i f])))
    (fun s pre f post _ => rfl) hwf (by simp) hs []
  simp only [List.length_nil] at this
  rw [this, runFrames_collect]
  simp [finish]

/-- C02, without remainder: the walk of a well-formed demo stops exactly at the end of the data. -/
theorem C02_frame_walk_whole (g : Env) (fs : List Frame) (hwf : ∀ f ∈ fs, f.WF) :
    frameLoopFrom g (Spec.encode fs) 0 [] (fun seen info => .ok (.next (seen ++ [info]))) = .ok (Spec.layout 0 fs) ∧
    FrameInfo.fromDataAndIndex g (Spec.encode fs) (Spec.encode fs).length = .err .io := by
  constructor
  · simpa using C02_frame_walk g fs [] hwf (by simp [Stops, Spec.announced])
  · exact fromData_none g _ _ (Nat.le_refl _) (by simp [Spec.announced])

/-- C02, one frame: wherever a well-formed frame lies in the data, it is described correctly and its payload is
returned. -/
theorem C02_frame_at (g : Env) (pre post : Bytes) (f : Frame) (hf : f.WF) :
    FrameInfo.fromDataAndIndex g (pre ++ f.encode ++ post) pre.length = .ok (f.described pre.length) ∧
    (f.described pre.length).body (pre ++ f.encode ++ post) = .ok f.body := by
  rw [← infoOf_eq]
  exact ⟨fromData_encode g hf rfl, body_encode rfl⟩

/-- Three frames: a message to all, sequence numbers, a message to several players. -/
def Example.frames : List Frame := [
  ⟨5, 6, [], [8, 2, 104, 105, 0]⟩, ⟨0, 2, [], [1, 0, 0, 0, 2, 0, 0, 0]⟩, ⟨13, 3, [255, 255, 255, 255], [1, 2, 3]⟩]

example : (∀ f ∈ Example.frames, f.WF) ∧ Stops (Spec.encode Example.frames ++ [7]).length [7] := by decide

example : (Spec.layout 0 Example.frames).map (·.bodyRange) = [(6, 11), (13, 21), (31, 34)] := by decide

/-! ### C03 -/

/-- C03: every byte string has a frame decomposition, and only one. -/
theorem C03_unique_split (data : Bytes) :
    (∃ fs rest, Splits data fs rest) ∧
    ∀ fs rest fs' rest', Splits data fs rest → Splits data fs' rest' → fs = fs' ∧ rest = rest' :=
  ⟨splits_exists _ data (Nat.le_refl _), fun _ _ _ _ h h' => splits_unique h h'⟩

/-- C03, the remainder: either the walk stops there, or it is a cut-off frame that overruns the data; never both. -/
theorem C03_remainder (data : Bytes) (fs : List Frame) (rest : Bytes) (h : Splits data fs rest) :
    (Stops data.length rest ∧ ¬ Overruns data.length rest) ∨ (Overruns data.length rest ∧ ¬ Stops data.length rest) :=
  stops_or_overruns h.2.2

/-- C03 with C02: what the frame loop sees on any data whose remainder stops it. -/
theorem C03_walk_any (g : Env) (data : Bytes) (fs : List Frame) (rest : Bytes) (h : Splits data fs rest)
    (hs : Stops data.length rest) :
    frameLoopFrom g data 0 [] (fun seen info => .ok (.next (seen ++ [info]))) = .ok (Spec.layout 0 fs) := by
  obtain ⟨rfl, hwf, _⟩ := h
  exact C02_frame_walk g fs rest hwf hs

/-- Both kinds of remainder occur. -/
example : Splits (Spec.encode Example.frames ++ [7]) Example.frames [7] ∧
    Stops (Spec.encode Example.frames ++ [7]).length [7] :=
  ⟨⟨rfl, by decide, noFrame_iff.mpr (by simp [Spec.announced])⟩, by decide⟩

example : Splits (Spec.encode Example.frames ++ [1, 6, 4, 0, 0, 0, 8]) Example.frames [1, 6, 4, 0, 0, 0, 8] ∧
    Overruns (Spec.encode Example.frames ++ [1, 6, 4, 0, 0, 0, 8]).length [1, 6, 4, 0, 0, 0, 8] := by
  have ho : Overruns (Spec.encode Example.frames ++ [1, 6, 4, 0, 0, 0, 8]).length [1, 6, 4, 0, 0, 0, 8] := by decide
  exact ⟨⟨rfl, by decide, overruns_noFrame ho⟩, ho⟩

/-! ### C58 -/

/-- C58, bytes. -/
theorem C58_byte (g : Env) (pos : Nat) (rest : Bytes) :
    (∀ b t, rest = b :: t → (Cursor.mk pos rest).readByte g = (some b, ⟨pos + 1, t⟩)) ∧
    (((Cursor.mk pos rest).readByte g).1 = none ↔ rest.length < 1) := by
  constructor
  · rintro b t rfl
    exact readByte_cons g pos b t
  · cases rest <;> simp [readByte_nil, readByte_cons]

theorem u8_ofNat_toNat (n : Nat) (h : n < 256) : (UInt8.ofNat n).toNat = n := by
  rw [u8_ofNat]; omega

/-- C58, 16-bit numbers. -/
theorem C58_u16 (g : Env) (pos : Nat) :
    (∀ n t, n < 2 ^ 16 → (Cursor.mk pos (le16 n ++ t)).readU16 g = (some n, ⟨pos + 2, t⟩)) ∧
    ∀ rest, ((Cursor.mk pos rest).readU16 g).1 = none ↔ rest.length < 2 := by
  constructor
  · intro n t hn
    simp only [le16, List.cons_append, List.nil_append, readU16_cons, u8_ofNat]
    congr 2
    omega
  · intro rest
    match rest with
    | [] => simp [Cursor.readU16, Cursor.readExact]
    | [a] => simp [Cursor.readU16, Cursor.readExact]
    | a :: b :: t => simp [readU16_cons]

/-- C58, 32-bit numbers. -/
theorem C58_u32 (g : Env) (pos : Nat) :
    (∀ n t, n < 2 ^ 32 → (Cursor.mk pos (le32 n ++ t)).readU32 g = (some n, ⟨pos + 4, t⟩)) ∧
    ∀ rest, ((Cursor.mk pos rest).readU32 g).1 = none ↔ rest.length < 4 := by
  constructor
  · intro n t hn
    simp only [le32, List.cons_append, List.nil_append, readU32_cons]
    rw [le32_value n hn]
  · intro rest
    by_cases h : rest.length < 4
    · obtain ⟨x, hx⟩ := readU32_short g ⟨pos, rest⟩ h
      simp [hx, h]
    · obtain ⟨a, b, c, d, t, rfl⟩ := exists_four (show 4 ≤ rest.length by omega)
      simp [readU32_cons]

/-- C58, strings. -/
theorem C58_string (pos : Nat) :
    (∀ text t, (0 : UInt8) ∉ text →
      (Cursor.mk pos (text ++ [0] ++ t)).readBstring = (some text, ⟨pos + text.length + 1, t⟩)) ∧
    ∀ rest, ((Cursor.mk pos rest).readBstring).1 = none ↔ (0 : UInt8) ∉ rest := by
  constructor
  · intro text t h
    have := readBstring_some pos text t h
    simpa [Nat.add_assoc] using this
  · intro rest
    by_cases h : (0 : UInt8) ∈ rest
    · obtain ⟨a, b, rfl, ha⟩ := split_zero h
      simp [readBstring_some pos a b ha]
    · simp [readBstring_none pos rest h, h]

/-- C58, print messages (after the message number). -/
theorem C58_print (g : Env) (p : PrintMsg) (hp : p.WF) (t : Bytes) :
    Print.tryFrom g (p.encode.drop 1 ++ t) = .ok p.reported ∧ p.reported.byteSize = (p.encode.drop 1).length := by
  constructor
  · have := readPrint_some g p hp 0 t
    simp only [Print.tryFrom, Cursor.new, PrintMsg.encode]
    simp [this]
  · simp [Print.byteSize, PrintMsg.reported, PrintMsg.encode]

/-- C58, score and ping updates (after the message number). -/
theorem C58_updates (g : Env) (player : UInt8) (n : Nat) (hn : n < 2 ^ 16) (x : UInt8) (t : Bytes) :
    UpdateFrags.tryFrom g (player :: le16 n ++ t) = .ok ⟨player, n⟩ ∧
    UpdatePing.tryFrom g (player :: le16 n ++ x :: t) = .ok ⟨player, n⟩ := by
  have e : (UInt8.ofNat (n % 256)).toNat + 256 * (UInt8.ofNat (n / 256 % 256)).toNat = n := by
    simp only [u8_ofNat]; omega
  simp only [UpdateFrags.tryFrom, UpdatePing.tryFrom, Cursor.new, le16, List.cons_append, List.nil_append,
    Cursor.readUpdateFrags, Cursor.readUpdatePing, readByte_cons, readU16_cons, e]
  exact ⟨trivial, trivial⟩

/-- C58, failing messages: a print fails exactly without terminator, the updates exactly when bytes are missing. -/
theorem C58_message_errors (g : Env) (value : Bytes) :
    (Print.tryFrom g value = .err .io ↔ value = [] ∨ (0 : UInt8) ∉ value.tail) ∧
    (UpdateFrags.tryFrom g value = .err .io ↔ value.length < 3) ∧
    (UpdatePing.tryFrom g value = .err .io ↔ value.length < 4) := by
  refine ⟨?_, ?_, ?_⟩
  · match value with
    | [] => simp [Print.tryFrom, Cursor.new, Cursor.readPrint, readByte_nil]
    | b :: t =>
      by_cases h : (0 : UInt8) ∈ t
      · obtain ⟨a, c, rfl, ha⟩ := split_zero h
        simp [Print.tryFrom, Cursor.new, Cursor.readPrint, readByte_cons, readBstring_some _ _ _ ha]
      · simp [Print.tryFrom, Cursor.new, Cursor.readPrint, readByte_cons, readBstring_none _ _ h, h]
  · match value with
    | [] => simp [UpdateFrags.tryFrom, Cursor.new, Cursor.readUpdateFrags, readByte_nil]
    | [a] => simp [UpdateFrags.tryFrom, Cursor.new, Cursor.readUpdateFrags, readByte_cons, Cursor.readU16, Cursor.readExact]
    | [a, b] =>
      simp [UpdateFrags.tryFrom, Cursor.new, Cursor.readUpdateFrags, readByte_cons, Cursor.readU16, Cursor.readExact]
    | a :: b :: c :: t => simp [UpdateFrags.tryFrom, Cursor.new, Cursor.readUpdateFrags, readByte_cons, readU16_cons]
  · by_cases h : value.length < 4
    · obtain ⟨c, hc, _⟩ := readUpdatePing_none g 0 value h
      simp [UpdatePing.tryFrom, Cursor.new, hc, h]
    · obtain ⟨a, b, c, d, t, rfl⟩ := exists_four (show 4 ≤ value.length by omega)
      simp [UpdatePing.tryFrom, Cursor.new, readUpdatePing_some]

example : (PrintMsg.mk 1 [104, 105]).WF := by decide

end Mvd
