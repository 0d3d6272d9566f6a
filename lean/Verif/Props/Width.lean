import Verif.Lemmas.Frame
import Verif.Lemmas.Search
import Verif.Model.Width
import Verif.Spec.Width
import Verif.Props.Example

/-! Offset arithmetic and slices (C92). -/

namespace Mvd
open Spec

theorem addU_fits {checks : Bool} {w a b : Nat} (h : a + b < 2 ^ w) : addU checks w a b = .ok (a + b) := by
  unfold addU
  rw [if_pos h]

theorem readByte_some {g : Env} {c c' : Cursor} {b : UInt8} (h : c.readByte g = (some b, c')) : c'.pos = c.pos + 1 := by
  obtain ⟨p, l⟩ := c
  cases l with
  | nil => rw [readByte_nil] at h; cases h
  | cons x t => rw [readByte_cons] at h; cases h; rfl

theorem readU32_some {g : Env} {c c' : Cursor} {n : Nat} (h : c.readU32 g = (some n, c')) :
    c'.pos = c.pos + 4 ∧ ∃ a b d e, c.rest.take 4 = [a, b, d, e] ∧
      n = a.toNat + 256 * b.toNat + 65536 * d.toNat + 16777216 * e.toNat := by
  obtain ⟨p, l⟩ := c
  by_cases hl : 4 ≤ l.length
  · obtain ⟨a, b, d, e, t, rfl⟩ := exists_four hl
    rw [readU32_cons] at h
    cases h
    exact ⟨rfl, a, b, d, e, rfl, rfl⟩
  · obtain ⟨x, hx⟩ := readU32_short g ⟨p, l⟩ (by simpa using Nat.lt_of_not_le hl)
    rw [hx] at h
    cases h

theorem sizesFit_of_le {w : Nat} (hw : 33 ≤ w) (data : Bytes) : SizesFit w data := by
  intro a b c d _
  have := a.toNat_lt
  have := b.toNat_lt
  have := c.toNat_lt
  have := d.toNat_lt
  have : 2 ^ 33 ≤ 2 ^ w := Nat.pow_le_pow_right (by omega) hw
  omega

/-- Data without the byte 255 qualify. -/
theorem sizesFit_of_ne {data : Bytes} (h : ∀ x ∈ data, x ≠ 255) : SizesFit 32 data := by
  intro a b c d hi
  have := a.toNat_lt
  have := b.toNat_lt
  have := c.toNat_lt
  have h2 : d.toNat ≠ 255 := fun hd => h d (hi.subset (by simp)) (UInt8.toNat_inj.mp hd)
  have := d.toNat_lt
  omega

theorem fromDataAndIndexW_eq {w : Nat} (hw : 5 ≤ w) (g : Env) {data : Bytes} (hd : data.length < 2 ^ (w - 1))
    (hs : SizesFit w data) (index : Nat) :
    FrameInfo.fromDataAndIndexW w g data index = FrameInfo.fromDataAndIndex g data index := by
  have hpow : 2 ^ w = 2 * 2 ^ (w - 1) := by
    rw [← Nat.pow_succ', Nat.succ_eq_add_one, Nat.sub_add_cancel (by omega)]
  have hbig : 2 ^ 5 ≤ 2 ^ w := Nat.pow_le_pow_right (by omega) hw
  unfold FrameInfo.fromDataAndIndexW FrameInfo.fromDataAndIndex sliceFrom
  by_cases hi : index ≤ data.length
  · rw [if_pos hi]
    simp only [R.bind]
    have hsuf : data.drop index <:+ data := List.drop_suffix index data
    generalize data.drop index = tail at hsuf
    match tail, hsuf with
    | [], _ => simp only [Cursor.new, readByte_nil]
    | [x], _ => simp only [Cursor.new, readByte_cons, readByte_nil]
    | duration :: byte :: t, hsuf =>
      simp only [Cursor.new, readByte_cons]
      have key : ∀ (p n : Nat) (k : Nat → Nat → Nat → R FrameInfo) (k' : R FrameInfo), p + n < 2 ^ w → p ≤ 10 →
          (p + n ≤ data.length → k (p + n) (index + p) (index + (p + n)) = k') →
          ((addU g.checks w p n).bind fun size =>
            if data.length < size then .err .frameTooSmall
            else (addU g.checks w index p).bind fun headerEnd => (addU g.checks w index size).bind fun bodyEnd =>
              k size headerEnd bodyEnd) = if data.length < p + n then .err .frameTooSmall else k' := by
        intro p n k k' h1 h2 h3
        rw [addU_fits h1]
        simp only [R.bind]
        split
        · rfl
        · rw [addU_fits (by omega), addU_fits (by omega)]
          exact h3 (by omega)
      have hread : ∀ m ≤ 4, ∀ n c, ((Cursor.mk 2 t).skip m).readU32 g = (some n, c) → c.pos + n < 2 ^ w ∧ c.pos ≤ 10 := by
        intro m hm n c hr
        obtain ⟨hp, a, b, d, e, htake, rfl⟩ := readU32_some hr
        simp only [Cursor.skip] at hp htake
        have hin : [a, b, d, e] <:+: data := by
          rw [← htake]
          refine List.IsInfix.trans ?_ hsuf.isInfix
          refine ((List.take_prefix _ _).isInfix).trans ((List.drop_suffix _ _).isInfix.trans ?_)
          exact ⟨[duration, byte], [], by simp⟩
        have hfit := hs a b d e hin
        omega
      generalize Target.ofByte byte = target
      generalize Command.ofByte byte = command
      cases target <;> cases command <;>
      first
        | (dsimp only
           generalize hr : Cursor.readU32 g (Cursor.skip _ _) = r
           rcases r with ⟨_ | n, c⟩
           · rfl
           · obtain ⟨h1, h2⟩ := hread _ (by decide) _ _ hr
             exact key _ _ _ _ h1 h2 fun _ => rfl)
        | exact key 2 0 _ _ (by omega) (by decide) fun _ => rfl
        | exact key 6 0 _ _ (by omega) (by decide) fun _ => rfl
        | exact key 2 8 _ _ (by omega) (by decide) fun _ => rfl
        | exact key 6 8 _ _ (by omega) (by decide) fun _ => rfl
  · rw [if_neg hi]
    rfl

theorem fromData_ok {g : Env} {data : Bytes} {index : Nat} {info : FrameInfo}
    (h : FrameInfo.fromDataAndIndex g data index = .ok info) : index ≤ data.length ∧ info.size ≤ data.length := by
  by_cases hi : index ≤ data.length
  · cases ha : announced (data.drop index) with
    | none => rw [fromData_none g data index hi ha] at h; cases h
    | some hb =>
      obtain ⟨d, f, t, -, e⟩ := fromData_some g data index hi hb.1 hb.2 ha
      rw [e] at h
      split at h
      · cases h
      · cases h
        exact ⟨hi, by simp only [infoAt]; omega⟩
  · rw [fromData_panic g data index (by omega)] at h; cases h

theorem frameLoopW_eq {σ : Type} {w : Nat} (hw : 5 ≤ w) (g : Env) {data : Bytes} (hd : data.length < 2 ^ (w - 1))
    (hs : SizesFit w data) (body : σ → FrameInfo → R (Step σ)) : ∀ (fuel index : Nat) (s : σ),
    frameLoopW w g data body fuel index s = frameLoop g data body fuel index s
  | 0, _, _ => rfl
  | fuel + 1, index, s => by
    have hpow : 2 ^ w = 2 * 2 ^ (w - 1) := by
      rw [← Nat.pow_succ', Nat.succ_eq_add_one, Nat.sub_add_cancel (by omega)]
    rw [frameLoopW, frameLoop, fromDataAndIndexW_eq hw g hd hs]
    cases h : FrameInfo.fromDataAndIndex g data index with
    | ok info =>
      obtain ⟨h1, h2⟩ := fromData_ok h
      simp only
      cases body s info with
      | ok step =>
        simp only [R.bind]
        cases step with
        | next s' =>
          simp only
          rw [addU_fits (by omega)]
          exact frameLoopW_eq hw g hd hs body fuel (index + info.size) s'
        | brk s' => rfl
      | err e => rfl
      | panic => rfl
      | hang => rfl
    | err e => rfl
    | panic => rfl
    | hang => rfl

/-- C92: on a 64-bit target the frame walk never overflows: every loop over the frames of a demo gives what it gives
with unbounded offsets. (A Rust slice has less than half of the address space.) -/
theorem C92_frames {σ : Type} (g : Env) (data : Bytes) (hd : data.length < 2 ^ 63)
    (body : σ → FrameInfo → R (Step σ)) (fuel index : Nat) (s : σ) :
    frameLoopW 64 g data body fuel index s = frameLoop g data body fuel index s :=
  frameLoopW_eq (by decide) g hd (sizesFit_of_le (by decide) data) body fuel index s

/-- C92: on a 32-bit target the same holds for data in which no four neighbouring bytes are a number of 2^32 - 10 or
more. -/
theorem C92_frames_32 {σ : Type} (g : Env) (data : Bytes) (hd : data.length < 2 ^ 31) (hs : SizesFit 32 data)
    (body : σ → FrameInfo → R (Step σ)) (fuel index : Nat) (s : σ) :
    frameLoopW 32 g data body fuel index s = frameLoop g data body fuel index s :=
  frameLoopW_eq (by decide) g hd hs body fuel index s

/-- C92: the durations are summed up in the same way. -/
theorem C92_durations (g : Env) (data : Bytes) (offset : Nat) :
    (data.length < 2 ^ 63 → totalMsW 64 g data offset (data.length + 1) = totalMs g data offset) ∧
    (data.length < 2 ^ 31 → SizesFit 32 data → totalMsW 32 g data offset (data.length + 1) = totalMs g data offset) :=
  ⟨fun h => C92_frames g data h _ _ _ _, fun h hs => C92_frames_32 g data h hs _ _ _ _⟩

example : SizesFit 32 (bytes!"\x00\x01\x05\x00\x00\x00\x08\x02abc\x00" : Bytes) ∧ ¬ SizesFit 32 [0, 1, 0xFA, 0xFF, 0xFF, 0xFF] := by
  refine ⟨sizesFit_of_ne (by decide), fun h => ?_⟩
  have := h 0xFA 0xFF 0xFF 0xFF ⟨[0, 1], [], rfl⟩
  revert this
  decide

theorem offsetsBetweenW_eq {w : Nat} (g : Env) {data : Bytes} (hd : data.length < 2 ^ w) (a b : Bytes) :
    offsetsBetweenW w g data a b = .ok (offsetsBetween data a b) := by
  unfold offsetsBetweenW offsetsBetween
  cases h : find a data with
  | none => rfl
  | some i =>
    have hb := (find_eq_some_iff.mp h).1.bound
    simp only
    rw [addU_fits (by omega)]
    simp only [R.bind, sliceFrom]
    rw [if_pos (by omega)]
    simp only
    cases h2 : find b (data.drop (i + a.length)) with
    | none => rfl
    | some j =>
      have hb2 := (find_eq_some_iff.mp h2).1.bound
      rw [List.length_drop] at hb2
      simp only
      rw [addU_fits (by omega)]

/-- C92: `offsets_between` neither overflows nor slices out of range. -/
theorem C92_offsets_between {w : Nat} (g : Env) (data : Bytes) (hd : data.length < 2 ^ w) (a b : Bytes) :
    offsetsBetweenW w g data a b = .ok (offsetsBetween data a b) := offsetsBetweenW_eq g hd a b

/-- C92: nor does the rest of `serverinfo_string`, apart from the slice at its beginning. -/
theorem C92_serverinfo {w : Nat} (hw : 32 ≤ w) (g : Env) (data : Bytes) (hd : data.length < 2 ^ (w - 1)) :
    serverinfoStringW w g data = serverinfoString g data := by
  have hpow : 2 ^ w = 2 * 2 ^ (w - 1) := by
    rw [← Nat.pow_succ', Nat.succ_eq_add_one, Nat.sub_add_cancel (by omega)]
  have hbig : 2 ^ 32 ≤ 2 ^ w := Nat.pow_le_pow_right (by omega) hw
  unfold serverinfoStringW serverinfoString
  rw [addU_fits (by omega)]
  simp only [R.bind, sliceTo]
  by_cases h : 256 + 1024 ≤ data.length
  · rw [if_pos h]
    simp only
    rw [offsetsBetweenW_eq g (by rw [List.length_take]; omega)]
    simp only
    cases offsetsBetween _ _ _ with
    | none => rfl
    | some ft => rfl
  · rw [if_neg h]

theorem clientScanW_eq {w : Nat} (hw : 32 ≤ w) (g : Env) {data : Bytes} (hd : data.length < 2 ^ (w - 1)) (maxOffset : Nat) :
    ∀ (fuel offset : Nat) (result : List Str), offset ≤ data.length →
    clientScanW w g data maxOffset fuel offset result = clientScan g data maxOffset fuel offset result
  | 0, _, _, _ => rfl
  | fuel + 1, offset, result, ho => by
    have hpow : 2 ^ w = 2 * 2 ^ (w - 1) := by
      rw [← Nat.pow_succ', Nat.succ_eq_add_one, Nat.sub_add_cancel (by omega)]
    have hbig : 2 ^ 31 ≤ 2 ^ (w - 1) := Nat.pow_le_pow_right (by omega) (by omega)
    have h512 : MAX_LOOKAHEAD = 512 := rfl
    rw [clientScanW, clientScan, addU_fits (by omega)]
    simp only [R.bind]
    rcases hsl : slice data offset (offset + MAX_LOOKAHEAD) with window | _ | _ | _
    · simp only
      have hwin : window.length = 512 ∧ offset + 512 ≤ data.length := by
        unfold slice at hsl
        split at hsl
        · rename_i hc
          cases hsl
          rw [List.length_take, List.length_drop]
          omega
        · cases hsl
      cases hf : find bytes!"\\name\\" window with
      | none => rfl
      | some o =>
        have hb := (find_eq_some_iff.mp hf).1.bound
        simp only
        rw [addU_fits (by omega)]
        simp only [sliceTo]
        rw [if_pos (by omega)]
        simp only
        cases hz : rfindByte 0 (data.take (offset + o)) with
        | none => rfl
        | some z =>
          have hb2 := (rfind_eq_some_iff.mp hz).1.bound
          rw [List.length_take, List.length_singleton] at hb2
          simp only
          rw [addU_fits (by omega)]
          simp only [sliceFrom]
          rw [if_pos (by omega)]
          simp only
          cases hl : findByte 0 (data.drop (z + 1)) with
          | none => rfl
          | some l =>
            have hb3 := (find_eq_some_iff.mp hl).1.bound
            rw [List.length_drop, List.length_singleton] at hb3
            simp only
            rw [addU_fits (by omega)]
            simp only [subU]
            rw [if_pos (by omega)]
            simp only
            split
            · rcases slice data (z + 1) (z + 1 + l) with s | _ | _ | _
              · simp only
                split
                · rfl
                · exact clientScanW_eq hw g hd maxOffset fuel (z + 1 + l) _ (by omega)
              all_goals rfl
            · rfl
    all_goals rfl

/-- C92: the client scan does not overflow, and slices out of range only where the look-ahead window does. -/
theorem C92_clients {w : Nat} (hw : 32 ≤ w) (g : Env) (data : Bytes) (hd : data.length < 2 ^ (w - 1)) :
    clientinfoStringsW w g data = clientinfoStrings g data := by
  have hpow : 2 ^ w = 2 * 2 ^ (w - 1) := by
    rw [← Nat.pow_succ', Nat.succ_eq_add_one, Nat.sub_add_cancel (by omega)]
  have hbig : 2 ^ 31 ≤ 2 ^ (w - 1) := Nat.pow_le_pow_right (by omega) (by omega)
  unfold clientinfoStringsW clientinfoStrings
  cases h : find CMD_SPAWN data with
  | none => rfl
  | some i =>
    have hb := (find_eq_some_iff.mp h).1.bound
    have h24 : MAX_PLAYERS * MAX_LOOKAHEAD = 12288 := rfl
    simp only
    rw [addU_fits (by omega)]
    exact clientScanW_eq hw g hd _ _ _ _ (by omega)

/-- C92: reading the match date does not overflow or slice out of range. -/
theorem C92_matchdate {w : Nat} (g : Env) (data : Bytes) (hd : data.length < 2 ^ w) :
    matchdateStringW w g data = matchdateString data := by
  unfold matchdateStringW matchdateString
  cases h : find MATCHDATE_NEEDLE data with
  | none => rfl
  | some i =>
    have hb := (find_eq_some_iff.mp h).1.bound
    simp only
    rw [addU_fits (by omega)]
    simp only [R.bind, sliceFrom]
    rw [if_pos (by omega)]
    simp only
    cases h2 : findByte 10 (data.drop (i + MATCHDATE_NEEDLE.length)) with
    | none => rfl
    | some j =>
      have hb2 := (find_eq_some_iff.mp h2).1.bound
      rw [List.length_drop, List.length_singleton] at hb2
      simp only
      rw [addU_fits (by omega)]
      simp only [subU]
      rw [if_pos (by omega)]
      rfl

/-- C92: nor does the look at the end of the demo. -/
theorem C92_end {w : Nat} (g : Env) (data : Bytes) : hasEndOfDemoPrintW w g data = .ok (hasEndOfDemoPrint data) := by
  unfold hasEndOfDemoPrintW hasEndOfDemoPrint
  by_cases h : data.length > END_OF_DEMO.length
  · rw [if_pos h]
    simp only [subU, R.bind, sliceFrom]
    rw [if_pos (by omega)]
    simp only
    rw [if_pos (by omega)]
    simp [h]
  · rw [if_neg h]
    simp [h]

/-- C92: on a 32-bit target the frame walk does overflow. These six bytes announce a body of 2^32 - 6 bytes; header and
body together have length zero there. A release build then goes on at the same place: adding up the durations never
ends. A build with overflow checks panics. A 64-bit target sees that the frame is too large, and stops. -/
theorem C92_witness_32 (fuel : Nat) :
    totalMsW 32 Example.release [0, 1, 0xFA, 0xFF, 0xFF, 0xFF] 6 fuel = .hang ∧
    totalMsW 32 Example.debug [0, 1, 0xFA, 0xFF, 0xFF, 0xFF] 6 (fuel + 1) = .panic ∧
    totalMsW 64 Example.release [0, 1, 0xFA, 0xFF, 0xFF, 0xFF] 6 (fuel + 1) = .ok 0 := by
  refine ⟨?_, ?_, ?_⟩
  · unfold totalMsW
    induction fuel with
    | zero => rfl
    | succ fuel ih => exact ih
  · rfl
  · rfl

end Mvd
