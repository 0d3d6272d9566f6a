import Verif.Model.Frame
import Verif.Spec.Wire

/-! The frame loop against the wire format. -/

namespace Mvd
open Spec (le16 le32 announced)

/-! ### Cursor reads -/

theorem readByte_nil (g : Env) (p : Nat) : (Cursor.mk p []).readByte g = (none, ⟨p, []⟩) := by
  simp [Cursor.readByte, Cursor.readExact, Cursor.skip]

theorem readByte_cons (g : Env) (p : Nat) (b : UInt8) (t : Bytes) :
    (Cursor.mk p (b :: t)).readByte g = (some b, ⟨p + 1, t⟩) := by
  simp [Cursor.readByte, Cursor.readExact, Cursor.skip]

theorem readU16_cons (g : Env) (p : Nat) (a b : UInt8) (t : Bytes) :
    (Cursor.mk p (a :: b :: t)).readU16 g = (some (a.toNat + 256 * b.toNat), ⟨p + 2, t⟩) := by
  simp [Cursor.readU16, Cursor.readExact, Cursor.skip]

theorem readU32_cons (g : Env) (p : Nat) (a b c d : UInt8) (t : Bytes) :
    (Cursor.mk p (a :: b :: c :: d :: t)).readU32 g =
      (some (a.toNat + 256 * b.toNat + 65536 * c.toNat + 16777216 * d.toNat), ⟨p + 4, t⟩) := by
  simp [Cursor.readU32, Cursor.readExact, Cursor.skip]

theorem readU16_short (g : Env) (c : Cursor) (h : c.rest.length < 2) : ∃ x, c.readU16 g = (none, x) := by
  have : ¬ 2 ≤ c.rest.length := by omega
  simp [Cursor.readU16, Cursor.readExact, this]

theorem readU32_short (g : Env) (c : Cursor) (h : c.rest.length < 4) : ∃ x, c.readU32 g = (none, x) := by
  have : ¬ 4 ≤ c.rest.length := by omega
  simp [Cursor.readU32, Cursor.readExact, this]

theorem exists_four {α : Type} : ∀ {l : List α}, 4 ≤ l.length → ∃ a b c d t, l = a :: b :: c :: d :: t
  | [], h | [_], h | [_, _], h | [_, _, _], h => by simp at h
  | a :: b :: c :: d :: t, _ => ⟨a, b, c, d, t, rfl⟩

/-! ### Header -/

/-- The recipients a command byte stands for. -/
def targetOf (flags : UInt8) : Target :=
  match flags.toNat % 8 with
  | 3 => .multiple
  | 4 => .single
  | 5 => .stats
  | 6 => .all
  | _ => .none

/-- The command a command byte stands for. -/
def commandOf (flags : UInt8) : Command :=
  match flags.toNat % 8 with
  | 0 => .qwd
  | 2 => .set
  | 7 => .empty
  | _ => .read

theorem and7 (b : UInt8) : (b &&& 7).toNat = b.toNat % 8 := by
  rw [UInt8.toNat_and]
  exact Nat.and_two_pow_sub_one_eq_mod b.toNat 3

theorem kind_cases (b : UInt8) : b.toNat % 8 = 0 ∨ b.toNat % 8 = 1 ∨ b.toNat % 8 = 2 ∨ b.toNat % 8 = 3 ∨
    b.toNat % 8 = 4 ∨ b.toNat % 8 = 5 ∨ b.toNat % 8 = 6 ∨ b.toNat % 8 = 7 := by omega

/-- The frame description of the bytes at an index, by announced sizes. -/
def infoAt (index : Nat) (duration flags : UInt8) (h b : Nat) : FrameInfo where
  duration := duration.toNat
  target := targetOf flags
  command := commandOf flags
  index := index
  size := h + b
  headerSize := h
  headerRange := (index, index + h)
  bodySize := b
  bodyRange := (index + h, index + (h + b))

theorem fromData_panic (g : Env) (data : Bytes) (index : Nat) (h : data.length < index) :
    FrameInfo.fromDataAndIndex g data index = .panic := by
  have : ¬ index ≤ data.length := by omega
  simp [FrameInfo.fromDataAndIndex, sliceFrom, this, R.bind]

theorem fromData_none (g : Env) (data : Bytes) (index : Nat) (hi : index ≤ data.length)
    (h : announced (data.drop index) = none) : FrameInfo.fromDataAndIndex g data index = .err .io := by
  simp only [FrameInfo.fromDataAndIndex, sliceFrom, hi, if_true, R.bind, Cursor.new]
  generalize data.drop index = l at h
  match l with
  | [] => simp [readByte_nil]
  | [d] => simp [readByte_nil, readByte_cons]
  | d :: f :: t =>
    simp only [readByte_cons, Target.ofByte, Command.ofByte, and7]
    simp only [announced] at h
    rcases kind_cases f with hk | hk | hk | hk | hk | hk | hk | hk <;> simp only [hk] at h ⊢
    · simp at h
    · have : t.length < 4 := by
        refine Nat.lt_of_not_le fun hle => ?_
        obtain ⟨a, b, c, e, t', rfl⟩ := exists_four hle
        simp at h
      obtain ⟨x, hx⟩ := readU32_short g ((Cursor.mk (0 + 1 + 1) t).skip 0) (by simpa [Cursor.skip] using this)
      simp [hx]
    · simp at h
    · have : t.length < 8 := by
        refine Nat.lt_of_not_le fun hle => ?_
        obtain ⟨a, b, c, e, t', rfl⟩ := exists_four (show 4 ≤ t.length by omega)
        obtain ⟨a', b', c', e', t'', rfl⟩ := exists_four (show 4 ≤ t'.length by simpa using hle)
        simp at h
      obtain ⟨x, hx⟩ := readU32_short g ((Cursor.mk (0 + 1 + 1) t).skip LONG) (by simp [Cursor.skip, LONG]; omega)
      simp [hx]
    · have : t.length < 4 := by
        refine Nat.lt_of_not_le fun hle => ?_
        obtain ⟨a, b, c, e, t', rfl⟩ := exists_four hle
        simp at h
      obtain ⟨x, hx⟩ := readU32_short g ((Cursor.mk (0 + 1 + 1) t).skip 0) (by simpa [Cursor.skip] using this)
      simp [hx]
    · have : t.length < 4 := by
        refine Nat.lt_of_not_le fun hle => ?_
        obtain ⟨a, b, c, e, t', rfl⟩ := exists_four hle
        simp at h
      obtain ⟨x, hx⟩ := readU32_short g ((Cursor.mk (0 + 1 + 1) t).skip 0) (by simpa [Cursor.skip] using this)
      simp [hx]
    · have : t.length < 4 := by
        refine Nat.lt_of_not_le fun hle => ?_
        obtain ⟨a, b, c, e, t', rfl⟩ := exists_four hle
        simp at h
      obtain ⟨x, hx⟩ := readU32_short g ((Cursor.mk (0 + 1 + 1) t).skip 0) (by simpa [Cursor.skip] using this)
      simp [hx]
    · simp at h

theorem fromData_some (g : Env) (data : Bytes) (index : Nat) (hi : index ≤ data.length) (h b : Nat)
    (ha : announced (data.drop index) = some (h, b)) :
    ∃ d f t, data.drop index = d :: f :: t ∧
      FrameInfo.fromDataAndIndex g data index =
        if data.length < h + b then .err .frameTooSmall else .ok (infoAt index d f h b) := by
  simp only [FrameInfo.fromDataAndIndex, sliceFrom, hi, if_true, R.bind, Cursor.new]
  generalize data.drop index = l at ha
  match l with
  | [] => simp [announced] at ha
  | [d] => simp [announced] at ha
  | d :: f :: t =>
    refine ⟨d, f, t, rfl, ?_⟩
    simp only [readByte_cons, Target.ofByte, Command.ofByte, and7]
    simp only [announced] at ha
    rcases kind_cases f with hk | hk | hk | hk | hk | hk | hk | hk <;> simp only [hk] at ha ⊢
    case inr.inr.inr.inl =>
      split at ha <;> simp_all
      obtain ⟨rfl, rfl⟩ := ha
      simp [Cursor.skip, LONG, readU32_cons, infoAt, targetOf, commandOf, hk]
    case inl | inr.inr.inl | inr.inr.inr.inr.inr.inr.inr =>
      simp at ha
      obtain ⟨rfl, rfl⟩ := ha
      simp [Cursor.skip, LONG, infoAt, targetOf, commandOf, hk]
    all_goals
      split at ha <;> simp_all
      obtain ⟨rfl, rfl⟩ := ha
      simp [Cursor.skip, readU32_cons, infoAt, targetOf, commandOf, hk]

end Mvd
