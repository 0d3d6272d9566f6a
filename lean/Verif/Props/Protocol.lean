import Verif.Model.Numbers

/-! C58: protocol numbers. -/

namespace Mvd

theorem byte_all {p : UInt8 → Prop} (h : ∀ n : Fin 256, p (UInt8.ofNat n)) (b : UInt8) : p b := by
  have := h ⟨b.toNat, b.toNat_lt⟩
  simpa using this

/-- C58: a byte is read as a kind of message exactly if it is the number declared for the kind; a byte is unknown exactly if
it is declared for no kind. -/
theorem C58_message_number (b : UInt8) : (∀ k, k ≠ .unknown → (MessageType.ofByte b = k ↔ k.number = b.toNat)) ∧
    (MessageType.ofByte b = .unknown ↔ ∀ k, k ≠ .unknown → MessageType.number k ≠ b.toNat) := by
  have key : ∀ b : UInt8, MessageType.ofByte b ≠ .unknown → (MessageType.ofByte b).number = b.toNat := by
    refine byte_all ?_
    decide +kernel
  have back : ∀ k : MessageType, k ≠ .unknown → MessageType.ofByte (UInt8.ofNat k.number) = k ∧ k.number < 256 := by
    intro k
    cases k <;> decide
  have main : ∀ k, k ≠ .unknown → (MessageType.ofByte b = k ↔ k.number = b.toNat) := by
    intro k hk
    refine ⟨fun h => ?_, fun h => ?_⟩
    · rw [← h]
      exact key b (by rw [h]; exact hk)
    · have := (back k hk).1
      rw [h] at this
      simpa using this
  refine ⟨main, fun h k hk e => ?_, fun h => ?_⟩
  · exact hk (((main k hk).mpr e).symm.trans h)
  · exact Decidable.byContradiction fun hn => h _ hn (key b hn)

/-- C58: the same of the levels of prints. -/
theorem C58_print_number (b : UInt8) : (∀ k, k ≠ .unknown → (PrintId.ofByte b = k ↔ k.number = b.toNat)) ∧
    (PrintId.ofByte b = .unknown ↔ ∀ k, k ≠ .unknown → PrintId.number k ≠ b.toNat) := by
  have key : ∀ b : UInt8, PrintId.ofByte b ≠ .unknown → (PrintId.ofByte b).number = b.toNat := by
    refine byte_all ?_
    decide +kernel
  have back : ∀ k : PrintId, k ≠ .unknown → PrintId.ofByte (UInt8.ofNat k.number) = k := by
    intro k
    cases k <;> decide
  have main : ∀ k, k ≠ .unknown → (PrintId.ofByte b = k ↔ k.number = b.toNat) := by
    intro k hk
    refine ⟨fun h => ?_, fun h => ?_⟩
    · rw [← h]
      exact key b (by rw [h]; exact hk)
    · have := back k hk
      rw [h] at this
      simpa using this
  refine ⟨main, fun h k hk e => ?_, fun h => ?_⟩
  · exact hk (((main k hk).mpr e).symm.trans h)
  · exact Decidable.byContradiction fun hn => h _ hn (key b hn)

/-- C58: and of hidden messages. -/
theorem C58_hidden_number (n : Nat) : (∀ k, k ≠ .unknown → (HiddenMessage.ofU16 n = k ↔ k.number = n)) ∧
    (HiddenMessage.ofU16 n = .unknown ↔ ∀ k, k ≠ .unknown → HiddenMessage.number k ≠ n) := by
  have key : HiddenMessage.ofU16 n ≠ .unknown → (HiddenMessage.ofU16 n).number = n := by
    unfold HiddenMessage.ofU16
    split
    all_goals try (intro _; subst_vars; rfl)
    repeat' split
    all_goals first
      | (intro _; subst_vars; rfl)
      | (intro h; exact absurd rfl h)
  have back : ∀ k : HiddenMessage, k ≠ .unknown → HiddenMessage.ofU16 k.number = k := by
    intro k
    cases k <;> decide
  have main : ∀ k, k ≠ .unknown → (HiddenMessage.ofU16 n = k ↔ k.number = n) := by
    intro k hk
    refine ⟨fun h => ?_, fun h => ?_⟩
    · rw [← h]
      exact key (by rw [h]; exact hk)
    · have := back k hk
      rwa [h] at this
  refine ⟨main, fun h k hk e => ?_, fun h => ?_⟩
  · exact hk (((main k hk).mpr e).symm.trans h)
  · exact Decidable.byContradiction fun hn => h _ hn (key hn)

/-- C58: recipient and command of a frame are in the lowest three bits. A frame for several clients (3), one client (4),
with stats (5) or for all (6) is to be read. -/
theorem C58_frame_number (b : UInt8) : (∀ t, t ≠ .none → (Target.ofByte b = t ↔ t.number = b.toNat % 8)) ∧
    (∀ c, c ≠ .read → (Command.ofByte b = c ↔ c.number = b.toNat % 8)) ∧
    (Target.ofByte b ≠ .none → Command.ofByte b = .read) := by
  refine byte_all (p := fun b => (∀ t, t ≠ .none → (Target.ofByte b = t ↔ t.number = b.toNat % 8)) ∧
    (∀ c, c ≠ .read → (Command.ofByte b = c ↔ c.number = b.toNat % 8)) ∧
    (Target.ofByte b ≠ .none → Command.ofByte b = .read)) (fun n => ⟨fun t => ?_, fun c => ?_, ?_⟩) b
  · revert n
    cases t <;> decide +kernel
  · revert n
    cases c <;> decide +kernel
  · revert n
    decide +kernel

/-- Some numbers. -/
example : MessageType.ofByte 8 = .print ∧ MessageType.ofByte 55 = .unknown ∧ PrintId.ofByte 2 = .high ∧ PrintId.ofByte 9 = .unknown ∧
    HiddenMessage.ofU16 3 = .demoinfo ∧ HiddenMessage.ofU16 57005 = .unknown ∧ Target.ofByte 27 = .multiple ∧
    Command.ofByte 27 = .read := by decide

end Mvd
