/-! Specification vocabulary for offsets of limited width. Independent of the model. -/

namespace Spec

/-- No four neighbouring bytes are a little-endian number to which a header of ten bytes cannot be added in `w` bits. -/
def SizesFit (w : Nat) (data : List UInt8) : Prop :=
  ∀ a b c d : UInt8, [a, b, c, d] <:+: data →
    a.toNat + 256 * b.toNat + 65536 * c.toNat + 16777216 * d.toNat + 10 < 2 ^ w

end Spec
