/-! Specification of UTF-8 text, by the encoding of characters in Lean's core library. -/

namespace Spec

/-- The UTF-8 bytes of a text. -/
def utf8 (s : List Char) : List UInt8 := s.flatMap String.utf8EncodeChar

end Spec
