import Lean

/-! Literals: `bytes!"text"` is the list of UTF-8 bytes of a text, `chars!"text"` its list of characters.
Both expand at elaboration time to plain list literals, so the kernel sees no string operations. -/

open Lean in
/-- The UTF-8 bytes of a string literal, as a `List UInt8` literal. -/
macro:max "bytes!" s:str : term => do
  let elems ← s.getString.toUTF8.toList.mapM fun b => `(($(quote b.toNat) : UInt8))
  `(([$(elems.toArray),*] : List UInt8))

open Lean in
/-- The characters of a string literal, as a `List Char` literal. -/
macro:max "chars!" s:str : term => do
  let elems := s.getString.toList.map fun c => (quote c : TSyntax `term)
  `(([$(elems.toArray),*] : List Char))
