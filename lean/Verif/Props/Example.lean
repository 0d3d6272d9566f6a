import Verif.Model.Teams
import Verif.Model.Duration

/-! A concrete environment, used to show that the hypotheses of the theorems can be met and to exhibit
counterexamples. Quake text is read as Latin-1; settings and client strings are parsed in a simplified way. -/

namespace Mvd.Example

/-- Byte text as Latin-1. -/
def latin1 (b : Bytes) : Str := b.map fun x => Char.ofNat x.toNat

/-- Splits at backslashes. -/
def fields (s : Str) : List Str := s.splitBy fun a b => a ≠ '\\' ∧ b ≠ '\\'

/-- The value that follows a key in `\key\value\key\value`. -/
def value (s key : Str) : Option Str :=
  (find (chars!"\\" ++ key ++ chars!"\\") s).map fun i =>
    (s.drop (i + key.length + 2)).takeWhile (· ≠ '\\')

/-- An environment; the arguments are the build profile, the iteration order of all hash maps (reversed or not) and
the behaviour of a failed read. -/
def env (checks reversed eofSeek : Bool) : Env where
  checks := checks
  eofSeek := eofSeek
  order _ l := if reversed then l.reverse else l
  order_perm _ l := by
    cases reversed
    · exact List.Perm.refl _
    · exact List.reverse_perm l
  toUnicode := latin1
  toUtf8 := latin1
  unicodeSort := sortBy strCmp
  settings s := {
    mode := value s chars!"mode"
    epoch := (value s chars!"epoch").bind parseI32
    serverdemo := value s chars!"serverdemo"
    other := [] }
  clientinfo s := {
    name := value s chars!"name"
    team := value s chars!"team"
    topcolor := (value s chars!"topcolor").bind parseI32
    bottomcolor := (value s chars!"bottomcolor").bind parseI32
    spectator := (value s chars!"*spectator").bind parseI32
    auth := value s chars!"*auth"
    flag := value s chars!"*flag"
    client := value s chars!"*client"
    bot := (value s chars!"*bot").bind parseI32
    chat := (value s chars!"chat").bind parseI32 }
  ktxstats s := if s = [] then none else some { hostname := chars!"host", ip := chars!"1.2.3.4", port := 27500, players := [] }
  lowercase s := s.map Char.toLower
  parseF64 s := if s = chars!"NaN" then some .nan else (parseI32 s).map fun n => .finite n
  parseDate s := (parseI32 (s.take 4)).map fun y => y

/-- Debug build. -/
abbrev debug : Env := env true false true
/-- Release build. -/
abbrev release : Env := env false false true
/-- Release build that iterates hash maps in the opposite order. -/
abbrev other : Env := env false true true

end Mvd.Example
