import Lean
/-!
# Names as numbers

Tag names, class names, attribute names and method names are compared very often when the kernel
evaluates the generated tables.  A name is therefore represented by the natural number whose base-256
digits are the bytes of the name; `k!"SHORT-NAME"` is notation for that number.  The encoding is
injective on non-empty names without NUL bytes, so equality of keys is equality of names.
-/
namespace Verif

/-- A name, encoded as a number. -/
abbrev Key := Nat

open Lean in
/-- `k!"NAME"` is the number with the bytes of `NAME` as base-256 digits. -/
macro:max "k!" s:str : term => do
  let n := s.getString.toUTF8.toList.foldl (fun acc b => acc * 256 + b.toNat) 0
  `((nat_lit $(Syntax.mkNumLit (toString n)) : Key))

example : k!"AB" = 0x4142 := rfl

end Verif
