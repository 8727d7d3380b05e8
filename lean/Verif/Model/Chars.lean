import Lean
/-!
# Texts as lists of characters

`t!"text"` is notation for the list of the characters of a text.  It is the same list as `"text".toList`; that one the kernel
decodes from the bytes of the string, character by character, which takes much memory for the texts of whole files.
-/
namespace Verif

open Lean Elab Term in
/-- `t!"ab"` is `['a', 'b']`. -/
elab:max "t!" s:str : term => return toExpr s.getString.toList

example : t!"a\nb" = "a\nb".toList := by decide

end Verif
