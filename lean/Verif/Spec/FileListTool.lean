import Verif.Model.FileListTool
import Verif.Spec.FileList
/-!
# Specification: lists of files that can be read back

What C56 talks about.
-/
namespace Verif.Spec
open Verif Verif.Model

/-- a path (or a part of it) that can stand on a line of its own: it is not empty, has no line end, no white space at its
ends and does not look like a comment -/
def PlainPath (py : Py) (p : List Char) : Prop :=
  p ≠ [] ∧ '\n' ∉ p ∧ '\r' ∉ p ∧ p.head? ≠ some '#' ∧ (∀ c, p.head? = some c → py.space c = false) ∧
    ∀ c, p.getLast? = some c → py.space c = false

/-- Where a path leads from a directory (both as lists of names): the empty name and `.` lead nowhere, `..` leads to the
parent, the root is its own parent. -/
inductive Leads : List (List Char) → List (List Char) → List (List Char) → Prop
  | stop (d) : Leads d [] d
  | stay {d x r e} : x = [] ∨ x = ".".toList → Leads d r e → Leads d (x :: r) e
  | up {d x r e} : Leads d r e → Leads (d ++ [x]) ("..".toList :: r) e
  | top {r e} : Leads [] r e → Leads [] ("..".toList :: r) e
  | down {d x r e} : x ≠ [] → x ≠ ".".toList → x ≠ "..".toList → Leads (d ++ [x]) r e → Leads d (x :: r) e

/-- `ns` are the names in a path: put together with slashes they give the path -/
def Names (path : List Char) (ns : List (List Char)) : Prop :=
  ns ≠ [] ∧ path = joinSlash ns ∧ ∀ n ∈ ns, '/' ∉ n

/-- the file a path means when `cwd` is the current directory: an absolute path starts at the root -/
def Means (cwd path : List Char) (file : List (List Char)) : Prop :=
  ∃ d ns cs, Names cwd cs ∧ Leads [] cs d ∧ Names path ns ∧ Leads (if path.head? = some '/' then [] else d) ns file

end Verif.Spec
