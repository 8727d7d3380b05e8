import Verif.Model.Py
/-!
# Specification of file lists
-/
namespace Verif.Spec
open Verif.Model

/-- a line of blanks -/
def Blank (py : Py) (l : List Char) : Prop := ∀ c ∈ l, py.space c = true

/-- a comment line -/
def Comment (l : List Char) : Prop := ∃ r, l = '#' :: r

/-- `p` is `l` without the blanks at both ends -/
def TrimsTo (py : Py) (l p : List Char) : Prop :=
  ∃ a b, l = a ++ p ++ b ∧ Blank py a ∧ Blank py b ∧ (∀ c, p.head? = some c → py.space c = false) ∧
    ∀ c, p.getLast? = some c → py.space c = false

/-- `ls` are the lines of the text `t`: together they give `t`; each but perhaps the last ends with its only newline; none is empty -/
def LinesOf (t : List Char) (ls : List (List Char)) : Prop :=
  ls.flatten = t ∧ (∀ l ∈ ls, l ≠ [] ∧ '\n' ∉ l.dropLast) ∧ ∀ l ∈ ls.dropLast, l.getLast? = some '\n'

/-- `ps` are the paths listed in the lines `ls`, in order: comment lines and blank lines list nothing, every
other line lists one path, with blanks around it ignored -/
inductive Listed (py : Py) : List (List Char) → List (List Char) → Prop
  | nil : Listed py [] []
  | comment {l ls ps} : Comment l → Listed py ls ps → Listed py (l :: ls) ps
  | blank {l ls ps} : Blank py l → Listed py ls ps → Listed py (l :: ls) ps
  | path {l ls p ps} : ¬ Comment l → ¬ Blank py l → TrimsTo py l p → Listed py ls ps → Listed py (l :: ls) (p :: ps)

/-- the name ends in `.arxml`, in any mix of cases -/
def ArxmlName (f : List Char) : Prop :=
  ∃ b a r x m l, f = b ++ ['.', a, r, x, m, l] ∧ a ∈ ['a', 'A'] ∧ r ∈ ['r', 'R'] ∧ x ∈ ['x', 'X'] ∧ m ∈ ['m', 'M'] ∧ l ∈ ['l', 'L']

end Verif.Spec
