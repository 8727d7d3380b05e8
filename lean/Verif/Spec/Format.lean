import Verif.Model.Format
import Verif.Spec.Markup
import Verif.Spec.FileList
/-!
# Specification: what formatting a file may change

What C55 talks about.
-/
namespace Verif.Spec
open Verif Verif.Model

/-- the characters at which a line ends for Python's `str.splitlines` -/
def lineEnds : List Char := ['\n', '\r', '\x0b', '\x0c', '\x1c', '\x1d', '\x1e', '\u0085', '\u2028', '\u2029']

/-- the lines of a text, without the characters that end them -/
def linesOf : Str → List Str
  | [] => [[]]
  | c :: s =>
    if c ∈ lineEnds then [] :: linesOf s
    else match linesOf s with
      | [] => [[c]]
      | l :: r => (c :: l) :: r

/-- lines put together -/
def joined : List Str → Str
  | [] => []
  | [l] => l
  | l :: r => l ++ '\n' :: joined r

/-- a line with something to see -/
def seen (py : Py) (l : Str) : Bool := py.strip l != []

/-- a text without the blank lines inside it -/
def squeezed (py : Py) (s : Str) : Str :=
  match linesOf s with
  | [] => []
  | l :: r => joined (l :: (r.dropLast.filter (seen py) ++ r.getLast?.toList))

/-- what there is to see in a text: its lines without the white space around them -/
def visible (py : Py) (s : Str) : List Str := ((linesOf s).map py.strip).filter (· != [])

/-- a line end and the indentation of the end tag of an element at a depth -/
def lastBreak (depth : Nat) : Str := '\n' :: List.replicate (2 * depth) ' '

/-- Formatting turns the element at a depth into another one: the name is the same; so are the attributes, except for their
order, blank lines inside the values, and line ends and tabs that become blanks; the text of a leaf loses the blank
lines inside it.  Around the children there is the same to see; where there is nothing to see, there is a line end
and the indentation. -/
inductive Formatted (py : Py) : Nat → El → El → Prop
  | leaf (depth : Nat) (n : Str) (as as' : List (Str × Str)) (tx tl tl' : Str) :
      (as.map fun a => (a.1, flatValue (squeezed py a.2))).Perm as' →
      Formatted py depth (.mk n as tx [] tl) (.mk n as' (squeezed py tx) [] tl')
  | node (depth : Nat) (n : Str) (as as' : List (Str × Str)) (tx tx' : Str) (kids kids' : List El) (tl tl' : Str) :
      (as.map fun a => (a.1, flatValue (squeezed py a.2))).Perm as' →
      visible py tx' = visible py tx → (visible py tx = [] → tx' = lineBreak depth) →
      kids ≠ [] → kids'.length = kids.length →
      (∀ (i : Nat) (k k' : El), kids[i]? = some k → kids'[i]? = some k' → Formatted py (depth + 1) k k') →
      (∀ (i : Nat) (k k' : El), kids[i]? = some k → kids'[i]? = some k' → visible py k'.tail = visible py k.tail) →
      (∀ (i : Nat) (k k' : El), kids[i]? = some k → kids'[i]? = some k' → visible py k.tail = [] →
        k'.tail = if i + 1 = kids.length then lastBreak depth else lineBreak depth) →
      Formatted py depth (.mk n as tx kids tl) (.mk n as' tx' kids' tl')

/-- a text whose lines end with `\n` only, and without a blank line between two others -/
def Even (py : Py) (s : Str) : Prop :=
  (∀ c ∈ s, c ∈ lineEnds → c = '\n') ∧ ¬ ∃ a w b, s = a ++ '\n' :: w ++ '\n' :: b ∧ Blank py w

/-- a text without line ends and tabs -/
def OneLine (s : Str) : Prop := ∀ c ∈ s, c ≠ '\t' ∧ c ∉ lineEnds

/-- every element of a tree -/
inductive EveryEl (P : El → Prop) : El → Prop
  | mk (n : Str) (as : List (Str × Str)) (tx : Str) (kids : List El) (tl : Str) : P (.mk n as tx kids tl) →
      (∀ k ∈ kids, EveryEl P k) → EveryEl P (.mk n as tx kids tl)

/-- the values of the attributes have no line ends -/
def PlainAttrs (e : El) : Prop := ∀ a ∈ e.attrs, OneLine a.2

/-- the text of a leaf has no blank lines inside -/
def PlainLeaf (py : Py) (e : El) : Prop := e.kids = [] → Even py e.text

/-- the same elements in the same order, with the same names, the same attributes (in some order) and the same texts in
the leaves -/
inductive SameData : El → El → Prop
  | mk (n : Str) (as as' : List (Str × Str)) (tx tx' : Str) (kids kids' : List El) (tl tl' : Str) :
      as.Perm as' → (kids = [] → tx' = tx) → List.Forall₂ SameData kids kids' →
      SameData (.mk n as tx kids tl) (.mk n as' tx' kids' tl')

/-- names have no characters that end a line (true for the names of XML) -/
def OneLineNames (nc : NameChars) : Prop := ∀ c, nc.char c = true → c ∉ lineEnds

end Verif.Spec
