import Verif.Model.Markup
import Verif.Model.Document
/-!
# Specification: trees and files

What C30–C32 talk about, apart from the definitions of the serializers and the parser.
-/
namespace Verif.Spec
open Verif Verif.Model

/-- the characters XML allows -/
def XmlChar (c : Char) : Prop :=
  c = '\t' ∨ c = '\n' ∨ c = '\r' ∨ (' '.toNat ≤ c.toNat ∧ c.toNat ≠ 0xFFFE ∧ c.toNat ≠ 0xFFFF)

/-- a name -/
def XmlName (nc : NameChars) (s : Str) : Prop := ∃ c r, s = c :: r ∧ nc.start c = true ∧ ∀ x ∈ r, nc.char x = true

/-- every element of a tree -/
inductive Every (P : Xml → Prop) : Xml → Prop
  | node (t : Key) (as : List (Key × Str)) (s : Str) (kids : List Xml) : P (.node t as s kids) → (∀ k ∈ kids, Every P k) →
      Every P (.node t as s kids)

/-- tag and attributes have names, no attribute is given twice (`xmlns` is written by `save` itself) -/
def GoodNames (nc : NameChars) (x : Xml) : Prop :=
  XmlName nc (keyName x.tag) ∧
  (∀ a ∈ x.attrs, XmlName nc (keyName a.1) ∧ keyName a.1 ≠ "xmlns".toList ∧ ¬ "xmlns:".toList <+: keyName a.1) ∧
  (x.attrs.map Prod.fst).Nodup

/-- text and attribute values consist of characters XML allows -/
def GoodChars (x : Xml) : Prop := (∀ a ∈ x.attrs, ∀ c ∈ a.2, XmlChar c) ∧ ∀ c ∈ x.text, XmlChar c

/-- Trees that can be written at all. -/
def Writable (nc : NameChars) (x : Xml) : Prop := Every (GoodNames nc) x ∧ Every GoodChars x

/-- no attribute value has a tab or a line end, the text of a leaf has no carriage return -/
def Smooth (x : Xml) : Prop :=
  (∀ a ∈ x.attrs, '\t' ∉ a.2 ∧ '\n' ∉ a.2 ∧ '\r' ∉ a.2) ∧ (x.kids = [] → '\r' ∉ x.text)

/-- no attribute value has a quotation mark -/
def Unquoted (x : Xml) : Prop := ∀ a ∈ x.attrs, '"' ∉ a.2

/-- a line end and the indentation of the children of an element at a depth (the root has depth 0) -/
def lineBreak (depth : Nat) : Str := '\n' :: List.replicate (2 * (depth + 1)) ' '

/-- what becomes of an attribute value: every line end and every tab is a blank afterwards -/
def flatValue (v : Str) : Str := (newlines v).map fun c => if c = '\t' ∨ c = '\n' then ' ' else c

mutual
/-- What a tree at a depth looks like after it was saved and read: line ends are normalised, attribute values have no line
ends, the text before the first child is surrounded by line breaks. -/
def laid (depth : Nat) : Xml → Xml
  | .node t as s [] => .node t (as.map fun a => (a.1, flatValue a.2)) (newlines s) []
  | .node t as s (x :: l) =>
    .node t (as.map fun a => (a.1, flatValue a.2))
      (lineBreak depth ++ if s = [] then [] else newlines s ++ lineBreak depth) (laidAll (depth + 1) (x :: l))
def laidAll (depth : Nat) : List Xml → List Xml
  | [] => []
  | x :: l => laid depth x :: laidAll depth l
end

/-- the element a list of child positions leads to -/
def at? : List Nat → Xml → Option Xml
  | [], x => some x
  | i :: p, x => match x.kids[i]? with
    | none => none
    | some y => at? p y

/-- a text or attribute value of some element of a tree -/
def Occurs (s : Str) (x : Xml) : Prop := ∃ p e, at? p x = some e ∧ (e.text = s ∨ ∃ a ∈ e.attrs, a.2 = s)

/-- The words the library has of its own: what is written for a missing number and a missing truth value, the words of its
two tables, the schema location it writes if there is none. -/
def ownTexts : List Str :=
  ["".toList, "None".toList, "true".toList, "false".toList, "CODE-GENERATION-TIME".toList, "LINK-TIME".toList, "PRE-COMPILE-TIME".toList,
   "SYSTEM-DESIGN-TIME".toList, "CLOSED".toList, "OPEN".toList, "codeGenerationTime".toList, "linkTime".toList, "preCompileTime".toList,
   "systemDesignTime".toList, "closed".toList, "open".toList, defaultSchema]

/-- saving a tree and reading the file -/
def cycle (py : Py) (nc : NameChars) (x : Xml) : Option Xml := (saveToFile py nc false x).bind (parseFile nc)

/-- saving and reading `n` times -/
def cycles (py : Py) (nc : NameChars) : Nat → Xml → Option Xml
  | 0, x => some x
  | n + 1, x => (cycle py nc x).bind (cycles py nc n)

/-- a text repeated -/
def times (n : Nat) (s : Str) : Str := (List.replicate n s).flatten

end Verif.Spec
