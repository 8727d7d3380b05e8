import Mathlib.Logic.Relation
import Verif.Spec.Order
import Verif.Gen.TextTags
/-!
# Specification: what may be changed in a file without changing what is read
-/
namespace Verif.Spec
open Verif Verif.Model

/-- Is the text of elements with this tag read?  The list is generated (`Gen/TextTags.lean`): `SHORT-NAME`, `CATEGORY`, all references, … -/
def readsText (t : Key) : Bool := (Gen.textTags.find? t).isSome

/-- the attributes that are read -/
def readAttrs : List Key := [
  k!"T", k!"UUID", k!"xsi:schemaLocation", k!"DEST", k!"BASE", k!"INTERVAL-TYPE", k!"SHORT-LABEL", k!"SD", k!"BLUEPRINT-VALUE", k!"PGWIDE", k!"FLOAT",
  k!"ALLOWBREAK", k!"BINDING-TIME", k!"LEVEL", k!"COLOR", k!"ITEMLABELPOS", k!"VALIDITY", k!"SI", k!"SUB", k!"SUP", k!"L", k!"FILENAME", k!"HELPENTRY",
  k!"HELP-ENTRY", k!"NOTETYPE", k!"TEX-RENDER", k!"TYPE", k!"GID"]

/-- One change somewhere in a tree: two neighbours are exchanged, a text that is not read is replaced, or an attribute that is not read is
removed. -/
inductive Edit : Xml → Xml → Prop
  | kids (t : Key) (as : List (Key × Str)) (s : Str) (l r : List Xml) (a b : Xml) : a.tag ≠ b.tag → t ∉ mixedLists →
      Edit (.node t as s (l ++ a :: b :: r)) (.node t as s (l ++ b :: a :: r))
  | attrs (t : Key) (as bs : List (Key × Str)) (a b : Key × Str) (s : Str) (l : List Xml) : a.1 ≠ b.1 →
      Edit (.node t (as ++ a :: b :: bs) s l) (.node t (as ++ b :: a :: bs) s l)
  | text (t : Key) (as : List (Key × Str)) (s s' : Str) (l : List Xml) : readsText t = false → Edit (.node t as s l) (.node t as s' l)
  | attr (t : Key) (as bs : List (Key × Str)) (a : Key × Str) (s : Str) (l : List Xml) : a.1 ∉ readAttrs →
      Edit (.node t (as ++ a :: bs) s l) (.node t (as ++ bs) s l)
  | deep (t : Key) (as : List (Key × Str)) (s : Str) (l r : List Xml) (y y' : Xml) : Edit y y' →
      Edit (.node t as s (l ++ y :: r)) (.node t as s (l ++ y' :: r))

/-- any number of changes, in both directions -/
def Alike : Xml → Xml → Prop := Relation.EqvGen Edit

mutual
/-- a tree without the texts and the attributes that are not read -/
def strip : Xml → Xml
  | .node t as s l => .node t (as.filter fun a => readAttrs.contains a.1) (if readsText t then s else []) (stripAll l)
/-- the same for a list of trees -/
def stripAll : List Xml → List Xml
  | [] => []
  | x :: l => strip x :: stripAll l
end

end Verif.Spec
