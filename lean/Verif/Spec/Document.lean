import Verif.Model.Document
import Verif.Spec.Defects
/-!
# Specification: documents

What C35, C37 and C38 talk about.
-/
namespace Verif.Spec
open Verif Verif.Model

/-- The tags the reader accepts in the `ELEMENTS` of a package, each with the class of the object made for it. -/
def packageTags : List (Key × Key) := Gen.R.readARPackageElements.flatMap fun s => match s.item with
  | .objs alts => alts.filterMap fun a => (readers a.2).map fun b => (a.1, b.cls)
  | _ => []

/-- the short name an element shows -/
def shownName (y : Xml) : Option Str := (y.kids.find? (tagIs k!"SHORT-NAME")).map Xml.text

/-- an object with a short name -/
def Named {F : Type} (o : MObj F) : Prop := ∃ v, o.get k!"short_name" = [.scal (.str v)]

end Verif.Spec
