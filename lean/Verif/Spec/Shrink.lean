import Verif.Spec.Insert
/-!
# Removing an element from a file that is loaded and saved
-/
namespace Verif.Spec
open Verif Verif.Model

/-- The second file is the first one with elements added, anywhere and any.  All elements of the first one are there, in the same order and with the
same text and attributes. -/
inductive PartOf : Xml → Xml → Prop
  | node (t : Key) (as : List (Key × Str)) (s : Str) (ks ks' : List Xml) : Grown PartOf (fun _ => True) ks ks' →
      PartOf (.node t as s ks) (.node t as s ks')

/-- The two kinds of elements that change the place others are written to. -/
def movers : List Key := [k!"PORT-DEFINED-ARGUMENT-VALUE", k!"RECEIVER-IREF"]

end Verif.Spec
