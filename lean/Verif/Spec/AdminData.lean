import Mathlib.Data.List.Forall2
import Verif.Model.Codec
import Verif.Model.Accessors
/-!
# Specification of admin-data removal
-/
namespace Verif.Spec
open Verif Verif.Model
variable {F : Type}

/-- the document itself (`[]`), its packages (`[i]`), their sub-packages (`[i, j]`), ... -/
def pkgAt (d : MObj F) : List Nat → Option (MObj F)
  | [] => some d
  | i :: p => ((d.get k!"arPackages")[i]?).bind fun q => pkgAt q p

/-- `b` has the class and the fields of `a`; only `adminData` may differ -/
def SameButAdminData (a b : MObj F) : Prop :=
  b.cls = a.cls ∧ List.Forall₂ (fun x y => y.1 = x.1 ∧ (x.1.1 ≠ k!"adminData" → y.2 = x.2)) a.fields b.fields

/-- `y` is the field `x` of a package with admin data removed: the sub-packages are as many, the elements are the
same but for their admin data, any other field is the same -/
def SameField (x y : (Key × Bool) × List (MObj F)) : Prop :=
  y.1 = x.1 ∧
  (x.1.1 = k!"arPackages" → y.2.length = x.2.length) ∧
  (x.1.1 ≠ k!"arPackages" → x.1.1 ≠ k!"adminData" →
    if x.1.2 = true ∨ x.1.1 = k!"elements" then List.Forall₂ SameButAdminData x.2 y.2 else y.2 = x.2)

/-- an object has admin data only if its class has the attribute -/
def HasAttribute (e : MObj F) : Prop := e.get k!"adminData" ≠ [] → (inits e.cls k!"adminData").isSome = true

end Verif.Spec
