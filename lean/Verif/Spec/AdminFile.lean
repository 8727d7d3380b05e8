import Verif.Model.Xml
import Verif.Spec.AdminData
/-!
# Specification: a file without admin data

What C57 talks about.
-/
namespace Verif.Spec
open Verif Verif.Model

/-- the element without its child `ADMIN-DATA` -/
def dropAdmin : Xml → Xml
  | .node t as s kids => .node t as s (kids.filter fun y => y.tag != k!"ADMIN-DATA")

mutual
/-- A package (or the whole document) without admin data: the child `ADMIN-DATA` is dropped, in `ELEMENTS` that of each element
is dropped, in `AR-PACKAGES` each package is cleaned. -/
def cleanPkg : Xml → Xml
  | .node t as s kids => .node t as s (cleanParts kids)
/-- the children of a package -/
def cleanParts : List Xml → List Xml
  | [] => []
  | .node t as s kids :: r =>
    if t = k!"ADMIN-DATA" then cleanParts r
    else if t = k!"ELEMENTS" then .node t as s (kids.map dropAdmin) :: cleanParts r
    else if t = k!"AR-PACKAGES" then .node t as s (cleanPkgs kids) :: cleanParts r
    else .node t as s kids :: cleanParts r
/-- the packages in `AR-PACKAGES` -/
def cleanPkgs : List Xml → List Xml
  | [] => []
  | x :: r => cleanPkg x :: cleanPkgs r
end

/-- There is no admin data in the package (or document), in its elements and in its sub-packages. -/
inductive NoAdmin : Xml → Prop
  | mk (t : Key) (as : List (Key × Str)) (s : Str) (kids : List Xml) : (∀ y ∈ kids, y.tag ≠ k!"ADMIN-DATA") →
      (∀ y ∈ kids, y.tag = k!"ELEMENTS" → ∀ e ∈ y.kids, ∀ z ∈ e.kids, z.tag ≠ k!"ADMIN-DATA") →
      (∀ y ∈ kids, y.tag = k!"AR-PACKAGES" → ∀ q ∈ y.kids, NoAdmin q) → NoAdmin (.node t as s kids)

/-- The objects have the attributes in the usual places: admin data is no member of the element collection of an element, and the
members of a package are in its attribute `elements`. -/
def Regular {F : Type} (d : MObj F) : Prop :=
  ∀ i path p, pkgAt d (i :: path) = some p →
    (∀ f ∈ p.fields, f.1.2 = true → f.1.1 = k!"elements") ∧
    ∀ e ∈ p.get k!"elements", ∀ f ∈ e.fields, f.1 ≠ (k!"adminData", true)

end Verif.Spec
