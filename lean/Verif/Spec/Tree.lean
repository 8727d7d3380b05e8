import Verif.Model.Tree
/-!
# Specification vocabulary for documents: paths through containment

`Path w d ns i`: object `i` is reached from document `d` by descending through members with the short
names `ns`.  `UPath` in addition says that at each step the name is not shared with another member of
the same container (a package shares its name harmlessly: packages come first).
-/
namespace Verif.Spec
open Verif.Model

inductive Path (w : World) (d : Nat) : List String → Nat → Prop
  | root : Path w d [] d
  | pkg {ns p o n i} : Path w d ns p → w.get p = some o → (n, i) ∈ o.pkgs → Path w d (ns ++ [n]) i
  | mem {ns p o e} : Path w d ns p → w.get p = some o → e ∈ o.own.coll.elements → Path w d (ns ++ [e.name]) e.id

inductive UPath (w : World) (d : Nat) : List String → Nat → Prop
  | root : UPath w d [] d
  | pkg {ns p o n i} : UPath w d ns p → w.get p = some o → (n, i) ∈ o.pkgs → UPath w d (ns ++ [n]) i
  | mem {ns p o e} : UPath w d ns p → w.get p = some o → e ∈ o.own.coll.elements →
      (∀ q ∈ o.pkgs, q.1 ≠ e.name) → (∀ e' ∈ o.own.coll.elements, e'.name = e.name → e' = e) →
      UPath w d (ns ++ [e.name]) e.id

/-- `/a/b/c` -/
def slashed : List String → String
  | [] => ""
  | n :: ns => "/" ++ n ++ slashed ns

/-- a usable short name -/
def Plain (n : String) : Prop := n ≠ "" ∧ '/' ∉ n.toList

/-- the member a name denotes in a container: sub-packages first, then the first member of that name -/
def member (o : Obj) (n : String) : Option Nat :=
  match o.pkgs.find? (fun q => q.1 == n) with
  | some q => some q.2
  | none => (o.own.coll.elements.find? fun e => e.name == n).map (·.id)

end Verif.Spec
