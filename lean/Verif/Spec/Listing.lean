import Verif.Model.Listing
/-!
# Specification vocabulary for listings and for the packages of a document
-/
namespace Verif.Spec
open Verif.Model

/-- `q` is a sub-package of `p` (of the document `p`) -/
def Child (w : World) (p q : Nat) : Prop := ∃ o n, w.get p = some o ∧ (n, q) ∈ o.pkgs

/-- `p` is a package of document `d`, inside `n` other packages -/
inductive InDoc (w : World) (d : Nat) : Nat → Nat → Prop
  | top {p} : Child w d p → InDoc w d 0 p
  | sub {n p q} : InDoc w d n p → Child w p q → InDoc w d (n + 1) q

/-- `e` is a member of an object -/
def Member (w : World) (p : Nat) (e : Elem) : Prop := ∃ o, w.get p = some o ∧ e ∈ o.own.coll.elements

/-- in the order of the short names -/
def NameSorted (l : List Elem) : Prop := l.Pairwise fun a b => a.name ≤ b.name

end Verif.Spec
