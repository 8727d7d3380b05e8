import Verif.Model.Load
/-!
# Specification: what a document contains

What C39, C40 and C51 talk about.  A path leads from a container to its packages and elements by their short names; it says for
every name whether it is the name of a package or of an element.
-/
namespace Verif.Spec
open Verif Verif.Model

/-- what a name of a path is the name of -/
inductive Role
  | package | element
  deriving DecidableEq, Repr

/-- the members of a container -/
def held {F : Type} (o : MObj F) : Role → List (MObj F)
  | .package => o.get k!"arPackages"
  | .element => o.get k!"elements"

/-- a path leads from an object to an object -/
inductive Reaches {F : Type} : MObj F → List (Role × Str) → MObj F → Prop
  | here (o : MObj F) : Reaches o [] o
  | step (o v w : MObj F) (k : Role) (p : List (Role × Str)) : v ∈ held o k → Reaches v p w → Reaches o ((k, v.name) :: p) w

/-- a path leads to an object of a class -/
def Holds {F : Type} (o : MObj F) (p : List (Role × Str)) (c : Key) : Prop := ∃ w, Reaches o p w ∧ w.cls = c

/-- nowhere do a package and an element of the same container have the same name -/
def Apart {F : Type} (o : MObj F) : Prop :=
  ∀ p n v w, ¬ (Reaches o (p ++ [(Role.package, n)]) v ∧ Reaches o (p ++ [(Role.element, n)]) w)

/-! ## Loading a file again (C51) -/

/-- objects of the class have a list that the reader appends to without looking for what is in it already -/
def Appended (c f : Key) : Prop :=
  ∃ k b s, readers k = some b ∧ b.cls = c ∧ s ∈ b.slots ∧ s.field = f ∧ s.isList = true ∧ s.named = false

mutual
/-- The second object is the first one, but for lists that are there twice (in the object, or in members it has). -/
inductive Doubled {F : Type} : MObj F → MObj F → Prop
  | same (o : MObj F) : Doubled o o
  | obj {c : Key} {fs fs' : List ((Key × Bool) × List (MObj F))} : DoubledFields c fs fs' → Doubled (.mk c fs) (.mk c fs')
/-- attribute by attribute: the same; or an appended list twice; or as many members, with the same names and classes in the same order -/
inductive DoubledFields {F : Type} : Key → List ((Key × Bool) × List (MObj F)) → List ((Key × Bool) × List (MObj F)) → Prop
  | nil (c : Key) : DoubledFields c [] []
  | same {c : Key} (k : Key × Bool) (vs : List (MObj F)) {fs fs' : List ((Key × Bool) × List (MObj F))} :
    DoubledFields c fs fs' → DoubledFields c ((k, vs) :: fs) ((k, vs) :: fs')
  | twice {c : Key} (k : Key × Bool) (vs : List (MObj F)) {fs fs' : List ((Key × Bool) × List (MObj F))} :
    Appended c k.1 → DoubledFields c fs fs' → DoubledFields c ((k, vs) :: fs) ((k, vs ++ vs) :: fs')
  | members {c : Key} (k : Key × Bool) {vs vs' : List (MObj F)} {fs fs' : List ((Key × Bool) × List (MObj F))} :
    DoubledMembers vs vs' → DoubledFields c fs fs' → DoubledFields c ((k, vs) :: fs) ((k, vs') :: fs')
inductive DoubledMembers {F : Type} : List (MObj F) → List (MObj F) → Prop
  | nil : DoubledMembers [] []
  | cons {v v' : MObj F} {vs vs' : List (MObj F)} : v'.name = v.name → v'.cls = v.cls → Doubled v v' → DoubledMembers vs vs' →
    DoubledMembers (v :: vs) (v' :: vs')
end

mutual
/-- nowhere in the object is there anything in such a list -/
def NoLists {F : Type} : MObj F → Prop
  | .scal _ => True
  | .mk c fs => NoListsF c fs
def NoListsF {F : Type} (c : Key) : List ((Key × Bool) × List (MObj F)) → Prop
  | [] => True
  | (k, vs) :: fs => (Appended c k.1 → vs = []) ∧ NoListsL vs ∧ NoListsF c fs
def NoListsL {F : Type} : List (MObj F) → Prop
  | [] => True
  | v :: vs => NoLists v ∧ NoListsL vs
end

end Verif.Spec
