import Verif.Model.Document
import Mathlib.Data.List.Forall2
/-!
# Exchanging one element of a file
-/
namespace Verif.Spec
open Verif Verif.Model

/-- the second file is the first one with the element `e` exchanged for `e'`, in one place or several -/
inductive Exchanged (e e' : Xml) : Xml → Xml → Prop
  | here : Exchanged e e' e e'
  | inside (t : Key) (as : List (Key × Str)) (s : Str) (ks ks' : List Xml) : List.Forall₂ (Exchanged e e') ks ks' →
      Exchanged e e' (.node t as s ks) (.node t as s ks')

section
variable {F : Type}

mutual
/-- The second document is the first one with objects, at any depth, replaced by others; `P` says by which.  All other objects, all values and the
order are the same. -/
inductive Renewed (P : MObj F → MObj F → Prop) : MObj F → MObj F → Prop
  | here (v v' : MObj F) : P v v' → Renewed P v v'
  | scal (s : Scalar F) : Renewed P (.scal s) (.scal s)
  | inside (c : Key) (fs fs' : List ((Key × Bool) × List (MObj F))) : RenewedIn P fs fs' → Renewed P (.mk c fs) (.mk c fs')
/-- the same for the attributes of an object -/
inductive RenewedIn (P : MObj F → MObj F → Prop) : List ((Key × Bool) × List (MObj F)) → List ((Key × Bool) × List (MObj F)) → Prop
  | nil : RenewedIn P [] []
  | cons (k : Key × Bool) (vs vs' : List (MObj F)) (fs fs' : List ((Key × Bool) × List (MObj F))) :
      List.Forall₂ (Renewed P) vs vs' → RenewedIn P fs fs' → RenewedIn P ((k, vs) :: fs) ((k, vs') :: fs')
end

end

/-- the objects one method of the reader makes of `e` and of `e'` -/
def MadeFrom (py : Py) (strict : Bool) (e e' : Xml) (v v' : MObj py.F) : Prop :=
  ∃ n n' k, readObj py strict readers n k e = .ok v ∧ readObj py strict readers n' k e' = .ok v'

/-- some method of the reader makes objects of elements with this tag -/
def ObjectTag (t : Key) : Prop := ∃ k b s alts k', readers k = some b ∧ s ∈ b.slots ∧ s.item = .objs alts ∧ (t, k') ∈ alts

/-- The tags of elements of which objects are made in one place, and of which something is read directly in another. -/
def twoWays : List Key :=
  [k!"ECU-INSTANCE", k!"VF", k!"V", k!"VT", k!"RPT-SERVICE-POINT", k!"TP-ADDRESS", k!"SEGMENT-POSITION", k!"TRIGGER", k!"MODE-GROUP-IREF",
   k!"NUMERICAL-VALUE-VARIATION-POINT", k!"CYCLE-REPETITION"]

end Verif.Spec
