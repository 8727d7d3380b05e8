import Verif.Spec.Exchange
/-!
# Adding an element to a file
-/
namespace Verif.Spec
open Verif Verif.Model

/-- The second list is the first one with members added in any places; `A` says which.  The others are in the same order, and each one is in the
relation `R` to the one it was. -/
inductive Grown {α β : Type} (R : α → β → Prop) (A : β → Prop) : List α → List β → Prop
  | nil : Grown R A [] []
  | keep {a : α} {b : β} {l : List α} {m : List β} : R a b → Grown R A l m → Grown R A (a :: l) (b :: m)
  | add {b : β} {l : List α} {m : List β} : A b → Grown R A l m → Grown R A l (b :: m)

/-- The tags of elements of which only one child is read, whatever its tag. -/
def singles : List Key :=
  [k!"INIT-VALUE", k!"TIMEOUT-SUBSTITUTION-VALUE", k!"INVALID-VALUE", k!"RAM-BLOCK-INIT-VALUE", k!"ROM-BLOCK-INIT-VALUE",
   k!"TRANSFORMATION-COM-SPEC-PROPS", k!"VALUE", k!"TP-CONFIGURATION", k!"TYPE-MAPPING", k!"VALUE-SPEC", k!"MODE-GROUP-IREF", k!"SERVICE-NEEDS",
   k!"VALUE-ACCESS", k!"COMPU-CONST", k!"COMPU-DEFAULT-VALUE"]

/-- The second file is the first one with the element `e` added, in one place or several, at any depth, but not directly in one of the elements
above. -/
inductive Inserted (e : Xml) : Xml → Xml → Prop
  | inside (t : Key) (as : List (Key × Str)) (s : Str) (ks ks' : List Xml) : List.Forall₂ (Inserted e) ks ks' →
      Inserted e (.node t as s ks) (.node t as s ks')
  | here (t : Key) (as : List (Key × Str)) (s : Str) (ks ks' : List Xml) : t ∉ singles → Grown (Inserted e) (fun y => y = e) ks ks' →
      Inserted e (.node t as s ks) (.node t as s ks')

section
variable {F : Type}

mutual
/-- The second document is the first one with objects added, at any depth; `P` says which.  All other objects, all values and the order are the
same. -/
inductive Gained (P : MObj F → Prop) : MObj F → MObj F → Prop
  | scal (s : Scalar F) : Gained P (.scal s) (.scal s)
  | inside (c : Key) (fs fs' : List ((Key × Bool) × List (MObj F))) : GainedIn P fs fs' → Gained P (.mk c fs) (.mk c fs')
/-- the same for the attributes of an object -/
inductive GainedIn (P : MObj F → Prop) : List ((Key × Bool) × List (MObj F)) → List ((Key × Bool) × List (MObj F)) → Prop
  | nil : GainedIn P [] []
  | cons (k : Key × Bool) (vs vs' : List (MObj F)) (fs fs' : List ((Key × Bool) × List (MObj F))) :
      Grown (Gained P) P vs vs' → GainedIn P fs fs' → GainedIn P ((k, vs) :: fs) ((k, vs') :: fs')
end

end

/-- an object some method of the reader makes of `e` -/
def ReadFrom (py : Py) (strict : Bool) (e : Xml) (v : MObj py.F) : Prop := ∃ n k, readObj py strict readers n k e = .ok v

/-- the path ends with a loop (over all children with a tag, or over all children) -/
def endsInLoop : Path → Bool
  | .nil => false
  | .all _ .nil => true
  | .all _ r | .first _ r | .pick _ r | .need _ r | .lack _ r | .alt _ r => endsInLoop r

/-- some method of the reader makes, in a loop, an object of each element with this tag, and keeps all of them -/
def ListTag (t : Key) : Prop := ∃ k b s alts k', readers k = some b ∧ s ∈ b.slots ∧ s.item = .objs alts ∧ (t, k') ∈ alts ∧ s.last = false ∧
  endsInLoop s.path = true

/-- The tags of elements of which objects are made in a list, and of which something is read in another way elsewhere. -/
def otherWays : List Key :=
  [k!"NV-BLOCK-NEEDS", k!"TRIGGER", k!"SEGMENT-POSITION", k!"VARIABLE-DATA-PROTOTYPE", k!"TP-ADDRESS", k!"RPT-SERVICE-POINT", k!"SW-VARIABLE-REF-PROXY",
   k!"ECU-INSTANCE", k!"SDG"]

end Verif.Spec
