import Verif.Model.Document
import Mathlib.Data.List.Forall2
/-!
# Changing one object of a document, and changing one place of a file
-/
namespace Verif.Spec
open Verif Verif.Model

section
variable {F : Type}

mutual
/-- the second document is the first one with the object `v` replaced by `v'`, in one place or several -/
inductive Swapped (v v' : MObj F) : MObj F → MObj F → Prop
  | here : Swapped v v' v v'
  | scal (s : Scalar F) : Swapped v v' (.scal s) (.scal s)
  | inside (c : Key) (fs fs' : List ((Key × Bool) × List (MObj F))) : SwappedIn v v' fs fs' → Swapped v v' (.mk c fs) (.mk c fs')
/-- the same for the attributes of an object -/
inductive SwappedIn (v v' : MObj F) : List ((Key × Bool) × List (MObj F)) → List ((Key × Bool) × List (MObj F)) → Prop
  | nil : SwappedIn v v' [] []
  | cons (k : Key × Bool) (vs vs' : List (MObj F)) (fs fs' : List ((Key × Bool) × List (MObj F))) :
      List.Forall₂ (Swapped v v') vs vs' → SwappedIn v v' fs fs' → SwappedIn v v' ((k, vs) :: fs) ((k, vs') :: fs')
end

end

/-- The second list of elements is the first one with pieces, at any depth, replaced by others; `P` says by which.  All other elements, all tags, attributes
and texts are the same.  (`around`: elements that were put into the replaced element stay there; only the elements of the port argument values
are written one in the other.) -/
inductive Replaced (P : List Xml → List Xml → Prop) : List Xml → List Xml → Prop
  | same (l : List Xml) : Replaced P l l
  | piece (l l' : List Xml) : P l l' → Replaced P l l'
  | append (l l' r r' : List Xml) : Replaced P l l' → Replaced P r r' → Replaced P (l ++ r) (l' ++ r')
  | inside (t : Key) (as : List (Key × Str)) (s : Str) (l l' : List Xml) : Replaced P l l' → Replaced P [.node t as s l] [.node t as s l']
  | around (t t' : Key) (as as' : List (Key × Str)) (s s' : Str) (l l' r r' : List Xml) : P [.node t as s l] [.node t' as' s' l'] → Replaced P r r' →
      Replaced P [.node t as s (l ++ r)] [.node t' as' s' (l' ++ r')]

/-- the elements one method of the writer makes for `v` and for `v'` -/
def Pieces (py : Py) (repr : py.F → Str) (strict : Bool) (v v' : MObj py.F) (l l' : List Xml) : Prop :=
  ∃ n n' k, writeObj py repr strict writers n k v = .ok ⟨[], [], l⟩ ∧ writeObj py repr strict writers n' k v' = .ok ⟨[], [], l'⟩

end Verif.Spec
