import Verif.Spec.Codec
/-!
# Finding the same element
-/
namespace Verif.Spec
open Verif Verif.Model

/-- both find nothing, or both find the same element -/
inductive SameOpt {F : Type} (S : Key → Key → Bool) : Option (MObj F) → Option (MObj F) → Prop
  | none : SameOpt S none none
  | some (v u : MObj F) : Same S v u → SameOpt S (some v) (some u)

end Verif.Spec
