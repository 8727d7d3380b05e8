import Verif.Spec.Change
import Verif.Spec.Exchange
/-!
# Changing one element of a file that is loaded and saved
-/
namespace Verif.Spec
open Verif Verif.Model

/-- the elements one method of the writer makes for two objects in the relation `P` -/
def PiecesOf (py : Py) (repr : py.F → Str) (strict : Bool) (P : MObj py.F → MObj py.F → Prop) (l l' : List Xml) : Prop :=
  ∃ v v', P v v' ∧ Pieces py repr strict v v' l l'

end Verif.Spec
