import Verif.Model.Disk
/-!
# Specification vocabulary for interrupted saves
-/
namespace Verif.Spec
open Verif Verif.Model

/-- the pieces make up the whole -/
def Splits (pieces : ByteArray → List ByteArray) : Prop := ∀ b, (pieces b).foldl (· ++ ·) ByteArray.empty = b

/-- `a` is the beginning of `b` -/
def Begins (a b : ByteArray) : Prop := ∃ c, a ++ c = b

end Verif.Spec
