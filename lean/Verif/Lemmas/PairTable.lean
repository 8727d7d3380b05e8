import Verif.Gen.Pairs
import Verif.Spec.Defects
import Verif.Model.Document
/-!
# The check of one entry of the table of pairs
-/
namespace Verif
open Verif.Model Verif.Spec Verif.Lemmas

theorem Bst.all_node {α : Type} {p : Key → α → Bool} {l r : Bst α} {k : Key} {v : α} (h : p k v = true) (hl : l.all p = true)
    (hr : r.all p = true) : (Bst.node l k v r).all p = true := by
  simp [Bst.all, h, hl, hr]

namespace Lemmas

/-- the pairs for a reader method -/
def pairs (k : Key) : List Pair := match Gen.pairTable.find? k with
  | some ps => ps
  | none => []

def pairsOk (_ : Key) (ps : List Pair) : Bool := ps.all (Pair.check readers writers conds reordered pairs)

end Lemmas
end Verif
