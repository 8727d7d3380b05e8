import Verif.Model.Heap
/-!
# Programs that do not share lists
-/
namespace Verif.Spec
open Verif.Model

/-- some attribute holds the list -/
def ListHeld (h : Heap) (l : ListId) : Prop := ∃ o f, h.attrs o f = some (.list l)

/-- the list exists: its constructor was called -/
def ListExists (h : Heap) : ListId → Prop
  | .initial o _ => h.cls o ≠ none
  | .made _ => True

/-- What a program can do, with a record of its calls: for each call the object, and the arguments as they were then.  A list that is passed to a setter, or
changed otherwise than by an adder, is not held by an attribute at this moment. -/
inductive Unshared : Heap → List (Nat × Call Nat) → Prop
  | start (lists : ListId → List (Option Nat)) : Unshared (Heap.empty lists) []
  | new {h : Heap} {r : List (Nat × Call Nat)} (o : Nat) (c : Key) : Unshared h r → h.cls o = none → Unshared (h.new o c) r
  | set {h h' : Heap} {r : List (Nat × Call Nat)} (o : Nat) (m : Key) (v : HV) : Unshared h r → h.set o m v = .ok h' →
      (∀ l, v = .list l → ListExists h l ∧ ¬ ListHeld h l) → Unshared h' (r ++ [(o, .set m (h.shown v))])
  | add {h h' : Heap} {r : List (Nat × Call Nat)} (o : Nat) (m : Key) (v : Option Nat) : Unshared h r → h.add o m v = .ok h' →
      Unshared h' (r ++ [(o, .add m v)])
  | store {h : Heap} {r : List (Nat × Call Nat)} (l : ListId) (xs : List (Option Nat)) : Unshared h r → ¬ ListHeld h l → Unshared (h.store l xs) r

/-- the calls on an object -/
def callsOn (o : Nat) (r : List (Nat × Call Nat)) : List (Call Nat) := (r.filter fun p => p.1 == o).map Prod.snd

end Verif.Spec
