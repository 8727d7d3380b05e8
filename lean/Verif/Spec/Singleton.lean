import Verif.Model.Singleton
/-!
# What a singleton promises
-/
namespace Verif.Spec
open Verif.Model.Singleton

/-- some schedule leads here -/
def Reachable (s : State) : Prop := ∃ l, s = start.run l

/-- the thread is inside the construction of a document -/
def Building : Pc → Prop
  | .idle => False
  | .ret => False
  | _ => True

/-- `getInstance()` returns the document `d`, complete; `AUTOSAR()` is refused. -/
def AsSingleton (d : Nat) : Call × Result → Prop
  | (.getInstance, r) => r = .returned (some d) true
  | (.construct, r) => r = .raised

/-- the schedule of a program with a single thread -/
def OneThread (l : List (Nat × Call)) : Prop := ∃ i, ∀ p ∈ l, p.1 = i

end Verif.Spec
