import Verif.Model.Prim
import Verif.Spec.Prim
/-!
# Specification vocabulary for durations
-/
namespace Verif.Spec
open Verif.Model

/-- a decimal text that denotes `q` -/
def Denotes (py : Py) (text : List Char) (q : Rat) : Prop :=
  ∃ d ips fps xs, Dec.Wf py d ips fps xs ∧ text = d.text ∧ d.value ips fps xs = q

/-- more than 1000 times a power of two, by less than 2.4 % -/
def JustAbove (j k : Nat) : Prop := 1000 * 2 ^ j < k ∧ k < 1024 * 2 ^ j

/-- the milliseconds for which the float of the seconds, times 1000, is below the number: 1001, 1003, …, 1023, 2002, 2006, … -/
def Short (k : Nat) : Prop := ∃ j, JustAbove j k ∧ 256 < k * 2 ^ (52 - j) % 1000 ∧ k * 2 ^ (52 - j) % 1000 < 500

/-- the product is exactly between two floats: the result depends on the rule for ties -/
def Tied (k : Nat) : Prop := ∃ j, JustAbove j k ∧ k * 2 ^ (52 - j) % 1000 = 256

end Verif.Spec
