import Verif.Model.Access
import Verif.Model.Classes
import Verif.Gen.AccessTable
/-!
# Method resolution

Python looks a method up in the classes of the method resolution order, first match wins.
-/
namespace Verif.Model
open Verif.Gen

/-- constructor and methods of a class; a name that is not a class of the repository has none -/
def classAcc (c : Key) : ClassAcc := (accTable.find? c).getD ⟨false, none, []⟩

/-- the methods of the classes in the resolution order, own methods first -/
def methodsOf (c : Key) : List (Key × Acc) := (ancestors c).flatMap fun k => (classAcc k).methods

/-- `getattr(obj, m)` for an object of class `c` -/
def resolve (c m : Key) : Option Acc := (methodsOf c).lookup m

/-- the first class of a list that has its own constructor -/
def definer (l : List Key) : Option Key := l.find? fun k => (classAcc k).init.isSome

/-- what the constructors have assigned so far -/
abbrev Inits := Key → Option InitVal

/-- the constructor of class `d` run for an object with resolution order `order`: `super()` continues after
`d` in that order, `B.__init__` uses the order of `B` to find the constructor -/
def initAt (order : List Key) : Nat → Key → Inits → Inits
  | 0, _, o => o
  | n + 1, d, o => (((classAcc d).init.getD (0, [])).2).foldl (fun o s =>
      match s with
      | .field f v => fun k => if k = f then some v else o k
      | .guard _ => o
      | .sup _ => match definer ((order.dropWhile fun k => !(k == d)).drop 1) with
        | some e => initAt order n e o
        | none => o
      | .base b _ => match definer (ancestors b) with
        | some e => initAt order n e o
        | none => o) o

/-- what the constructors assign for a new object of class `c` (no resolution order is longer than 12) -/
def inits (c : Key) : Inits :=
  match definer (ancestors c) with
  | some d => initAt (ancestors c) 12 d fun _ => none
  | none => fun _ => none

/-- the attributes of a newly constructed object of class `c` -/
def fresh (α : Type) (c : Key) : Attrs α := fun f => (inits c f).map InitVal.toPV

section
variable {α : Type} [DecidableEq α]

/-- `obj.getX()` -/
def callGet (c g : Key) (o : Attrs α) : Except String (PV α) :=
  match resolve c g with
  | some a => a.read o
  | none => .error "AttributeError"

/-- `obj.setX(v)` or `obj.addX(v)` -/
def Call.run (c : Key) (k : Call α) (o : Attrs α) : Except String (Attrs α) :=
  match resolve c k.method with
  | none => .error "AttributeError"
  | some a => match k with
    | .set _ v => a.runSet v o
    | .add _ v => a.runAdd v o

/-- a sequence of calls on one object; stops at the first exception -/
def runCalls (c : Key) : List (Call α) → Attrs α → Except String (Attrs α)
  | [], o => .ok o
  | k :: ks, o => match k.run c o with
    | .ok o' => runCalls c ks o'
    | .error e => .error e

end

end Verif.Model
