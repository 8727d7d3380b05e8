import Verif.Model.Accessors
import Verif.Gen.NewTable
/-!
# Constructing objects

`C(...)` for the classes of `src/armodel/models/**`: which constructors run, with how many arguments, and which of them refuse.
150 constructors begin with

```python
if type(self) is C:
    raise TypeError("C is an abstract class.")
```

Simplifications: `ABC` as a base has no effect by itself (no class has an `@abstractmethod`, the only thing that makes `ABC` refuse);
arguments are counted, their values are not looked at (no constructor looks at them); `AUTOSAR()` is the first call of it in the process
(`AUTOSAR.__init__` refuses a second one, `AutosarTopLevelStructure/__init__.py:378-379`).
-/
namespace Verif.Model
open Verif Verif.Gen

/-- The exception of running the constructor of class `d` with `given` arguments for an object with resolution order `order`, or `none`.
It makes the calls `initAt` (`Model/Accessors.lean`) makes.  Python compares the number of arguments first; `object.__init__` takes none. -/
def initError (order : List Key) : Nat → Key → Nat → Option String
  | 0, _, _ => some "RecursionError"
  | n + 1, d, given => match (classAcc d).init with
    | none => none
    | some (params, steps) =>
      if given = params then steps.findSome? fun s => match s with
        | .field _ _ => none
        | .guard c => if order.head? = some c then some "TypeError" else none
        | .sup m => match definer ((order.dropWhile fun k => !(k == d)).drop 1) with
          | some e => initError order n e m
          | none => if m = 0 then none else some "TypeError"
        | .base b m => match definer (ancestors b) with
          | some e => initError order n e m
          | none => if m = 0 then none else some "TypeError"
      else some "TypeError"

/-- the exception of `C(...)` with `given` arguments, or `none` -/
def refusal (c : Key) (given : Nat) : Option String :=
  match classTable.find? c with
  | none => some "NameError"
  | some order => match definer order with
    | none => if given = 0 then none else some "TypeError"
    | some d => initError order 12 d given

/-- `C(...)` with `given` arguments: the attributes of the new object, or the exception -/
def construct (α : Type) (c : Key) (given : Nat) : Except String (Attrs α) :=
  match refusal c given with
  | some e => .error e
  | none => .ok (fresh α c)

end Verif.Model
