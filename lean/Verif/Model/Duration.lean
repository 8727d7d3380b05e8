import Verif.Model.Prim
/-!
# Durations in milliseconds

`periodMs` of timing events and `minimumStartIntervalMs` of executable entities: seconds, as read from the file, times 1000.
Simplification: the `OverflowError` of `int(inf)` is a `ValueError` here, as the one of `int(nan)` is.
-/
namespace Verif.Model

/-- what is asked of floats beyond `Py`: a conversion of a number that is neither huge nor tiny yields a representable number that is
nearest to it (IEEE 754; how ties are broken does not matter) -/
structure Ieee (py : Py) : Prop where
  finite : ∀ q : Rat, q.abs ≤ 2 ^ 900 → ∃ r, py.toRat (py.ofRat q) = some r
  nearest : ∀ q r d : Rat, 1 ≤ q.abs * 2 ^ 900 → py.toRat (py.ofRat q) = some r → IsDouble d → (r - q).abs ≤ (d - q).abs

/-- of two representable numbers that are equally near the one with an even last bit is taken (IEEE 754, the rule of all platforms Python
runs on) -/
structure TiesEven (py : Py) : Prop where
  even : ∀ (m : Int) (n : Nat), 2 ^ 52 ≤ m → m < 2 ^ 53 → n ≤ 800 →
    py.toRat (py.ofRat (((m : Rat) + 1 / 2) / 2 ^ n)) = some (((if m % 2 = 0 then m else m + 1 : Int) : Rat) / 2 ^ n)

/-- what the properties return -/
inductive Ms (F : Type)
  | none
  | num (n : Num F)
  deriving DecidableEq, Repr

/-- Python `x * 1000`: exact for an integer, the nearest float for a float; infinity and nan stay -/
def timesThousand (py : Py) : Num py.F → Num py.F
  | .int i => .int (i * 1000)
  | .flt f => match py.toRat f with
    | some q => .flt (py.ofRat (q * 1000))
    | none => .flt f

/-- Python `int(x)`: towards zero -/
def truncate (py : Py) : Num py.F → Except PyErr Int
  | .int i => .ok i
  | .flt f => match py.toRat f with
    | some q => .ok (if q < 0 then -((-q).floor) else q.floor)
    | none => .error .valueError

/-- Python `x < 0.001` (the literal is the float nearest to a thousandth) -/
def belowMs (py : Py) (x : Num py.F) : Bool :=
  match x.toRat py, py.toRat (py.ofRat (1 / 1000)) with
  | some q, some m => decide (q < m)
  | _, _ => match x with
    | .flt f => py.ltZero f
    | .int i => decide (i < 0)

/-- the number that arithmetic sees: `True` is 1; `None` has none -/
def PVal.number? {F : Type} : PVal F → Option (Num F)
  | .none => Option.none
  | .bool b => some (.int (if b then 1 else 0))
  | .num n => some n

/-- `TimingEvent.periodMs`, `SwcInternalBehavior/RTEEvents.py:407-415`; the argument is the value of the period, `none` if there is no
period -/
def timingPeriodMs (py : Py) : Option (PVal py.F) → Except PyErr (Ms py.F)
  | none => .ok .none
  | some v => match v.number? with
    | none => .error .typeError
    | some x =>
      if belowMs py x then .ok (.num (timesThousand py x))
      else do
        let i ← truncate py (timesThousand py x)
        return .num (.int i)

/-- `BswTimingEvent.periodMs`, `BswBehavior/__init__.py:1327-1336`, and `ExecutableEntity.minimumStartIntervalMs`,
`InternalBehavior.py:240-249` -/
def wholeMs (py : Py) : Option (PVal py.F) → Except PyErr (Ms py.F)
  | none => .ok .none
  | some v => match v.number? with
    | none => .error .typeError
    | some x => do
      let i ← truncate py (timesThousand py x)
      return .num (.int i)

end Verif.Model
