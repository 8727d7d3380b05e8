import Verif.Model.Registry
/-!
# Specification vocabulary for the registries

Everything is a function of the history of calls.
-/
namespace Verif.Spec
open Verif.Model Verif.Model.Registry

/-- the calls after the last `clear()` -/
def since : List Op → List Op
  | [] => []
  | op :: r => if r.any (fun o => match o with | .clear => true | _ => false) then since r
      else match op with
        | .clear => r
        | _ => op :: r

/-- the complete data type maps, as pairs of reference texts -/
def maps (ops : List Op) : List (Option String × Option String) :=
  ops.filterMap fun | .dataTypeMap (some a) (some i) => some (a, i) | _ => none

/-- (implementation, behaviour) pairs -/
def behaviors (ops : List Op) : List (String × String) :=
  ops.filterMap fun | .behaviorMap i b => some (i, b) | _ => none

/-- systems registered, in order -/
def systemsOf (ops : List Op) : List (String × Nat) :=
  ops.filterMap fun | .addSystem n o => some (n, o) | _ => none

def compositionsOf (ops : List Op) : List (String × Nat) :=
  ops.filterMap fun | .addComposition c => c | _ => none

def rootsOf (ops : List Op) : List (String × Nat) :=
  ops.filterMap fun | .setRoot r => r | _ => none

def objectsOf (ops : List Op) : List UObj :=
  ops.filterMap fun | .addObject o => some o | _ => none

/-- the last value given for a key -/
def lastFor {κ α : Type} [DecidableEq κ] (l : List (κ × α)) (k : κ) : Option α :=
  (l.reverse.find? fun e => decide (e.1 = k)).map (·.2)

/-- the first value given for a key -/
def firstFor {κ α : Type} [DecidableEq κ] (l : List (κ × α)) (k : κ) : Option α :=
  (l.find? fun e => decide (e.1 = k)).map (·.2)

/-- the text of a category, however it is stored -/
def catText : Category → Option String
  | .unset => none
  | .object t => some t
  | .bare t => some t

/-- where a data type points to, going by the text of its category -/
def target (t : DType) : Option String :=
  if catText t.category = some "TYPE_REFERENCE" then t.implRef
  else if catText t.category = some "DATA_REFERENCE" ∧ catText t.targetCategory = some "VALUE" then t.baseRef
  else none

/-- a type that is not a reference, going by the text of its category -/
def Concrete (t : DType) : Prop :=
  catText t.category ≠ some "TYPE_REFERENCE"
  ∧ ¬ (catText t.category = some "DATA_REFERENCE" ∧ catText t.targetCategory = some "VALUE")

/-- `Chain env t t'`: following references from `t` leads to `t'` -/
inductive Chain (env : String → Option DType) : DType → DType → Prop
  | refl (t) : Chain env t t
  | step {t u v r} : t.isImplOrBase = true → target t = some r → env r = some u → Chain env u v → Chain env t v

/-- categories are plain strings throughout -/
def Bare (t : DType) : Prop := (∀ s, t.category ≠ .object s) ∧ (∀ s, t.targetCategory ≠ .object s)

end Verif.Spec
