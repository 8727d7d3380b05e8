import Verif.Model.Construct
/-!
# Which classes are meant to be constructed, and with what
-/
namespace Verif.Spec
open Verif Verif.Model Verif.Gen

/-- `c` is a class of `src/armodel/models/**` -/
def IsClass (c : Key) : Prop := (classTable.find? c).isSome = true

/-- the class is declared to be abstract: `ABC` is one of its bases, or its constructor says "C is an abstract class" -/
def declaredAbstract (c : Key) : Bool := (classAcc c).abc || match (classAcc c).init with
  | some (_, steps) => steps.contains (.guard c)
  | none => false

/-- what has a short name is constructed with its parent and its short name, all else without arguments -/
def argumentsOf (c : Key) : Nat := if armodel.sub c k!"Referrable" = true ∨ c = k!"ARPackage" then 2 else 0

/-- declared abstract but constructible -/
def slackClasses : List Key := [k!"ARType", k!"AtomicSwComponentType"]

/-- enumerations: `AREnum`, which is given its values, and two derived from it without a constructor of their own -/
def bareEnums : List Key := [k!"AREnum", k!"BswEntryRelationshipEnum", k!"GraphicFitEnum"]

/-- derived from the class `Enum` of Python, which is not modelled -/
def pythonEnums : List Key := [k!"AutoCollectEnum", k!"IPduSignalProcessingEnum"]

end Verif.Spec
