import Verif.Model.Load
/-!
# Specification vocabulary for `arxml-dump`
-/
namespace Verif.Spec
open Verif Verif.Model

variable {F : Type}

/-- a package of the document, inside of `n` other packages -/
inductive PkgAt (d : MObj F) : Nat → MObj F → Prop
  | top {p} : p ∈ d.get k!"arPackages" → PkgAt d 0 p
  | sub {n p q} : PkgAt d n p → q ∈ p.get k!"arPackages" → PkgAt d (n + 1) q

/-- an element of a package, of a class -/
def ElementOf (p : MObj F) (c : Key) (e : MObj F) : Prop := e ∈ p.get k!"elements" ∧ e.inst [c] = true

/-- a line, indented -/
def indented (n : Nat) (s : Str) : Str := List.replicate n ' ' ++ s

/-- the lines the tool is made for: packages, client-server interfaces, BSW modules, their behaviors and mode switch events -/
inductive DumpLine (d : MObj F) : Str → Prop
  | package {n p} : PkgAt d n p → DumpLine d (indented (2 * n) ("-".toList ++ p.name ++ " (Pkg)".toList))
  | interface {n p i} : PkgAt d n p → ElementOf p k!"ClientServerInterface" i → DumpLine d (indented (2 * n + 2) i.name)
  | bsw {n p m} : PkgAt d n p → ElementOf p k!"BswModuleDescription" m → DumpLine d (indented (2 * n + 2) ("-".toList ++ m.name))
  | behavior {n p m b} : PkgAt d n p → ElementOf p k!"BswModuleDescription" m → b ∈ m.get k!"internalBehaviors" →
      DumpLine d (indented (2 * n + 4) ("-".toList ++ b.name))
  | modeSwitch {n p m b e} : PkgAt d n p → ElementOf p k!"BswModuleDescription" m → b ∈ m.get k!"internalBehaviors" →
      ElementOf b k!"BswModeSwitchEvent" e → DumpLine d (indented (2 * n + 6) ("-".toList ++ e.name))

/-- no client-server interface has an operation, no BSW behavior has a timing event -/
def NothingInside (d : MObj F) : Prop := ∀ n p, PkgAt d n p →
  (∀ i, ElementOf p k!"ClientServerInterface" i → i.get k!"operations" = []) ∧
  (∀ m b e, ElementOf p k!"BswModuleDescription" m → b ∈ m.get k!"internalBehaviors" → ¬ ElementOf b k!"BswTimingEvent" e)

end Verif.Spec
