import Verif.Model.Rename
/-!
# Histories with renamings
-/
namespace Verif.Spec
open Verif.Model

variable (H : Hier)

/-- the object with this identity is a member -/
def IsMember (s : Reg) (i : Nat) : Prop := ∃ e ∈ s.elements, e.id = i

/-- What a collection and its members can go through: calls of the API; the object made by a create method is a new one; a member is not
renamed. -/
inductive Calm : Reg → Prop
  | new (names : Nat → String) : Calm (Reg.new names)
  | add {s : Reg} (e : Ident) : Calm s → Calm (s.add H e)
  | create {s : Reg} (n : String) (t f : Nat) : Calm s → ¬ IsMember s f → Calm (s.create H n t f)
  | remove {s : Reg} (n : String) (t : Nat) : Calm s → Calm (s.remove H n t)
  | rename {s : Reg} (i : Nat) (n : String) : Calm s → ¬ IsMember s i → Calm (s.rename i n)

/-- A record of the additions: the name an object had when it was added, and the object. -/
abbrev Record := List (String × Ident)

/-- the first object that was added under the name and is of the type -/
def addedUnder (r : Record) (n : String) (t : Nat) : Option (String × Ident) := r.find? fun p => p.1 == n && H.sub p.2.cls t

/-- What a collection can go through, members being renamed at any time, with the record of the additions.  An object is added unless there is one
of its class that was added under the name the object has now; removing takes away the first object that was added under the name and is of
the type. -/
inductive Recorded : Reg → Record → Prop
  | new (names : Nat → String) : Recorded (Reg.new names) []
  | add {s : Reg} {r : Record} (e : Ident) : Recorded s r →
      Recorded (s.add H e) (if (addedUnder H r (s.names e.id) e.cls).isSome then r else r ++ [(s.names e.id, e)])
  | create {s : Reg} {r : Record} (n : String) (t f : Nat) : Recorded s r →
      Recorded (s.create H n t f) (if (addedUnder H r n t).isSome then r else r ++ [(n, ⟨f, t⟩)])
  | remove {s : Reg} {r : Record} (n : String) (t : Nat) : Recorded s r →
      Recorded (s.remove H n t) (match addedUnder H r n t with | none => r | some p => r.erase p)
  | rename {s : Reg} {r : Record} (i : Nat) (n : String) : Recorded s r → Recorded (s.rename i n) r

/-- the members that have the name and are of the type, in order -/
def membersNamed (s : Reg) (n : String) (t : Nat) : List Ident := s.elements.filter fun e => s.names e.id == n && H.sub e.cls t

end Verif.Spec
