import Verif.Spec.Built
import Verif.Spec.Prim
/-!
# Documents whose numbers and truth values were assigned, not read

A number that was read from a file has a text.  A number a program assigned (`ARFloat().setValue(0.5)`, `ARNumerical().setValue(3)`,
`ARBoolean().setValue(True)`) has a value and no text.
-/
namespace Verif.Spec
open Verif Verif.Model

section
variable (py : Py) (repr : py.F → Str)

/-- `repr(f)` is a decimal number and `f` is the float nearest to it (Python guarantees this for every finite float; `inf` and `nan` are
no decimal numbers) -/
def Decimal (f : py.F) : Prop := ∃ d ips fps xs, Dec.Wf py d ips fps xs ∧ repr f = d.text ∧ py.ofRat (d.value ips fps xs) = f

/-- the values a program may assign to an attribute that is read with an accessor of this kind -/
def AssignedOf (k : RKind) (s : Scalar py.F) : Prop := match k with
  | .float => ∃ t u f, Decimal py repr f ∧ s = .num .float t u none ⟨.num (.flt f), none⟩
  | .floats | .time => ∃ f, Decimal py repr f ∧ s = .num .float none none none ⟨.num (.flt f), none⟩
  | .numerical => ∃ t u sl i, s = .num .numerical t u sl ⟨.num (.int i), none⟩
  | .integer => ∃ t u i, s = .num .numerical t u none ⟨.num (.int i), none⟩
  | .numericals => ∃ i, s = .num .numerical none none none ⟨.num (.int i), none⟩
  | .positive => ∃ t u i, 0 ≤ i ∧ s = .num .positive t u none ⟨.num (.int i), none⟩
  | .boolean => ∃ t b, s = .bool t none ⟨some b, none⟩
  | _ => False

variable {py}

/-- the values of an attribute, read or assigned; `M k v`: `v` is an object like those the method `k` reads -/
def MadeOf (M : Key → MObj py.F → Prop) (i : Item) (v : MObj py.F) : Prop :=
  ValueOf M i v ∨ ∃ k s, i = .prim k ∧ v = .scal s ∧ AssignedOf py repr k s

/-- The values of one attribute: like `SlotFits`, but they may have been assigned. -/
structure SlotMade (strict : Bool) (M : Key → MObj py.F → Prop) (s : RSlot) (vs : List (MObj py.F)) : Prop where
  kinds : ∀ v ∈ vs, MadeOf repr M s.item v
  one : (s.path.single || s.last) = true → vs.length ≤ 1
  set : vs = [] → s.req ≠ .always ∧ (s.req = .strict → strict = false) ∧ inherent s = false

variable (strict : Bool) (T : Key → Option RBody) (I : Key → List Need)

/-- Like `Shaped`, for objects whose numbers and truth values may have been assigned. -/
def Made : Nat → Key → MObj py.F → Prop
  | 0, _, _ => False
  | n + 1, k, o => ∃ b vss, T k = some b ∧ o = .mk b.cls ((b.slots.map RSlot.key).zip vss) ∧
      List.Forall₂ (SlotMade repr strict (Made n)) b.slots vss ∧ namesOk b.slots o = true ∧ ∀ m ∈ I b.cls, m.ok strict o

/-- What an assigned number is when it was written and read: it has the text that was written, and it is a float even if an integer was
assigned.  Every other value is the same. -/
def backS : Scalar py.F → Scalar py.F
  | .num .float t u sl ⟨.num (.flt f), none⟩ => .num .float t u sl ⟨.num (.flt f), some (repr f)⟩
  | .num c t u sl ⟨.num (.int i), none⟩ => .num c t u sl ⟨.num (.flt (py.ofRat i)), some (strInt i)⟩
  | .bool t u ⟨some b, none⟩ => .bool t u ⟨some b, some (if b then "true".toList else "false".toList)⟩
  | s => s

mutual
/-- the object with all its numbers written and read -/
def back : MObj py.F → MObj py.F
  | .scal s => .scal (backS repr s)
  | .mk c fs => .mk c (backF fs)
def backF : List ((Key × Bool) × List (MObj py.F)) → List ((Key × Bool) × List (MObj py.F))
  | [] => []
  | (k, vs) :: fs => (k, backL vs) :: backF fs
def backL : List (MObj py.F) → List (MObj py.F)
  | [] => []
  | v :: vs => back v :: backL vs
end

end
end Verif.Spec
