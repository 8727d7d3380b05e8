import Mathlib.Data.List.Forall2
import Verif.Model.Document
import Verif.Spec.Codec
/-!
# Documents that have the attributes the classes have

What a document looks like whatever it was made by: loading one file, loading several files into one document, or the create, set and add
methods.  The reader methods say which attributes the objects of a class have and what their values are; nothing is said here about a file.
-/
namespace Verif.Spec
open Verif Verif.Model Re

section
variable (py : Py)

/-- the values of an attribute that is read with an accessor of this kind -/
def ScalarOf (k : RKind) (s : Scalar py.F) : Prop := match k with
  | .lit => ∃ t u v, s = .lit t u v
  | .litPlain => ∃ v, s = .lit none none v
  | .litText => ∃ v, v ≠ [] ∧ s = .lit none none v
  | .litNonblank => ∃ v, blank py v = false ∧ s = .lit none none v
  | .revision => ∃ t u v, v ≠ [] ∧ test reRevision v = true ∧ s = .lit t u v
  | .float => ∃ t u w o, w ≠ [] ∧ parseNum py .float w = .ok o ∧ s = .num .float t u none o
  | .floats => ∃ w o, parseNum? py .float w = .ok o ∧ s = .num .float none none none o
  | .time => ∃ w o, w ≠ [] ∧ parseNum py .float w = .ok o ∧ s = .num .float none none none o
  | .boolean => ∃ t w o, w ≠ [] ∧ PBool.setValue py PBool.new (.str w) = (o, none) ∧ s = .bool t none o
  | .numerical => ∃ t u sl w o, parseNum? py .numerical w = .ok o ∧ s = .num .numerical t u sl o
  | .integer => ∃ t u w o, parseNum? py .numerical w = .ok o ∧ s = .num .numerical t u none o
  | .positive => ∃ t u w o, w ≠ [] ∧ parseNum py .positive w = .ok o ∧ negative py o.value = false ∧ s = .num .positive t u none o
  | .numericals => ∃ w o, parseNum? py .numerical w = .ok o ∧ s = .num .numerical none none none o
  | .limit => ∃ t u iv v, s = .limit t u iv v
  | .ref => ∃ b d v, s = .ref b d v
  | .refTo d => ∃ b v, s = .ref b (some d) v
  | .refDest => ∃ d, d ≠ some [] ∧ s = .ref none d []
  | .raw => ∃ v, v ≠ [] ∧ s = .str v
  | .rawNonblank => ∃ v, blank py v = false ∧ s = .str v

/-- the values of an attribute that is an attribute in the file too -/
def AttrOf (k : AKind) (s : Scalar py.F) : Prop := match k with
  | .raw => ∃ v, s = .str v
  | .lit => ∃ v, s = .lit none none v
  | .mapped m => ∃ e ∈ m.map, s = .lit none none e.1

variable {py}

/-- the values of an attribute; `M k v`: `v` is an object like those the method `k` reads -/
def ValueOf (M : Key → MObj py.F → Prop) (i : Item) (v : MObj py.F) : Prop := match i with
  | .prim k => ∃ s, v = .scal s ∧ ScalarOf py k s
  | .attr _ k => ∃ s, v = .scal s ∧ AttrOf py k s
  | .name => ∃ w, w ≠ [] ∧ v = .scal (.str w)
  | .objs alts => ∃ t k, altOf alts t = some k ∧ M k v
  | _ => False

/-- an attribute whose value is the element itself, it always has a value -/
def inherent (s : RSlot) : Bool := s.path == .nil && match s.item with
  | .prim k => [.lit, .litPlain, .numerical, .integer, .numericals, .limit, .ref].contains k
  | .crash _ => true
  | _ => false

/-- The values of one attribute: of the right kind, no more than one unless it is a list, and one if it is mandatory. -/
structure SlotFits (strict : Bool) (M : Key → MObj py.F → Prop) (s : RSlot) (vs : List (MObj py.F)) : Prop where
  kinds : ∀ v ∈ vs, ValueOf M s.item v
  one : (s.path.single || s.last) = true → vs.length ≤ 1
  set : vs = [] → s.req ≠ .always ∧ (s.req = .strict → strict = false) ∧ inherent s = false

variable (strict : Bool) (T : Key → Option RBody) (I : Key → List Need)

/-- `o` is an object, nested no deeper than the number says, with the attributes the method `k` reads, in which objects created by name have different
names (`namesOk`) and which satisfies the conditions `I` on its class. -/
def Shaped : Nat → Key → MObj py.F → Prop
  | 0, _, _ => False
  | n + 1, k, o => ∃ b vss, T k = some b ∧ o = .mk b.cls ((b.slots.map RSlot.key).zip vss) ∧
      List.Forall₂ (SlotFits strict (Shaped n)) b.slots vss ∧ namesOk b.slots o = true ∧ ∀ m ∈ I b.cls, m.ok strict o

end
end Verif.Spec
