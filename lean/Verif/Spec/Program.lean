import Verif.Model.Program
import Verif.Spec.Built
import Verif.Spec.Defects
/-!
# Programs that use the methods as they are meant to be used

`Step` is one call anywhere in a document, with a value of the kind the attribute has.  `History` is everything a program can do with a document:
start with a new one, call methods, load files, and clear it.  `Complete` is what a program has to take care of before it saves: mandatory
attributes are set.
-/
namespace Verif.Spec
open Verif Verif.Model

section
variable {py : Py}

/-- The values of one attribute: of the right kind, and no more than one unless it is a list. -/
structure SlotTyped (M : Key → MObj py.F → Prop) (s : RSlot) (vs : List (MObj py.F)) : Prop where
  kinds : ∀ v ∈ vs, ValueOf M s.item v
  one : (s.path.single || s.last) = true → vs.length ≤ 1

variable (T : Key → Option RBody)

/-- `Shaped` without the conditions that something is there -/
def Typed : Nat → Key → MObj py.F → Prop
  | 0, _, _ => False
  | n + 1, k, o => ∃ b vss, T k = some b ∧ o = .mk b.cls ((b.slots.map RSlot.key).zip vss) ∧
      List.Forall₂ (SlotTyped (Typed n)) b.slots vss ∧ namesOk b.slots o = true

/-- an object like those the method `k` reads, but mandatory attributes may be missing -/
def HasType (k : Key) (v : MObj py.F) : Prop := ∃ n, Typed T n k v

/-- the attribute with this key -/
def slotAt (b : RBody) (a : Key × Bool) : Option RSlot := b.slots.find? fun s => s.key == a

/-- A call as the method is meant to be used on an object with the attributes of `b`. -/
def Fitting (b : RBody) (o : MObj py.F) : Deed py.F → Prop
  /- an attribute that is no list and whose values are not created by name gets a value of its kind -/
  | .set a v => ∃ s, slotAt b a = some s ∧ s.named = false ∧ s.item ≠ .name ∧ s.isList = false ∧ ValueOf (HasType T) s.item v
  /- a list whose values are not created by name gets one more value of its kind -/
  | .add a v => ∃ s, slotAt b a = some s ∧ s.named = false ∧ s.item ≠ .name ∧ s.isList = true ∧ ValueOf (HasType T) s.item v
  /- an object is created in an attribute for such objects; there is none of that name yet, or one of the same class (which is then not created
  again, unless the method makes a second one); where only one object is kept there is none yet, or this one -/
  | .create a k n => ∃ s alts t b', slotAt b a = some s ∧ s.named = true ∧ s.item = .objs alts ∧ altOf alts t = some k ∧ T k = some b' ∧ n ≠ [] ∧
      ((s.fresh = false ∧ ∃ v ∈ o.get (collection a), isIt b'.cls n v = true) ∨
        (∀ v ∈ o.get (collection a), v.name ≠ n) ∧ ((s.path.single || s.last || s.one) = true → o.get a.1 = []))
  /- an attribute that is no list and whose values are not created by name gets no value -/
  | .unset a => ∃ s, slotAt b a = some s ∧ s.named = false ∧ s.item ≠ .name ∧ s.isList = false
  /- an element of a package is removed that is there (create methods of other classes may find a name that was removed, `C05_untyped_exists_broken`) -/
  | .remove a n => b.cls = k!"ARPackage" ∧ ∃ s alts, slotAt b a = some s ∧ s.named = true ∧ s.item = .objs alts ∧ a = (k!"elements", true) ∧ ∃ v ∈ o.vals a, v.name = n

/-- One call: of a method of the object, or of a method of an object in it. -/
inductive Step : Key → MObj py.F → MObj py.F → Prop
  | here {k : Key} {b : RBody} {o : MObj py.F} {c : Deed py.F} (hb : T k = some b) (hc : Fitting T b o c) : Step k o (c.run py T o)
  | inside {k : Key} {b : RBody} {o v v' : MObj py.F} {a : Key × Bool} {s : RSlot} {alts : List (Key × Key)} {t k' : Key} {b' : RBody} {i : Nat}
      (hb : T k = some b) (hs : slotAt b a = some s) (ha : s.item = .objs alts) (ht : altOf alts t = some k') (hb' : T k' = some b')
      (hv : (o.vals a)[i]? = some v) (hc : v.cls = b'.cls) (h : Step k' v v') : Step k o (o.change a fun vs => vs.set i v')

variable (strict : Bool) (I : Key → List Need)

/-- no mandatory attribute is missing in an object and, down to a depth, in the objects in it -/
def CompleteTo : Nat → Key → MObj py.F → Prop
  | 0, _, _ => True
  | n + 1, k, o => ∀ b, T k = some b → (∀ m ∈ I b.cls, m.ok strict o) ∧ ∀ e ∈ b.slots.zip (o.fields.map Prod.snd),
      (e.2 = [] → e.1.req ≠ .always ∧ (e.1.req = .strict → strict = false) ∧ inherent e.1 = false) ∧
      ∀ v ∈ e.2, ∀ alts t k' b', e.1.item = .objs alts → altOf alts t = some k' → T k' = some b' → v.cls = b'.cls → CompleteTo n k' v

/-- no mandatory attribute is missing anywhere -/
def Complete (k : Key) (o : MObj py.F) : Prop := ∀ n, CompleteTo T strict I n k o

end

set_option autoImplicit false in
/-- the documents a program can make -/
inductive History (py : Py) : MObj py.F → Prop
  /-- `AUTOSAR.getInstance()`, `AUTOSARDoc()` -/
  | new : History py (newDoc py)
  | call {d d' : MObj py.F} (h : History py d) (hs : Step readers k!"load" d d') : History py d'
  /-- `ARXMLParser(options).load`, with warnings or errors for what is missing -/
  | load {d d' : MObj py.F} {x : Xml} {strict : Bool} (h : History py d) (hl : loadInto py strict d x = .ok d') : History py d'
  /-- `clear()` -/
  | clear {d : MObj py.F} (h : History py d) : History py (clearDoc py d)

end Verif.Spec
