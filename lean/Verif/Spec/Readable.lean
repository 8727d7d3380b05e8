import Verif.Spec.Ignore
import Verif.Spec.ListTool
import Verif.Spec.Prim
import Verif.Model.Document
/-!
# Which files can be loaded

Conditions on one element and the method it is read with; nothing here says how reading goes on.
-/
namespace Verif.Spec
open Verif Verif.Model

section
variable (py : Py)

/-- The text of the element (or the attribute `DEST`) is what a value of this kind has to be.  An element without text stands for no value. -/
def TextFine (k : RKind) (z : Xml) : Prop := match k with
  | .float | .floats | .time | .numerical | .integer | .numericals => z.text = [] ∨ Accepted py z.text
  | .positive => z.text = [] ∨ Accepted py z.text ∧ ∀ n, convert py z.text = .ok n → negative py (.num n) = false
  | .boolean => z.text = [] ∨ ∃ pre w post b, z.text = pre ++ w ++ post ∧ (∀ c ∈ pre, py.space c = true) ∧ (∀ c ∈ post, py.space c = true) ∧
      Trimmed py w ∧ BoolText py w b
  | .revision => z.text = [] ∨ MajorMinorPatch z.text
  | .refTo d => z.attr k!"DEST" = some d
  | _ => True

/-- nothing is wrong with an element that is used in this way -/
def ItemFine (strict : Bool) (i : Item) (z : Xml) : Prop := match i with
  | .prim k => TextFine py k z
  | .attr n (.mapped m) => strict = true → ∀ v, z.attr n = some v → ∃ e ∈ m.map, e.2 = v
  | .attr _ _ => True
  | .name => z.text ≠ []
  | .objs _ => True
  | .guard tags g => z.tag ∈ tags ∨ (strict = false ∧ g ≠ .unbound)
  | .want t _ => ∃ y ∈ z.kids, tagIs t y = true
  | .crash _ => False

/-- a value comes of it -/
def Gives (i : Item) (z : Xml) : Prop := match i with
  | .prim k => match k with
    | .litText | .revision | .float | .time | .boolean | .positive | .raw => z.text ≠ []
    | .litNonblank | .rawNonblank => ∃ c ∈ z.text, py.space c = false
    | _ => True
  | .attr n (.mapped m) => ∃ e ∈ m.map, z.attr n = some e.2
  | .attr n _ => ∃ v, z.attr n = some v
  | .name => z.text ≠ []
  | .objs alts => ∃ k, altOf alts z.tag = some k
  | _ => False

/-- An element can be read with a method: nothing is wrong with what is used of it, and nothing that is needed is missing. -/
structure Readable (strict : Bool) (b : RBody) (y : Xml) : Prop where
  fine : ∀ s ∈ b.slots, ∀ z ∈ select s.path y, ItemFine py strict s.item z
  there : ∀ s ∈ b.slots, s.req = .always ∨ (s.req = .strict ∧ strict = true) → ∃ z ∈ select s.path y, Gives py s.item z

end

/-- an object is made of the element -/
def used (i : Item) (z : Xml) : Bool := match i with
  | .objs alts => (altOf alts z.tag).isSome
  | _ => true

/-- the short names of the elements below `y` of which objects for the attribute `f` are made -/
def namesFor (slots : List RSlot) (f : Key) (y : Xml) : List Str :=
  slots.flatMap fun s => if hits f s.key then ((select s.path y).filter (used s.item)).map nameIn else []

/-- Names are as they have to be: every short name has a text, and the objects that are put into one collection have different names.  (The
library loads other files, too; they are not in the model of `load`, see `Model/Load.lean` for what becomes of elements with the same name.) -/
structure WellNamed (b : RBody) (y : Xml) : Prop where
  text : ∀ s ∈ b.slots, s.item = .name → ∀ z ∈ select s.path y, z.text ≠ []
  different : ∀ s ∈ b.slots, s.named = true → (namesFor b.slots (if s.elems then k!"elements" else s.field) y).Nodup
  one : ∀ s ∈ b.slots, s.one = true → (namesFor b.slots s.field y).length ≤ 1

end Verif.Spec
