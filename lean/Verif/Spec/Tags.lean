import Verif.Model.Document
/-!
# Specification for C87: which element an attribute is named after

Attributes are named in camel case (`contextPortRef`), elements in capital letters with hyphens (`CONTEXT-PORT-REF`).
-/
namespace Verif.Spec
open Verif Verif.Model

/-- the letters of a name in lower case, the last one first, without hyphens and underscores, up to a dot or colon: for `a.b` those of `b` -/
def letters : Nat → Key → List Nat
  | 0, _ => []
  | n + 1, k => if k = 0 then [] else
    let c := k % 256
    if c = 46 ∨ c = 58 then [] else
    if c = 45 ∨ c = 95 then letters n (k / 256) else (if 65 ≤ c ∧ c ≤ 90 then c + 32 else c) :: letters n (k / 256)

/-- without the endings `s`, `es`, `ies`, `y`, `i`, `t` -/
def bare (l : List Nat) : List Nat := l.dropWhile fun c => [115, 101, 105, 121, 116].contains c

/-- without the endings of plurals and references (`REF`, `IREF`, `TREF`, `REFS`) -/
def stem (k : Key) : List Nat := match bare (letters 100 k) with
  | 102 :: 101 :: 114 :: l => bare l
  | l => l

/-- an attribute and an element of the same name, but for the endings of plurals and references -/
def CalledLike (f t : Key) : Prop := stem f = stem t

instance (f t : Key) : Decidable (CalledLike f t) := inferInstanceAs (Decidable (stem f = stem t))

example : CalledLike k!"contextPortRef" k!"CONTEXT-PORT-REF" ∧ CalledLike k!"variableAccesses" k!"VARIABLE-ACCESSS" ∧ CalledLike k!"baseTypeDefinition.byteOrder" k!"BYTE-ORDER" ∧
    ¬ CalledLike k!"max" k!"MIN" := by decide +kernel

/-- from an element through children with these tags to an element -/
inductive Via : List Key → Xml → Xml → Prop
  | nil (x : Xml) : Via [] x x
  | cons {ts : List Key} {x y z : Xml} (h : y ∈ x.kids) (hv : Via ts y z) : Via (y.tag :: ts) x z

/-- attributes with another name than their element: shorter or longer forms, and former names of the standard -/
def otherNames : List (Key × Key) :=
  [(k!"timestamp", k!"T"), (k!"blockLevelContent", k!"DOCUMENTATION-BLOCK"), (k!"canControllerFdAttributes", k!"CAN-CONTROLLER-FD-CONFIGURATION"),
   (k!"canControllerXlAttributes", k!"CAN-CONTROLLER-XL-CONFIGURATION"), (k!"canEnterRefs", k!"CAN-ENTER-EXCLUSIVE-AREA-REF"),
   (k!"compuContent", k!"COMPU-SCALES"), (k!"def_doc", k!"DEF"), (k!"elementProps", k!"SIGNAL-SERVICE-TRANSLATION-ELEMENT-PROPS"),
   (k!"fifoRange", k!"FLEXRAY-FIFO-RANGE"), (k!"implementedEntryRefs", k!"PROVIDED-ENTRYS"), (k!"innerPortIRref", k!"INNER-PORT-IREF"),
   (k!"record_elements", k!"ELEMENTS"), (k!"runsInsideRefs", k!"RUNS-INSIDE-EXCLUSIVE-AREA-REF"), (k!"swCalprmAxisTypeProps", k!"SW-AXIS-GROUPED"),
   (k!"swCalprmAxisTypeProps", k!"SW-AXIS-INDIVIDUAL"), (k!"swCalprmRef", k!"SW-CALPRM-REF-PROXY"), (k!"swVariable", k!"SW-VARIABLE-REF-PROXY")]

/-- an attribute that is read from an element that is named after another attribute of the class -/
def wrongNames : List (Key × Key) := [(k!"responseOnEventRef", k!"RESPONSE-REF")]

/-- attributes for the content of the element itself -/
def ownText : List Key := [k!"_text", k!"value", k!"v", k!"vf", k!"vt"]

/-- attributes for objects of different kinds, each with an element named after the kind -/
def kinds : List Key := [k!"elements", k!"compuConstContentType"]

/-- the attribute is called like the element or XML attribute, or has one of the other names; `E` are more pairs that are accepted -/
def MeantBy (E : List (Key × Key)) (f t : Key) : Prop := CalledLike f t ∨ (f, t) ∈ otherNames ∨ (f, t) ∈ E

mutual
/-- an object and an element it shows: every value of every attribute shows an element, or is an XML attribute, named after the attribute -/
inductive Mirrors (py : Py) (E : List (Key × Key)) : MObj py.F → Xml → Prop
  | content {s : Scalar py.F} {y : Xml} {k : RKind} (h : readKind py k y = .ok (some s)) : Mirrors py E (.scal s) y
  | name (y : Xml) : Mirrors py E (.scal (.str y.text)) y
  | obj {c : Key} {fs : List ((Key × Bool) × List (MObj py.F))} {x : Xml} (h : ∀ e ∈ fs, ∀ w ∈ e.2, Placed py E e.1.1 w x) : Mirrors py E (.mk c fs) x
/-- a value of an attribute is in the right place of an element -/
inductive Placed (py : Py) (E : List (Key × Key)) : Key → MObj py.F → Xml → Prop
  | tag {f t : Key} {w : MObj py.F} {x y : Xml} {ts : List Key} (hv : Via ts x y) (ht : t ∈ ts) (hd : MeantBy E f t) (hm : Mirrors py E w y) :
      Placed py E f w x
  | attr {f n : Key} {s : Scalar py.F} {x y : Xml} {ts : List Key} {v : Str} {strict : Bool} {k : AKind} (hv : Via ts x y) (ha : y.attr n = some v)
      (hd : MeantBy E f n) (hr : readAttr py strict k v = .ok (some s)) : Placed py E f (.scal s) x
  | own {f : Key} {w : MObj py.F} {x : Xml} (hf : f ∈ ownText) (hm : Mirrors py E w x) : Placed py E f w x
  | member {f : Key} {w : MObj py.F} {x y : Xml} {ts : List Key} (hf : f ∈ kinds) (hv : Via ts x y) (hm : Mirrors py E w y) : Placed py E f w x
end

end Verif.Spec
