import Verif.Spec.Exchange
/-!
# Changing texts of a file
-/
namespace Verif.Spec
open Verif Verif.Model

/-- The second file is the first one with other texts in some elements, at any depth: `P t s s'` says that the text `s` of an element with tag `t`
may be replaced by `s'`.  The elements, their attributes and their order are the same. -/
inductive Retold (P : Key → Str → Str → Prop) : Xml → Xml → Prop
  | node (t : Key) (as : List (Key × Str)) (s s' : Str) (ks ks' : List Xml) : (s = s' ∨ P t s s') → List.Forall₂ (Retold P) ks ks' →
      Retold P (.node t as s ks) (.node t as s' ks')

/-- The values one accessor of the reader makes of an element with the old text and of the same element with the new text. -/
def ValueFrom (py : Py) (P : Key → Str → Str → Prop) (v v' : MObj py.F) : Prop :=
  ∃ t as s s' k a a', P t s s' ∧ readKind py k (.node t as s []) = .ok (some a) ∧ readKind py k (.node t as s' []) = .ok (some a') ∧
    v = .scal a ∧ v' = .scal a'

/-- the tags of the elements a path of the reader goes through to elements inside them -/
def stepsOf : Path → List Key
  | .nil => []
  | .all u r => (if r = .nil then [] else [u]) ++ stepsOf r
  | .first ts r => (if r = .nil then ts.dropLast else ts) ++ stepsOf r
  | .pick ts r => (if r = .nil then [] else ts) ++ stepsOf r
  | .need p r | .lack p r | .alt p r => stepsOf p ++ stepsOf r

/-- elements with this tag hold other elements: the reader makes an object of them or looks for elements inside them -/
def Holder (t : Key) : Prop := ObjectTag t ∨ ∃ k b s, readers k = some b ∧ s ∈ b.slots ∧ t ∈ stepsOf s.path

/-- The tags of elements of this sort whose own text is read as well, by this method or another one. -/
def textual : List Key :=
  [k!"SD", k!"SDF", k!"E", k!"IE", k!"TT", k!"VF", k!"V", k!"VT", k!"L-2", k!"L-5", k!"L-4", k!"L-10", k!"L-1", k!"DESTINATION-URI-REF", k!"LIMIT",
   k!"NUMERICAL-VALUE-VARIATION-POINT", k!"BOOLEAN-VALUE-VARIATION-POINT", k!"FLOAT-VALUE-VARIATION-POINT", k!"INTEGER-VALUE-VARIATION-POINT",
   k!"POSITIVE-INTEGER-VALUE-VARIATION-POINT", k!"TIME-VALUE-VARIATION-POINT", k!"UNLIMITED-INTEGER-VALUE-VARIATION-POINT", k!"INIT-VALUE",
   k!"OPTIONS", k!"VALUE", k!"CONTEXT-DATA-PROTOTYPE-IN-CS", k!"ECU-INSTANCE", k!"RPT-SERVICE-POINT", k!"TP-ADDRESS", k!"SEGMENT-POSITION",
   k!"TRIGGER", k!"CYCLE-REPETITION"]

/-- the elements whose own text is only the space between the elements inside them -/
def Silent (t : Key) : Prop := Holder t ∧ t ∉ textual

end Verif.Spec
