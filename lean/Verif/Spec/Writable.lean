import Verif.Model.Document
/-!
# Which documents can be saved

Conditions on one object and the method it is written with; nothing here says how writing goes on.
-/
namespace Verif.Spec
open Verif Verif.Model

section
variable {F : Type}

/-- the value has the method the accessor of the writer calls -/
def Answers : WKind → Scalar F → Prop
  | .lit, .lit _ _ _ | .lit, .num _ _ _ _ _ | .lit, .bool _ _ _ => True
  | .numerical, .num _ _ _ _ _ => True
  | .ref, .ref _ _ _ => True
  | .limit, .limit _ _ _ _ => True
  | .raw, .str _ => True
  | .getValue, .lit _ _ _ | .getValue, .ref _ _ _ => True
  | .getText, .lit _ _ _ => True
  | _, _ => False

/-- the value can be written as an attribute or as the text of an element: it has the method that is called, and (in strict mode) is in the table -/
def AttrAnswers (strict : Bool) : WAKind → Scalar F → Prop
  | .raw, .str _ => True
  | .getValue, .lit _ _ _ => True
  | .mapped m, .lit _ _ v => strict = true → ∃ e ∈ m.map, e.1 = v
  | _, _ => False

/-- Something is wrong with what the method writes of the object itself: a value is of a class the accessor cannot deal with, an object is of a
class for which there is no branch (in strict mode), or a statement that raises an exception is reached. -/
def Fault (strict : Bool) (o : MObj F) : WB → Prop
  | .nil => False
  | .attr _ k f r | .text k f r => (∃ v vs, o.get f = v :: vs ∧ ¬ ∃ s, v = .scal s ∧ AttrAnswers strict k s) ∨ Fault strict o r
  | .prim _ k f r | .oprim _ _ k f r => (∃ v ∈ o.get f, ¬ ∃ s, v = .scal s ∧ Answers k s) ∨ Fault strict o r
  | .each f w _ cases other r => (strict = true ∧ other ≠ .skip ∧ ∃ v ∈ o.view f w, ∀ c ∈ cases, c.takes v.cls = false) ∨ Fault strict o r
  | .wrap c _ b r | .when c b r => (c.holds o = true ∧ Fault strict o b) ∨ Fault strict o r
  | .fail _ always r => always = true ∨ strict = true ∨ Fault strict o r

/-- the method writes the object `v` with the method `k`: the first branch that takes its class -/
def Calls (o : MObj F) (k : Key) (v : MObj F) : WB → Prop
  | .nil => False
  | .attr _ _ _ r | .text _ _ r | .prim _ _ _ r | .oprim _ _ _ _ r | .fail _ _ r => Calls o k v r
  | .each f w _ cases _ r => (v ∈ o.view f w ∧ ∃ c, cases.find? (fun c => c.takes v.cls) = some c ∧ c.body = k) ∨ Calls o k v r
  | .wrap c _ b r | .when c b r => (c.holds o = true ∧ Calls o k v b) ∨ Calls o k v r

/-- The objects that are written when an object is written, with their methods. -/
inductive Writes (T : Key → Option WB) : Key → MObj F → Key → MObj F → Prop
  | self (k : Key) (o : MObj F) : Writes T k o k o
  | step (k : Key) (o : MObj F) (b : WB) (j : Key) (v : MObj F) (k' : Key) (w : MObj F) :
      T k = some b → Calls o j v b → Writes T j v k' w → Writes T k o k' w

end
end Verif.Spec
