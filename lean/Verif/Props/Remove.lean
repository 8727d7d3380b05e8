import Verif.Lemmas.Remove
import Verif.Props.Insert
/-!
# Property C98: an element can be removed from a file
-/
namespace Verif.Props
open Verif Verif.Model Verif.Spec Verif.Lemmas

/-- **C98** If a file can be loaded, it can be loaded after an element is removed from it, in one place or several, at any depth, in strict mode
and with warnings.  Only objects that are made of this element are missing in the document: all other objects, with all their values and in the
same order, are the same (`Gained`).  The element is one of which objects are made in a list (`ListTag`), not one of the nine kinds that are read in
another way elsewhere (`otherWays`), and not one where only one child is read (`singles`, in `Inserted`). -/
theorem C98_remove (py : Py) (strict : Bool) (e : Xml) (hl : ListTag e.tag) (hw : e.tag ∉ otherWays) (x x' : Xml) (h : Inserted e x x')
    (d' : MObj py.F) (h' : load py strict x' = .ok d') : ∃ d, load py strict x = .ok d ∧ Gained (ReadFrom py strict e) d d' := by
  obtain ⟨d, hd⟩ := load_removed (joins_of hl hw) (spare_of hl hw) h h'
  exact ⟨d, hd, load_inserted (joins_of hl hw) h hd h'⟩

/-- **C98** So elements can be removed one after the other, whatever they are, in any order: each file on the way can be loaded. -/
theorem C98_all (py : Py) (strict : Bool) (es : List Xml) (hl : ∀ e ∈ es, ListTag e.tag ∧ e.tag ∉ otherWays) (x x' : Xml)
    (h : Relation.ReflTransGen (fun y y' => ∃ e ∈ es, Inserted e y y') x x') (d' : MObj py.F) (h' : load py strict x' = .ok d') :
    ∃ d, load py strict x = .ok d := by
  induction h generalizing d' with
  | refl => exact ⟨d', h'⟩
  | tail _ hs ih =>
    obtain ⟨e, he, hi⟩ := hs
    obtain ⟨d, hd, _⟩ := C98_remove py strict e (hl e he).1 (hl e he).2 _ _ hi d' h'
    exact ih d hd

/-- **C98** The restriction to elements of lists is needed: a file with a unit is loaded, the same file without the name of the unit is not. -/
theorem C98_needed (py : Py) (strict : Bool) : (∃ d, load py strict (fileUnits [unitMetre]) = .ok d) ∧
    load py strict (fileUnits [.node k!"UNIT" [] [] []]) = .error (.py .valueError) := by
  cases strict <;> exact ⟨⟨_, by rfl⟩, by rfl⟩

/-! ## Examples -/

/-- One of two units is removed. -/
example (py : Py) : ∃ d, load py true (fileUnits [unitMetre]) = .ok d := by
  have hx : ∃ d', load py true (fileUnits [unitSecond, unitMetre]) = .ok d' := ⟨_, by rfl⟩
  obtain ⟨d', h'⟩ := hx
  have same : ∀ t s, Inserted unitSecond (txt t s) (txt t s) := fun t s => .inside _ _ _ _ _ .nil
  obtain ⟨d, hd, _⟩ := C98_remove py true unitSecond unit_list (by decide) (fileUnits [unitMetre]) _
    (.inside _ _ _ _ _ (.cons (.inside _ _ _ _ _ (.cons (.inside _ _ _ _ _ (.cons (same _ _) (.cons (same _ _)
      (.cons (.here _ _ _ _ _ (by decide) (.add rfl (.keep (.inside _ _ _ _ _ (.cons (same _ _) .nil)) .nil))) .nil)))) .nil)) .nil)) d' h'
  exact ⟨d, hd⟩

end Verif.Props
