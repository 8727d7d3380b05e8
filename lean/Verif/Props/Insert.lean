import Verif.Lemmas.InsertTable
import Verif.Props.Exchange
/-!
# Property C96: an element added to a file adds only the objects that are made of it
-/
namespace Verif.Props
open Verif Verif.Model Verif.Spec Verif.Lemmas

/-- **C96** If an element is added to a file, anywhere, only objects that are made of this element are added to the document that is read: all
other objects, with all their values and in the same order, are the same (`Gained`).  The element is one of which objects are made in a list
(`ListTag`) and not one of the nine kinds that are read in another way elsewhere (`otherWays`), and it is not added where only one child is read
(`singles`, in `Inserted`).  Read from right to left: an element that is removed from a file removes only the objects that are made of it. -/
theorem C96_insert (py : Py) (strict : Bool) (e : Xml) (hl : ListTag e.tag) (hw : e.tag ∉ otherWays) (x x' : Xml) (h : Inserted e x x')
    (d d' : MObj py.F) (h1 : load py strict x = .ok d) (h2 : load py strict x' = .ok d') : Gained (ReadFrom py strict e) d d' :=
  load_inserted (joins_of hl hw) h h1 h2

/-! ## Examples -/

/-- a package with units and the category of the package -/
def fileUnits (us : List Xml) : Xml := fileOf [pkgOf "P" [txt k!"CATEGORY" "STANDARD", .node k!"ELEMENTS" [] [] us]]

theorem unit_list : ListTag k!"UNIT" := loopsB_sound (k := k!"readARPackages_ARPackage") (by decide +kernel)

/-- A unit is added in front of the unit of a file: both files can be loaded, and the second document has two units. -/
example (py : Py) : ∃ d d' p', load py true (fileUnits [unitMetre]) = .ok d ∧ load py true (fileUnits [unitSecond, unitMetre]) = .ok d' ∧
    d'.get k!"arPackages" = [p'] ∧ (p'.get k!"elements").length = 2 ∧ Gained (ReadFrom py true unitSecond) d d' := by
  have hx : ∃ d d' p', load py true (fileUnits [unitMetre]) = .ok d ∧ load py true (fileUnits [unitSecond, unitMetre]) = .ok d' ∧
      d'.get k!"arPackages" = [p'] ∧ (p'.get k!"elements").length = 2 := by
    refine ⟨_, _, _, by rfl, by rfl, by rfl, by rfl⟩
  obtain ⟨d, d', p', h1, h2, hp, hn⟩ := hx
  refine ⟨d, d', p', h1, h2, hp, hn, C96_insert py true unitSecond unit_list (by decide) _ _ ?_ d d' h1 h2⟩
  have same : ∀ t s, Inserted unitSecond (txt t s) (txt t s) := fun t s => .inside _ _ _ _ _ .nil
  exact .inside _ _ _ _ _ (.cons (.inside _ _ _ _ _ (.cons (.inside _ _ _ _ _ (.cons (same _ _) (.cons (same _ _)
    (.cons (.here _ _ _ _ _ (by decide) (.add rfl (.keep (.inside _ _ _ _ _ (.cons (same _ _) .nil)) .nil))) .nil)))) .nil)) .nil)

end Verif.Props
