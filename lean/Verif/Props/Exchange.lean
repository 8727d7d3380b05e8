import Verif.Lemmas.ExchangeTable
import Verif.Props.Load
/-!
# Property C95: a change of one element of a file changes only the objects that are made of it
-/
namespace Verif.Props
open Verif Verif.Model Verif.Spec Verif.Lemmas

/-- **C95** If an element of a file is exchanged for another one with the same tag, in any way, only the objects that are made of this element
change in the document that is read: everything around them, in the same order, is the same (`Renewed`).  The objects in the other places are what
the same method makes of the other element (`MadeFrom`).  The element is one of which objects are made (`ObjectTag`), and not one of the eleven
kinds of which something is read directly in another place (`twoWays`). -/
theorem C95_exchange (py : Py) (strict : Bool) (e e' : Xml) (ht : e.tag = e'.tag) (ho : ObjectTag e.tag) (hw : e.tag ∉ twoWays) (x x' : Xml)
    (h : Exchanged e e' x x') (d d' : MObj py.F) (h1 : load py strict x = .ok d) (h2 : load py strict x' = .ok d') :
    Renewed (MadeFrom py strict e e') d d' := load_exchanged ht (whole_of ho hw) h h1 h2

/-- **C95** The same for a part of a file read by any method. -/
theorem C95_part (py : Py) (strict : Bool) (e e' : Xml) (ht : e.tag = e'.tag) (ho : ObjectTag e.tag) (hw : e.tag ∉ twoWays) (x x' : Xml)
    (h : Exchanged e e' x x') (n n' : Nat) (k : Key) (v v' : MObj py.F) (h1 : readObj py strict readers n k x = .ok v)
    (h2 : readObj py strict readers n' k x' = .ok v') : Renewed (MadeFrom py strict e e') v v' := read_exchanged ht (whole_of ho hw) n n' k h h1 h2

/-! ## Examples -/

/-- a package with a unit and the category of the package -/
def fileWith (u : Xml) : Xml := fileOf [pkgOf "P" [txt k!"CATEGORY" "STANDARD", .node k!"ELEMENTS" [] [] [u]]]

/-- two units with different names -/
def unitMetre : Xml := .node k!"UNIT" [] [] [txt k!"SHORT-NAME" "m"]
@[inherit_doc unitMetre] def unitSecond : Xml := .node k!"UNIT" [] [] [txt k!"SHORT-NAME" "s", txt k!"DISPLAY-NAME" "second"]

theorem unit_object : ObjectTag k!"UNIT" := makesB_sound (k := k!"readARPackages_ARPackage") (by decide +kernel)

/-- The unit of a file is exchanged for another one: both files can be loaded, the documents are different, and it is the unit that is different. -/
example (py : Py) : ∃ d d', load py true (fileWith unitMetre) = .ok d ∧ load py true (fileWith unitSecond) = .ok d' ∧ d ≠ d' ∧
    Renewed (MadeFrom py true unitMetre unitSecond) d d' := by
  have hx : ∃ d d' p p' u u', load py true (fileWith unitMetre) = .ok d ∧ load py true (fileWith unitSecond) = .ok d' ∧
      d.get k!"arPackages" = [p] ∧ d'.get k!"arPackages" = [p'] ∧ p.get k!"elements" = [u] ∧ p'.get k!"elements" = [u'] ∧
      u.name = "m".toList ∧ u'.name = "s".toList := by
    refine ⟨_, _, _, _, _, _, by rfl, by rfl, by rfl, by rfl, by rfl, by rfl, by rfl, by rfl⟩
  obtain ⟨d, d', p, p', u, u', h1, h2, hp, hp', hu, hu', hm, hs⟩ := hx
  refine ⟨d, d', h1, h2, ?_, C95_exchange py true unitMetre unitSecond rfl unit_object (by decide) _ _ ?_ d d' h1 h2⟩
  · rintro rfl
    rw [hp] at hp'; cases hp'
    rw [hu] at hu'; cases hu'
    rw [hm] at hs; exact absurd hs (by decide)
  · have same : ∀ t s, Exchanged unitMetre unitSecond (txt t s) (txt t s) := fun t s => .inside _ _ _ _ _ .nil
    exact .inside _ _ _ _ _ (.cons (.inside _ _ _ _ _ (.cons (.inside _ _ _ _ _ (.cons (same _ _) (.cons (same _ _)
      (.cons (.inside _ _ _ _ _ (.cons .here .nil)) .nil)))) .nil)) .nil)

end Verif.Props
