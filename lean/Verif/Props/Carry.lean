import Verif.Lemmas.Carry
import Verif.Props.Exchange
/-!
# Property C97: a change of one element of a file that is loaded and saved changes only what is written for it
-/
namespace Verif.Props
open Verif Verif.Model Verif.Spec Verif.Lemmas

/-- **C97** An element of a file is exchanged for another one with the same tag and the same short name, and both files are loaded and saved.  The
saved files are the same but for what is written for the objects that are made of this element (`Replaced`, `PiecesOf`, `MadeFrom`): everything
around it, in the same order, is the same.  The element is one of which objects are made (`ObjectTag`), and not one of the eleven kinds of which
something is read directly in another place (`twoWays`). -/
theorem C97_carry (py : Py) (repr : py.F → Str) (strict : Bool) (e e' : Xml) (ht : e.tag = e'.tag) (ho : ObjectTag e.tag) (hw : e.tag ∉ twoWays)
    (hn : e.kids.filter (fun k => k.tag = k!"SHORT-NAME") = e'.kids.filter (fun k => k.tag = k!"SHORT-NAME")) (x x' : Xml) (h : Exchanged e e' x x')
    (hx : x ≠ e) (d d' : MObj py.F) (h1 : load py strict x = .ok d) (h2 : load py strict x' = .ok d') (y y' : Xml)
    (g1 : save py repr strict d = .ok y) (g2 : save py repr strict d' = .ok y') :
    Replaced (PiecesOf py repr strict (MadeFrom py strict e e')) [y] [y'] := by
  refine carry_exchanged ht (whole_of ho hw) ?_ h hx h1 h2 g1 g2
  have : (tagIs k!"SHORT-NAME") = fun k : Xml => decide (k.tag = k!"SHORT-NAME") := by
    funext k
    simp only [tagIs]
    rfl
  rw [this]; exact hn

/-! ## Examples -/

/-- a unit with the name `m` -/
def unitNamed (s : String) : Xml := .node k!"UNIT" [] [] [txt k!"SHORT-NAME" "m", txt k!"DISPLAY-NAME" s]

/-- The display name of the unit of a file is another one: both files can be loaded and saved, the saved files are different, and the difference
is in what is written for the unit. -/
example (py : Py) (repr : py.F → Str) : ∃ d d' y y', load py true (fileWith (unitNamed "m")) = .ok d ∧
    load py true (fileWith (unitNamed "metre")) = .ok d' ∧ save py repr true d = .ok y ∧ save py repr true d' = .ok y' ∧ y ≠ y' ∧
    Replaced (PiecesOf py repr true (MadeFrom py true (unitNamed "m") (unitNamed "metre"))) [y] [y'] := by
  have hx : ∃ d d' y y', load py true (fileWith (unitNamed "m")) = .ok d ∧
      load py true (fileWith (unitNamed "metre")) = .ok d' ∧ save py repr true d = .ok y ∧ save py repr true d' = .ok y' ∧
      y.kids.flatMap (fun a => a.kids.flatMap fun a => a.kids.flatMap fun a => a.kids.flatMap fun a => a.kids.map Xml.text) ≠
        y'.kids.flatMap (fun a => a.kids.flatMap fun a => a.kids.flatMap fun a => a.kids.flatMap fun a => a.kids.map Xml.text) := by
    refine ⟨_, _, _, _, by rfl, by rfl, by rfl, by rfl, by decide +kernel⟩
  obtain ⟨d, d', y, y', h1, h2, g1, g2, hne⟩ := hx
  refine ⟨d, d', y, y', h1, h2, g1, g2, fun h => hne (by rw [h]), 
    C97_carry py repr true (unitNamed "m") (unitNamed "metre") rfl unit_object (by decide) ?_ _ _ ?_ ?_ d d' h1 h2 y y' g1 g2⟩
  · rfl
  · have same : ∀ t s, Exchanged (unitNamed "m") (unitNamed "metre") (txt t s) (txt t s) := fun t s => .inside _ _ _ _ _ .nil
    exact .inside _ _ _ _ _ (.cons (.inside _ _ _ _ _ (.cons (.inside _ _ _ _ _ (.cons (same _ _) (.cons (same _ _)
      (.cons (.inside _ _ _ _ _ (.cons .here .nil)) .nil)))) .nil)) .nil)
  · intro h
    have := congrArg Xml.tag h
    revert this
    decide

end Verif.Props
