import Verif.Lemmas.Shrink
import Verif.Props.Remove
/-!
# Property C99: what is removed from a file is missing in the file that is saved, and nothing else
-/
namespace Verif.Props
open Verif Verif.Model Verif.Spec Verif.Lemmas

/-- **C99** If a file can be loaded and saved, it can be loaded and saved after an element is removed from it, in one place or several.  The file
that is saved then is the one that was saved before with elements left out: nothing new is in it, and all that is in it has the same text, the same
attributes and the same order (`PartOf`).  So a tool that loads and saves turns the removal of an element into a removal of elements.  The element
is as in C98, and not one of two kinds that change the place others are written to (`movers`). -/
theorem C99_shrink (py : Py) (repr : py.F → Str) (strict : Bool) (e : Xml) (hl : ListTag e.tag) (hw : e.tag ∉ otherWays) (hm : e.tag ∉ movers)
    (x x' : Xml) (h : Inserted e x x') (d' : MObj py.F) (h1 : load py strict x' = .ok d') (y' : Xml) (h2 : save py repr strict d' = .ok y') :
    ∃ d y, load py strict x = .ok d ∧ save py repr strict d = .ok y ∧ PartOf y y' := by
  obtain ⟨d, hd⟩ := load_removed (joins_of hl hw) (spare_of hl hw) h h1
  obtain ⟨y, hy, hg⟩ := save_shrunk (load_gainedAt (joins_of hl hw) (steady_tag hm) h hd h1) h2
  exact ⟨d, y, hd, hy, hg⟩

/-- **C99** Read from right to left: if both files can be loaded and saved, adding an element adds elements to the saved file, and changes nothing. -/
theorem C99_grow (py : Py) (repr : py.F → Str) (strict : Bool) (e : Xml) (hl : ListTag e.tag) (hw : e.tag ∉ otherWays) (hm : e.tag ∉ movers)
    (x x' : Xml) (h : Inserted e x x') (d d' : MObj py.F) (h1 : load py strict x = .ok d) (h1' : load py strict x' = .ok d') (y y' : Xml)
    (h2 : save py repr strict d = .ok y) (h2' : save py repr strict d' = .ok y') : PartOf y y' := by
  obtain ⟨d₁, y₁, hd, hy, hg⟩ := C99_shrink py repr strict e hl hw hm x x' h d' h1' y' h2'
  rw [h1] at hd; cases hd
  rw [h2] at hy; cases hy
  exact hg

/-! ## What does not hold for the two kinds of elements that are left out -/

/-- a package with a set of protections of one variable -/
def fileProt (ks : List Xml) : Xml := fileOf [pkgOf "P" [.node k!"ELEMENTS" [] [] [.node k!"END-TO-END-PROTECTION-SET" [] [] [txt k!"SHORT-NAME" "S",
  .node k!"END-TO-END-PROTECTIONS" [] [] [.node k!"END-TO-END-PROTECTION" [] [] [txt k!"SHORT-NAME" "E",
    .node k!"END-TO-END-PROTECTION-VARIABLE-PROTOTYPES" [] [] [.node k!"END-TO-END-PROTECTION-VARIABLE-PROTOTYPE" [] [] ks]]]]]]]

/-- where the sender is to be -/
def senderPlace : List Key := [k!"AR-PACKAGES", k!"AR-PACKAGE", k!"ELEMENTS", k!"END-TO-END-PROTECTION-SET", k!"END-TO-END-PROTECTIONS", k!"END-TO-END-PROTECTION",
  k!"END-TO-END-PROTECTION-VARIABLE-PROTOTYPES", k!"END-TO-END-PROTECTION-VARIABLE-PROTOTYPE", k!"SENDER-IREF"]

/-- the sender of a variable -/
def senderIRef : Xml := .node k!"SENDER-IREF" [] [] []

/-- a receiver of a variable -/
def receiverIRef : Xml := .node k!"RECEIVER-IREF" [] [] []

/-- **C99** `RECEIVER-IREF` is left out for a reason: if one is added to a variable with a sender, the sender is no longer written where it was before
(it is written between the receivers, where it is not found again when the file is loaded). -/
theorem C99_receiver_broken (py : Py) (repr : py.F → Str) : ∃ x x' d d' y y', Inserted receiverIRef x x' ∧ load py true x = .ok d ∧ load py true x' = .ok d' ∧
    save py repr true d = .ok y ∧ save py repr true d' = .ok y' ∧ ¬ PartOf y y' := by
  have hx : ∃ d d' y y', load py true (fileProt [.node k!"RECEIVER-IREFS" [] [] [], senderIRef]) = .ok d ∧
      load py true (fileProt [.node k!"RECEIVER-IREFS" [] [] [receiverIRef], senderIRef]) = .ok d' ∧ save py repr true d = .ok y ∧
      save py repr true d' = .ok y' ∧
      (walk senderPlace y).length = 1 ∧
      (walk senderPlace y').length = 0 := by
    refine ⟨_, _, _, _, by rfl, by rfl, by rfl, by rfl, by rfl, by rfl⟩
  obtain ⟨d, d', y, y', h1, h2, h3, h4, n1, n2⟩ := hx
  refine ⟨_, _, d, d', y, y', ?_, h1, h2, h3, h4, fun h => ?_⟩
  · have leaf : ∀ t s, Inserted receiverIRef (.node t [] s []) (.node t [] s []) := fun t s => .inside _ _ _ _ _ .nil
    have one : ∀ t a b, Inserted receiverIRef a b → Inserted receiverIRef (.node t [] [] [a]) (.node t [] [] [b]) :=
      fun t a b h => .inside _ _ _ _ _ (.cons h .nil)
    have two : ∀ t s a b, Inserted receiverIRef a b → Inserted receiverIRef (.node t [] [] [txt k!"SHORT-NAME" s, a]) (.node t [] [] [txt k!"SHORT-NAME" s, b]) :=
      fun t s a b h => .inside _ _ _ _ _ (.cons (leaf _ _) (.cons h .nil))
    exact .inside _ _ _ _ _ (.cons (one _ _ _ (two _ _ _ _ (one _ _ _ (two _ _ _ _ (one _ _ _ (two _ _ _ _ (one _ _ _
      (.inside _ _ _ _ _ (.cons (.here _ _ _ _ _ (by decide) (.add rfl .nil)) (.cons (leaf _ _) .nil)))))))))) .nil)
  · have := partOf_walk senderPlace h
    rw [n1, n2] at this
    exact absurd this (by decide)

/-! ## Examples -/

/-- One of two units is removed: what is saved is what was saved before without it. -/
example (py : Py) (repr : py.F → Str) : ∃ d' y', load py true (fileUnits [unitSecond, unitMetre]) = .ok d' ∧ save py repr true d' = .ok y' ∧
    ∃ d y, load py true (fileUnits [unitMetre]) = .ok d ∧ save py repr true d = .ok y ∧ PartOf y y' ∧ y ≠ y' := by
  have hx : ∃ d' y' d y, load py true (fileUnits [unitSecond, unitMetre]) = .ok d' ∧ save py repr true d' = .ok y' ∧
      load py true (fileUnits [unitMetre]) = .ok d ∧ save py repr true d = .ok y ∧ (select (.first [k!"AR-PACKAGES", k!"AR-PACKAGE", k!"ELEMENTS"] (.all k!"UNIT" .nil)) y').length = 2 ∧
      (select (.first [k!"AR-PACKAGES", k!"AR-PACKAGE", k!"ELEMENTS"] (.all k!"UNIT" .nil)) y).length = 1 := by
    refine ⟨_, _, _, _, by rfl, by rfl, by rfl, by rfl, by rfl, by rfl⟩
  obtain ⟨d', y', d, y, h1, h2, h3, h4, n2, n1⟩ := hx
  have same : ∀ t s, Inserted unitSecond (txt t s) (txt t s) := fun t s => .inside _ _ _ _ _ .nil
  refine ⟨d', y', h1, h2, d, y, h3, h4, C99_grow py repr true unitSecond unit_list (by decide) (by decide) (fileUnits [unitMetre]) _
    (.inside _ _ _ _ _ (.cons (.inside _ _ _ _ _ (.cons (.inside _ _ _ _ _ (.cons (same _ _) (.cons (same _ _)
      (.cons (.here _ _ _ _ _ (by decide) (.add rfl (.keep (.inside _ _ _ _ _ (.cons (same _ _) .nil)) .nil))) .nil)))) .nil)) .nil))
    d d' h3 h1 y y' h4 h2, ?_⟩
  rintro rfl
  rw [n1] at n2
  exact absurd n2 (by decide)

end Verif.Props
