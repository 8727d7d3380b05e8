import Verif.Lemmas.Order
import Verif.Props.Modes
/-!
# C76: the order of elements with different tags
-/
namespace Verif.Props
open Verif Verif.Model Verif.Spec Verif.Lemmas

theorem edit_of_exchange {x y : Xml} (h : Exchange x y) : Edit x y := by
  induction h with
  | kids t as s l r a b h1 h2 => exact .kids t as s l r a b h1 h2
  | attrs t as bs a b s l h => exact .attrs t as bs a b s l h
  | deep t as s l r y y' _ ih => exact .deep t as s l r y y' ih

theorem load_enters (t : Key) : enters k!"load" t = true := by
  have h1 : (k!"load" != compuKey) = true := by decide +kernel
  have h2 : Gen.textBodies.contains k!"load" = false := by decide +kernel
  rw [enters, h1, h2]; rfl

theorem load_edit (py : Py) (strict : Bool) {x y : Xml} (h : Edit x y) : load py strict x = load py strict y := by
  unfold load
  rw [One.tag (.inr h), edit_depth h]
  rw [readObj_one py strict _ _ _ _ (.inr h) (load_enters _)]

theorem loadInto_edit (py : Py) (strict : Bool) (d : MObj py.F) {x y : Xml} (h : Edit x y) : loadInto py strict d x = loadInto py strict d y := by
  unfold loadInto
  rw [One.tag (.inr h), edit_depth h]
  rw [intoObj_one py strict _ _ _ _ _ (.inr h) (load_enters _)]

/-- **C76** Rearranging elements with different tags, or attributes, changes nothing: the same document is loaded, or the same
exception is raised. -/
theorem C76_load (py : Py) (strict : Bool) (x y : Xml) (h : Rearranged x y) : load py strict x = load py strict y := by
  induction h with
  | refl => rfl
  | tail _ h ih =>
    rw [ih, load_edit py strict (edit_of_exchange h)]

/-- **C76** The same holds for loading into a document that has contents. -/
theorem C76_load_into (py : Py) (strict : Bool) (d : MObj py.F) (x y : Xml) (h : Rearranged x y) : loadInto py strict d x = loadInto py strict d y := by
  induction h with
  | refl => rfl
  | tail _ h ih =>
    rw [ih, loadInto_edit py strict d (edit_of_exchange h)]

/-- **C76** … and for any number of files, each of which may be rearranged. -/
theorem C76_load_all (py : Py) (strict : Bool) (d : MObj py.F) (xs ys : List Xml) (h : List.Forall₂ Rearranged xs ys) :
    loadAll py strict d xs = loadAll py strict d ys :=
  (foldE_one h (fun v a b hab => (C76_load_into py strict v a b hab).symm) d).symm

/-- a unit with its children and attributes in two orders -/
def unitKids : List Xml := [.leaf k!"SHORT-NAME" [] "u".toList, .leaf k!"CATEGORY" [] "c".toList, .leaf k!"FACTOR-SI-TO-UNIT" [] "2".toList]
def unitIn (attrs : List (Key × Str)) (kids more : List Xml) : Xml := .node k!"AUTOSAR" [] [] [.node k!"AR-PACKAGES" [] [] [.node k!"AR-PACKAGE" [] []
  [.leaf k!"SHORT-NAME" [] "P".toList, .node k!"ELEMENTS" [] [] (.node k!"UNIT" attrs [] kids :: more)]]]

theorem unit_rearranged : Rearranged (unitIn [(k!"S", "1".toList), (k!"UUID", "2".toList)] unitKids [])
    (unitIn [(k!"UUID", "2".toList), (k!"S", "1".toList)] unitKids.reverse []) := by
  have go : ∀ (a b : Xml), Exchange a b → Exchange (.node k!"AUTOSAR" [] [] [.node k!"AR-PACKAGES" [] [] [.node k!"AR-PACKAGE" [] []
      [.leaf k!"SHORT-NAME" [] "P".toList, .node k!"ELEMENTS" [] [] [a]]]])
      (.node k!"AUTOSAR" [] [] [.node k!"AR-PACKAGES" [] [] [.node k!"AR-PACKAGE" [] []
      [.leaf k!"SHORT-NAME" [] "P".toList, .node k!"ELEMENTS" [] [] [b]]]]) := fun a b h =>
    .deep _ _ _ [] [] _ _ (.deep _ _ _ [] [] _ _ (.deep _ _ _ [_] [] _ _ (.deep _ _ _ [] [] _ _ h)))
  refine .tail (.tail (.tail (.single (go _ _ (.attrs _ [] [] _ _ _ _ (by decide +kernel)))) (go _ _ (.kids _ _ _ [] [_] _ _ (by decide +kernel) (by decide +kernel))))
    (go _ _ (.kids _ _ _ [_] [] _ _ (by decide +kernel) (by decide +kernel)))) (go _ _ (.kids _ _ _ [] [_] _ _ (by decide +kernel) (by decide +kernel)))

example : isOk (load Py.demo true (unitIn [(k!"S", "1".toList), (k!"UUID", "2".toList)] unitKids [])) = true ∧
    load Py.demo true (unitIn [(k!"S", "1".toList), (k!"UUID", "2".toList)] unitKids []) =
      load Py.demo true (unitIn [(k!"UUID", "2".toList), (k!"S", "1".toList)] unitKids.reverse []) :=
  ⟨by decide +kernel, C76_load _ _ _ _ unit_rearranged⟩

/-- names of the elements of the first package -/
def firstNames (r : Except RErr (MObj Py.demo.F)) : List Str := match r with
  | .ok d => match d.get k!"arPackages" with
    | p :: _ => (p.get k!"elements").map MObj.name
    | [] => []
  | .error _ => []

/- the order in a mixed list is the order in the document -/
example :
    firstNames (load Py.demo true (unitIn [] unitKids [.node k!"SYSTEM" [] [] [.leaf k!"SHORT-NAME" [] "s".toList]])) = ["u".toList, "s".toList] ∧
    firstNames (load Py.demo true (.node k!"AUTOSAR" [] [] [.node k!"AR-PACKAGES" [] [] [.node k!"AR-PACKAGE" [] [] [.leaf k!"SHORT-NAME" [] "P".toList,
      .node k!"ELEMENTS" [] [] [.node k!"SYSTEM" [] [] [.leaf k!"SHORT-NAME" [] "s".toList], .node k!"UNIT" [] [] unitKids]]]])) = ["s".toList, "u".toList] := by
  decide +kernel

end Verif.Props
