import Verif.Props.Order
/-!
# C78: layout and unknown attributes
-/
namespace Verif.Props
open Verif Verif.Model Verif.Spec Verif.Lemmas

/-- **C78** Two files that only differ in texts and attributes that are not read, and in the order of different elements, are the same for
the reader: the same document is loaded, or the same exception is raised. -/
theorem C78_load (py : Py) (strict : Bool) (x y : Xml) (h : Alike x y) : load py strict x = load py strict y := by
  induction h with
  | rel x y h => exact load_edit py strict h
  | refl => rfl
  | symm _ _ _ ih => exact ih.symm
  | trans _ _ _ _ _ ih1 ih2 => exact ih1.trans ih2

/-- **C78** The same holds for loading into a document that has contents. -/
theorem C78_load_into (py : Py) (strict : Bool) (d : MObj py.F) (x y : Xml) (h : Alike x y) : loadInto py strict d x = loadInto py strict d y := by
  induction h with
  | rel x y h => exact loadInto_edit py strict d h
  | refl => rfl
  | symm _ _ _ ih => exact ih.symm
  | trans _ _ _ _ _ ih1 ih2 => exact ih1.trans ih2

/-- **C78** … and for any number of files. -/
theorem C78_load_all (py : Py) (strict : Bool) (d : MObj py.F) (xs ys : List Xml) (h : List.Forall₂ Alike xs ys) :
    loadAll py strict d xs = loadAll py strict d ys :=
  (foldE_one h (fun v a b hab => (C78_load_into py strict v a b hab).symm) d).symm

theorem alike_deep (t : Key) (as : List (Key × Str)) (s : Str) (l r : List Xml) {y y' : Xml} (h : Alike y y') :
    Alike (.node t as s (l ++ y :: r)) (.node t as s (l ++ y' :: r)) := by
  induction h with
  | rel _ _ h => exact .rel _ _ (.deep t as s l r _ _ h)
  | refl => exact .refl _
  | symm _ _ _ ih => exact .symm _ _ ih
  | trans _ _ _ _ _ ih1 ih2 => exact .trans _ _ _ ih1 ih2

theorem alike_attrs (t : Key) (s : Str) (l : List Xml) (done as : List (Key × Str)) :
    Alike (.node t (done ++ as) s l) (.node t (done ++ as.filter fun a => readAttrs.contains a.1) s l) := by
  induction as generalizing done with
  | nil => exact .refl _
  | cons a as ih =>
    rw [List.filter_cons]
    split
    · have := ih (done ++ [a])
      rwa [List.append_assoc, List.append_assoc] at this
    · rename_i h
      exact .trans _ _ _ (.rel _ _ (.attr t done as a s l (by simpa using h))) (ih done)

mutual
theorem alike_strip : ∀ x : Xml, Alike x (strip x)
  | .node t as s l => by
    rw [strip]
    refine .trans _ _ _ (alike_attrs t s l [] as) (.trans _ _ _ ?_ (alike_stripAll t _ _ [] l))
    split
    · exact .refl _
    · rename_i h
      exact .rel _ _ (.text t _ s [] l (by simpa using h))
theorem alike_stripAll : ∀ (t : Key) (as : List (Key × Str)) (s : Str) (done l : List Xml), Alike (.node t as s (done ++ l)) (.node t as s (done ++ stripAll l))
  | _, _, _, _, [] => .refl _
  | t, as, s, done, x :: l => by
    rw [stripAll]
    refine .trans _ _ _ (alike_deep t as s done l (alike_strip x)) ?_
    have := alike_stripAll t as s (done ++ [strip x]) l
    rwa [List.append_assoc, List.append_assoc] at this
end

/-- **C78** All that matters is what is left without the texts and the attributes that are not read. -/
theorem C78_strip (py : Py) (strict : Bool) (x y : Xml) (h : strip x = strip y) : load py strict x = load py strict y := by
  rw [C78_load py strict x _ (alike_strip x), h, ← C78_load py strict y _ (alike_strip y)]

/-- the unit of `unitIn`, indented, with an attribute of another tool -/
def unitIndented : Xml := .node k!"AUTOSAR" [(k!"xmlns:tool", "urn:tool".toList)] "\n  ".toList [.node k!"AR-PACKAGES" [] "\n    ".toList
  [.node k!"AR-PACKAGE" [(k!"tool:id", "7".toList)] "\n      ".toList
  [.leaf k!"SHORT-NAME" [] "P".toList, .node k!"ELEMENTS" [] "\n        ".toList [.node k!"UNIT" [(k!"UUID", "2".toList), (k!"S", "1".toList)] "\n          ".toList unitKids]]]]

example : isOk (load Py.demo true unitIndented) = true ∧ load Py.demo true unitIndented = load Py.demo true (unitIn [(k!"UUID", "2".toList)] unitKids []) :=
  ⟨by decide +kernel, C78_strip _ _ _ _ (by rfl)⟩

/- the text of a name and the attribute `UUID` are read -/
example : readsText k!"SHORT-NAME" = true ∧ readsText k!"ELEMENTS" = false ∧ readsText k!"AR-PACKAGE" = false ∧ k!"UUID" ∈ readAttrs := by decide +kernel

/- white space in a name is part of the name -/
example : firstNames (load Py.demo true (unitIn [] [.leaf k!"SHORT-NAME" [] " u".toList] [])) = [" u".toList] := by decide +kernel

end Verif.Props
