import Verif.Lemmas.Divide
import Verif.Props.Define
/-!
# Property C83: how packages are distributed over files does not matter

A project may keep everything in one file, or divide it over several files; a package may be divided over several files too.
Loading the files gives the same document as loading the one file, members and their order included.  `Spec/Divide` says what a division
is: the children of a package that hold lists are divided, what else is written about the package is repeated in each part.
-/
namespace Verif.Props
open Verif Verif.Model Verif.Spec Verif.Lemmas

/-- **C83** Loading the files a file is divided into gives the same document as loading the file, into whatever document; one can be
loaded if and only if the others can. -/
theorem C83_divided_partial (py : Py) (strict : Bool) (x : Xml) (xs : List Xml) (h : Divided x xs) (d d' : MObj py.F) :
    loadAll py strict d xs = .ok d' ↔ loadInto py strict d x = .ok d' := load_divided h d d'

/-- **C83** So two ways to divide a file give the same document. -/
theorem C83_both_partial (py : Py) (strict : Bool) (x : Xml) (xs ys : List Xml) (hx : Divided x xs) (hy : Divided x ys) (d d' : MObj py.F) :
    loadAll py strict d xs = .ok d' ↔ loadAll py strict d ys = .ok d' := (load_divided hx d d').trans (load_divided hy d d').symm

/-- **C83** One file per package, for instance, whatever the packages are. -/
theorem C83_per_package (py : Py) (strict : Bool) (ps : List Xml) (hp : ps ≠ []) (d d' : MObj py.F) :
    loadAll py strict d (ps.map fun p => fileOf [p]) = .ok d' ↔ loadInto py strict d (fileOf ps) = .ok d' := by
  refine load_divided ⟨by simpa using hp, ?_, ?_⟩ d d'
  · intro y hy
    obtain ⟨p, _, rfl⟩ := List.mem_map.1 hy
    exact ⟨rfl, rfl, rfl⟩
  · have h1 : ∀ ps, contents k!"AR-PACKAGES" (fileOf ps) = ps := by
      intro ps
      show List.flatMap Xml.kids [Xml.node k!"AR-PACKAGES" [] [] ps] = ps
      simp [Xml.kids]
    rw [h1, List.flatMap_map]
    simp only [h1, List.flatMap_singleton']
    exact .same ps

/-- **C83** One package per element too: a package of which nothing but the name and a list of elements is written. -/
theorem C83_per_element (py : Py) (strict : Bool) (n : String) (es es' : List Xml) (d d' : MObj py.F) :
    loadAll py strict d [fileOf [pkgOf n [.node k!"ELEMENTS" [] [] es]], fileOf [pkgOf n [.node k!"ELEMENTS" [] [] es']]] = .ok d' ↔
      loadInto py strict d (fileOf [pkgOf n [.node k!"ELEMENTS" [] [] (es ++ es')]]) = .ok d' := by
  refine load_divided ⟨by simp, ?_, ?_⟩ d d'
  · intro y hy
    simp only [List.mem_cons, List.not_mem_nil, or_false] at hy
    rcases hy with rfl | rfl <;> exact ⟨rfl, rfl, rfl⟩
  · show Divide [_] [_, _]
    refine .cut (ws := []) rfl ⟨⟨rfl, rfl, rfl⟩, ⟨rfl, rfl, rfl⟩, ?_⟩ (by simp)
    intro t ht
    simp only [packageLists, List.mem_cons, List.not_mem_nil, or_false] at ht
    rcases ht with rfl | rfl | rfl | rfl
    · rfl
    · show List.flatMap Xml.kids [_] = List.flatMap Xml.kids [_] ++ List.flatMap Xml.kids [_]
      simp [Xml.kids]
    · rfl
    · rfl

/-! ## Examples -/

/-- a file with a package `P` with a category, a package in it, and two units, and a package `Q` -/
def wholeFile : Xml := fileOf [pkgOf "P" [txt k!"CATEGORY" "X", .node k!"AR-PACKAGES" [] [] [pkgOf "R" [.node k!"ELEMENTS" [] [] [unitM, unitS]]],
  .node k!"ELEMENTS" [] [] [unitM, unitS]], pkgOf "Q" []]
where unitS : Xml := .node k!"UNIT" [] [] [txt k!"SHORT-NAME" "s"]

/-- two files: `P` is in both, and so is the package in it -/
def halfFiles : List Xml := [
  fileOf [pkgOf "P" [txt k!"CATEGORY" "X", .node k!"AR-PACKAGES" [] [] [pkgOf "R" [.node k!"ELEMENTS" [] [] [unitM]]], .node k!"ELEMENTS" [] [] [unitM]], pkgOf "Q" []],
  fileOf [pkgOf "P" [txt k!"CATEGORY" "X", .node k!"AR-PACKAGES" [] [] [pkgOf "R" [.node k!"ELEMENTS" [] [] [wholeFile.unitS]]], .node k!"ELEMENTS" [] [] [wholeFile.unitS]]]]

/-- the two files are a division of the file -/
theorem halfFiles_divided : Divided wholeFile halfFiles := by
  refine ⟨by simp [halfFiles], ?_, ?_⟩
  · intro y hy
    simp only [halfFiles, List.mem_cons, List.not_mem_nil, or_false] at hy
    rcases hy with rfl | rfl <;> exact ⟨rfl, rfl, rfl⟩
  · -- first the package inside of `P`, then `P` itself
    let R1 := pkgOf "R" [.node k!"ELEMENTS" [] [] [unitM]]
    let R2 := pkgOf "R" [.node k!"ELEMENTS" [] [] [wholeFile.unitS]]
    let P' := pkgOf "P" [txt k!"CATEGORY" "X", .node k!"AR-PACKAGES" [] [] [R1, R2], .node k!"ELEMENTS" [] [] [unitM, wholeFile.unitS]]
    have h1 : Divide [pkgOf "P" [txt k!"CATEGORY" "X", .node k!"AR-PACKAGES" [] [] [pkgOf "R" [.node k!"ELEMENTS" [] [] [unitM, wholeFile.unitS]]],
        .node k!"ELEMENTS" [] [] [unitM, wholeFile.unitS]]] [P'] := by
      refine .inside ⟨rfl, rfl, rfl⟩ ?_ ?_
      · intro t ht hne
        simp only [packageLists, List.mem_cons, List.not_mem_nil, or_false] at ht
        rcases ht with rfl | rfl | rfl | rfl
        · exact absurd rfl hne
        all_goals rfl
      · refine .cut (ws := []) (x := R1) (y := R2) rfl ⟨⟨rfl, rfl, rfl⟩, ⟨rfl, rfl, rfl⟩, ?_⟩ (by simp)
        intro t ht
        simp only [packageLists, List.mem_cons, List.not_mem_nil, or_false] at ht
        rcases ht with rfl | rfl | rfl | rfl <;> rfl
    refine .trans (qs := [P', pkgOf "Q" []]) (.app h1 (.same [pkgOf "Q" []])) ?_
    · refine .cut (ws := [pkgOf "Q" []]) rfl ⟨⟨rfl, rfl, rfl⟩, ⟨rfl, rfl, rfl⟩, ?_⟩ ?_
      · intro t ht
        simp only [packageLists, List.mem_cons, List.not_mem_nil, or_false] at ht
        rcases ht with rfl | rfl | rfl | rfl <;> rfl
      · intro w hw
        rw [List.mem_singleton] at hw
        subst hw
        decide +kernel

/-- They can be loaded, and give the same document, with two units in `P` and in the package inside of it. -/
example (py : Py) : ∃ d, loadInto py true (newDoc py) wholeFile = .ok d ∧ loadAll py true (newDoc py) halfFiles = .ok d ∧
    ((objectAt d [(.package, "P".toList)]).map fun o => ((held o .element).length, (o.get k!"category").length)) = some (2, 1) ∧
    ((objectAt d [(.package, "P".toList), (.package, "R".toList)]).map fun o => (held o .element).length) = some 2 := by
  refine ⟨_, by rfl, (C83_divided_partial py true _ _ halfFiles_divided _ _).2 (by rfl), by rfl, by rfl⟩

/-! ## What is missing -/

/-- the category of `P` is written in the first file only -/
def onceFiles : List Xml := [fileOf [pkgOf "P" [txt k!"CATEGORY" "X", .node k!"ELEMENTS" [] [] [unitM]]], fileOf [pkgOf "P" [.node k!"ELEMENTS" [] [] [wholeFile.unitS]]]]

/-- the same in one file -/
def onceFile : Xml := fileOf [pkgOf "P" [txt k!"CATEGORY" "X", .node k!"ELEMENTS" [] [] [unitM, wholeFile.unitS]]]

/-- **C83** fails for divisions in which what is written about a package is not repeated: the second file erases the category of the package. -/
theorem C83_broken (py : Py) : ∃ d e, loadAll py true (newDoc py) onceFiles = .ok d ∧ loadInto py true (newDoc py) onceFile = .ok e ∧
    ((objectAt d [(.package, "P".toList)]).map fun o => (o.get k!"category").length) = some 0 ∧
    ((objectAt e [(.package, "P".toList)]).map fun o => (o.get k!"category").length) = some 1 := by
  exact ⟨_, _, by rfl, by rfl, by rfl, by rfl⟩

end Verif.Props
