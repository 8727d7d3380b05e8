import Verif.Lemmas.Define
import Verif.Props.Load
/-!
# Property C82: what becomes of an element depends on its definitions alone

A package or an element may be written several times, in several files or in one, and other things are written around it.  What
loading makes of it depends on nothing but what was there under its path before, and on its definitions (`Spec/Define`) in their
order.  Unlike in C39 nothing is assumed about the single files: one that contains the same element twice is covered.
-/
namespace Verif.Props
open Verif Verif.Model Verif.Spec Verif.Lemmas

/-- **C82** Loading a file makes, of what a path leads to, what reading the definitions of it into it makes, one after the other; in particular
reading them raises no exception. -/
theorem C82_file (py : Py) (strict : Bool) (d d' : MObj py.F) (x : Xml) (h : loadInto py strict d x = .ok d') (p : List (Role × Str)) :
    readAll py strict (objectAt d p) (definitions k!"load" x p) = .ok (objectAt d' p) := load_at h p

/-- **C82** Loading several files does so with all the definitions in them. -/
theorem C82_files (py : Py) (strict : Bool) (d d' : MObj py.F) (xs : List Xml) (h : loadAll py strict d xs = .ok d') (p : List (Role × Str)) :
    readAll py strict (objectAt d p) (xs.flatMap fun x => definitions k!"load" x p) = .ok (objectAt d' p) := loads_at h p

/-- **C82** So, if the same was there before and the definitions are the same, the result is the same: whatever else is in the files, and
however the definitions are distributed over files, or over several packages of the same name in a file. -/
theorem C82_independent (py : Py) (strict : Bool) (d d' e e' : MObj py.F) (xs ys : List Xml) (hx : loadAll py strict d xs = .ok d')
    (hy : loadAll py strict e ys = .ok e') (p : List (Role × Str)) (ho : objectAt d p = objectAt e p)
    (hd : (xs.flatMap fun x => definitions k!"load" x p) = ys.flatMap fun y => definitions k!"load" y p) : objectAt d' p = objectAt e' p := by
  have h1 := loads_at hx p
  have h2 := loads_at hy p
  rw [ho, hd, h2] at h1
  exact (Except.ok.inj h1).symm

/-- **C82** What is not defined in the files is as it was. -/
theorem C82_untouched (py : Py) (strict : Bool) (d d' : MObj py.F) (xs : List Xml) (h : loadAll py strict d xs = .ok d') (p : List (Role × Str))
    (hp : ∀ x ∈ xs, definitions k!"load" x p = []) : objectAt d' p = objectAt d p := by
  have h1 := loads_at h p
  rw [List.flatMap_eq_nil_iff.2 hp] at h1
  exact (Except.ok.inj h1).symm

/-- **C82** A path leads somewhere in the result if it did before or there is a definition in one of the files. -/
theorem C82_exists (py : Py) (strict : Bool) (d d' : MObj py.F) (xs : List Xml) (h : loadAll py strict d xs = .ok d') (p : List (Role × Str)) :
    (objectAt d' p).isSome = true ↔ (objectAt d p).isSome = true ∨ ∃ x ∈ xs, definitions k!"load" x p ≠ [] := by
  rw [readAll_some (loads_at h p)]
  simp [List.flatMap_eq_nil_iff]

private theorem flatMap_perm {α β : Type} (f : α → List β) {l r : List α} (h : l.Perm r) (hf : ∀ x ∈ l, ∀ y ∈ l, f x ≠ [] → f y ≠ [] → x = y) : l.flatMap f = r.flatMap f := by
  induction h with
  | nil => rfl
  | cons a _ ih => rw [List.flatMap_cons, List.flatMap_cons, ih fun x hx y hy => hf x (by simp [hx]) y (by simp [hy])]
  | swap a b l =>
    simp only [List.flatMap_cons, ← List.append_assoc]
    congr 1
    by_cases ha : f a = []
    · simp [ha]
    by_cases hb : f b = []
    · simp [hb]
    rw [hf a (by simp) b (by simp) ha hb]
  | trans h1 _ ih1 ih2 => exact (ih1 hf).trans (ih2 fun x hx y hy => hf x (h1.mem_iff.2 hx) y (h1.mem_iff.2 hy))

/-- **C82** In particular the order of the files does not matter for what is defined in one of them only. -/
theorem C82_order (py : Py) (strict : Bool) (d d' e' : MObj py.F) (xs ys : List Xml) (hx : loadAll py strict d xs = .ok d')
    (hy : loadAll py strict d ys = .ok e') (hp : xs.Perm ys) (p : List (Role × Str))
    (h1 : ∀ x ∈ xs, ∀ y ∈ xs, definitions k!"load" x p ≠ [] → definitions k!"load" y p ≠ [] → x = y) : objectAt d' p = objectAt e' p :=
  C82_independent py strict d d' d e' xs ys hx hy p rfl (flatMap_perm _ hp h1)

/-! ## Which elements of the file are definitions -/

private theorem filterMap_single (l : List Xml) (n : Str) (k : Key) (ht : ∀ y ∈ l, y.tag = k!"AR-PACKAGE") :
    (l.filterMap fun y => if elemName y = n then (altOf [(k!"AR-PACKAGE", k)] y.tag).map fun k => (k, y) else none) =
      (l.filter fun z => elemName z == n).map fun z => (k, z) := by
  induction l with
  | nil => rfl
  | cons y l ih =>
    have hy := ht y (by simp)
    have hl := ih fun z hz => ht z (by simp [hz])
    rw [List.filterMap_cons, List.filter_cons, hl]
    by_cases he : elemName y = n <;> simp [he, altOf, hy]

private theorem tagIs_eq (t : Key) (ht : (t == 0) = false) : tagIs t = fun z => z.tag == t := by
  funext z
  unfold tagIs
  rw [ht]
  rfl

private theorem select_packages (x : Xml) : select (.all k!"AR-PACKAGES" (.all k!"AR-PACKAGE" .nil)) x =
    (x.kids.filter fun y => y.tag == k!"AR-PACKAGES").flatMap fun y => y.kids.filter fun z => z.tag == k!"AR-PACKAGE" := by
  simp only [select, List.flatMap_singleton']
  rw [tagIs_eq k!"AR-PACKAGES" (by decide +kernel), tagIs_eq k!"AR-PACKAGE" (by decide +kernel)]

private theorem defs_of (k : Key) (b : RBody) (hb : readers k = some b) (g : Role) (s : RSlot) (alts : List (Key × Key))
    (hs : b.slots.filter (fun s => hits g.attr s.key) = [s]) (hi : s.item = .objs alts) (x : Xml) (n : Str) : defsIn k x g n =
      (select s.path x).filterMap fun y => if elemName y = n then (altOf alts y.tag).map fun k => (k, y) else none := by
  have h : ∀ l : List RSlot, l.flatMap (slotDefs g.attr n x) = (l.filter fun s => hits g.attr s.key).flatMap (slotDefs g.attr n x) := by
    intro l
    induction l with
    | nil => rfl
    | cons a l ih =>
      rw [List.flatMap_cons, ih, List.filter_cons]
      split
      · rfl
      · rename_i ha
        rw [slotDefs, if_neg ha]
        rfl
  have h1 : hits g.attr s.key = true := by
    have : s ∈ b.slots.filter (fun s => hits g.attr s.key) := by rw [hs]; simp
    exact (List.mem_filter.1 this).2
  have e : defsIn k x g n = b.slots.flatMap (slotDefs g.attr n x) := by
    unfold defsIn
    rw [hb]
    rfl
  rw [e, h, hs, List.flatMap_singleton, slotDefs, if_pos h1, hi]
  rfl

/-- the slot for packages -/
private def packageSlot : RSlot :=
  { field := k!"arPackages", path := (.all k!"AR-PACKAGES" (.all k!"AR-PACKAGE" .nil)), item := (.objs [(k!"AR-PACKAGE", k!"readARPackages_ARPackage")]), named := true }

private theorem defs_package (k : Key) (b : RBody) (hb : readers k = some b) (hs : b.slots.filter (fun s => hits k!"arPackages" s.key) = [packageSlot])
    (x : Xml) (n : Str) : defsIn k x .package n = (packagesNamed n x).map fun z => (k!"readARPackages_ARPackage", z) := by
  rw [defs_of k b hb .package packageSlot _ hs rfl]
  rw [show packageSlot.path = .all k!"AR-PACKAGES" (.all k!"AR-PACKAGE" .nil) from rfl, filterMap_single _ _ _ ?_, select_packages]
  · rfl
  · rw [select_packages]
    intro y hy
    obtain ⟨z, _, hz⟩ := List.mem_flatMap.1 hy
    simpa using (List.mem_filter.1 hz).2

private theorem load_reader : readers k!"load" = some loadBody := by unfold readers; exact if_pos rfl

private theorem package_reader : ∃ b, readers k!"readARPackages_ARPackage" = some b ∧ b.slots.filter (fun s => hits k!"arPackages" s.key) = [packageSlot] ∧
    b.slots.filter (fun s => hits k!"elements" s.key) =
      [{ field := k!"elements", path := (.all k!"ELEMENTS" (.all 0 .nil)), item := .objs elementReaders, elems := true, named := true }] := by
  have h : ((readers k!"readARPackages_ARPackage").map fun b => (b.slots.filter (fun s => hits k!"arPackages" s.key), b.slots.filter (fun s => hits k!"elements" s.key))) =
      some ([packageSlot], [{ field := k!"elements", path := (.all k!"ELEMENTS" (.all 0 .nil)), item := .objs elementReaders, elems := true, named := true }]) := by
    decide +kernel
  obtain ⟨b, hb, h⟩ := Option.map_eq_some_iff.1 h
  exact ⟨b, hb, congrArg Prod.fst h, congrArg Prod.snd h⟩

private theorem packages_below (x : Xml) (ns : List Str) : definitions k!"readARPackages_ARPackage" x (ns.map fun n => (Role.package, n)) =
    (packagesAt x ns).map fun y => (k!"readARPackages_ARPackage", y) := by
  obtain ⟨b, hb, h1, _⟩ := package_reader
  induction ns generalizing x with
  | nil => rfl
  | cons n ns ih =>
    rw [List.map_cons, definitions, defs_package _ b hb h1, packagesAt, List.flatMap_map, List.map_flatMap]
    exact List.flatMap_congr fun y _ => ih y

/-- **C82** The definitions of a package are the `AR-PACKAGE` elements at its path (in packages of whatever place in the file), … -/
theorem C82_packages (x : Xml) (n : Str) (ns : List Str) : definitions k!"load" x ((n :: ns).map fun n => (Role.package, n)) =
    (packagesAt x (n :: ns)).map fun y => (k!"readARPackages_ARPackage", y) := by
  rw [List.map_cons, definitions, defs_package _ loadBody load_reader (by decide +kernel), packagesAt, List.flatMap_map, List.map_flatMap]
  exact List.flatMap_congr fun y _ => packages_below y ns

theorem definitions_append (k : Key) (x : Xml) (p q : List (Role × Str)) : definitions k x (p ++ q) = (definitions k x p).flatMap fun d => definitions d.1 d.2 q := by
  induction p generalizing k x with
  | nil => simp [definitions]
  | cons s p ih =>
    obtain ⟨g, n⟩ := s
    rw [List.cons_append, definitions, definitions, List.flatMap_assoc]
    exact List.flatMap_congr fun d _ => ih d.1 d.2

/-- **C82** … and those of an element of a package are the children with its name of the `ELEMENTS` there, as far as there is a method for them. -/
theorem C82_elements (x : Xml) (n : Str) (ns : List Str) (e : Str) :
    definitions k!"load" x ((n :: ns).map (fun n => (Role.package, n)) ++ [(Role.element, e)]) =
      ((packagesAt x (n :: ns)).flatMap (elementsNamed e)).filterMap fun z => (altOf elementReaders z.tag).map fun k => (k, z) := by
  obtain ⟨b, hb, _, h2⟩ := package_reader
  rw [definitions_append, C82_packages, List.flatMap_map, List.filterMap_flatMap]
  refine List.flatMap_congr fun y _ => ?_
  simp only [definitions]
  rw [defs_of _ b hb .element _ elementReaders h2 rfl]
  simp only [List.flatMap_singleton', select]
  have h1 : ∀ l : List Xml, l.filter (tagIs 0) = l := fun l => List.filter_eq_self.2 fun _ _ => rfl
  have h3 := (tagIs_eq k!"ELEMENTS" (by decide +kernel)).symm
  simp only [elementsNamed, h1, h3, List.filterMap_filter, beq_iff_eq]

/-- which these are, for instance; there are 97 -/
example : altOf elementReaders k!"UNIT" = some k!"readARPackageElements_Unit" ∧ altOf elementReaders k!"SYSTEM" = some k!"readARPackageElements_System" ∧
    altOf elementReaders k!"AR-PACKAGE" = none ∧ elementReaders.length = 97 := by decide +kernel

/-! ## Examples -/

/-- the unit `m` -/
def unitM : Xml := .node k!"UNIT" [] [] [txt k!"SHORT-NAME" "m", txt k!"DISPLAY-NAME" "metre"]

/-- more about the unit `m` -/
def unitM' : Xml := .node k!"UNIT" [] [] [txt k!"SHORT-NAME" "m", .node k!"DESC" [] [] [.node k!"L-2" [(k!"L", "EN".toList)] "length".toList []]]

/-- one file: the package `P` twice, with a definition of the unit `m` each, and something else between them -/
def splitFile : Xml := fileOf [pkgOf "P" [.node k!"ELEMENTS" [] [] [unitM]], pkgOf "Q" [],
  pkgOf "P" [txt k!"CATEGORY" "X", .node k!"ELEMENTS" [] [] [.node k!"UNIT" [] [] [txt k!"SHORT-NAME" "s"], unitM']]]

/-- two files with the two definitions and nothing else -/
def partFiles : List Xml := [fileOf [pkgOf "P" [.node k!"ELEMENTS" [] [] [unitM]]], fileOf [pkgOf "P" [.node k!"ELEMENTS" [] [] [unitM']]]]

/-- the path of the unit -/
def pathM : List (Role × Str) := [(.package, "P".toList), (.element, "m".toList)]

/-- The file and the two files can be loaded, and have the same definitions of the unit; so it is the same in both documents.  It has what
both definitions say. -/
example (py : Py) : ∃ d e, loadAll py true (newDoc py) [splitFile] = .ok d ∧ loadAll py true (newDoc py) partFiles = .ok e ∧
    (([splitFile] : List Xml).flatMap fun x => definitions k!"load" x pathM) = (partFiles.flatMap fun x => definitions k!"load" x pathM) ∧
    objectAt d pathM = objectAt e pathM ∧ ((objectAt d pathM).map fun o => (o.get k!"displayName").length) = some 1 ∧
    ((objectAt d pathM).map fun o => (o.get k!"desc").length) = some 1 ∧
    (objectAt d [(.package, "Q".toList)]).isSome = true ∧ (objectAt e [(.package, "Q".toList)]).isSome = false := by
  refine ⟨_, _, by rfl, by rfl, by rfl, ?_, by rfl, by rfl, by rfl, by rfl⟩
  exact C82_independent py true (newDoc py) _ (newDoc py) _ [splitFile] partFiles (by rfl) (by rfl) pathM (by rfl) (by rfl)

/-- the second file has the unit `s` in the same package instead -/
def twoFiles : List Xml := [fileOf [pkgOf "P" [.node k!"ELEMENTS" [] [] [unitM]]], fileOf [pkgOf "P" [.node k!"ELEMENTS" [] [] [.node k!"UNIT" [] [] [txt k!"SHORT-NAME" "s"]]]]]

/-- Two files that share a package, in either order: the unit, which is in one of them, is the same. -/
example (py : Py) : ∃ d e, loadAll py true (newDoc py) twoFiles = .ok d ∧ loadAll py true (newDoc py) twoFiles.reverse = .ok e ∧
    (objectAt d pathM).isSome = true ∧ objectAt d pathM = objectAt e pathM := by
  refine ⟨_, _, by rfl, by rfl, by rfl, C82_order py true (newDoc py) _ _ twoFiles twoFiles.reverse (by rfl) (by rfl) twoFiles.reverse_perm.symm pathM ?_⟩
  intro x hx y hy h1 h2
  simp only [twoFiles, List.mem_cons, List.not_mem_nil, or_false] at hx hy
  rcases hx with rfl | rfl <;> rcases hy with rfl | rfl
  · rfl
  · exact absurd (by rfl) h2
  · exact absurd (by rfl) h1
  · rfl

/-- `load` of the model of single files does not cover the first one -/
example (py : Py) : load py true splitFile = .error .outside := by rfl

end Verif.Props
