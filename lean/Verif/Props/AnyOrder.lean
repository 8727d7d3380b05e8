import Verif.Lemmas.AnyOrder
import Verif.Props.Program
import Verif.Props.Numbers
/-!
# C90: which documents are saved as the same file
-/
namespace Verif.Props
open Verif Verif.Model Verif.Spec Verif.Lemmas

/-- **C90** The order in which packages, and the other objects listed in `freeOrder`, were created or added does not matter: saving yields the same, be it a
tree or an exception.  Whatever the documents are. -/
theorem C90_order (py : Py) (repr : py.F → Str) (strict : Bool) (d d' : MObj py.F) (h : SameButOrder d d') :
    save py repr strict d' = save py repr strict d := save_sameButOrder h

/-- **C90** Conversely, two documents that programs have built and that are saved as the same tree are the same but for this order: they are loaded as the same
document.  (What is missing: the attributes in `Spec/Defects.lean`, which can be lost.) -/
theorem C90_apart_partial (py : Py) (repr : py.F → Str) (strict : Bool) (d e : MObj py.F) (hd : History py d) (he : History py e)
    (md : Complete readers strict invariants k!"load" d) (me : Complete readers strict invariants k!"load" e) (cd : Clean lossy strict d)
    (ce : Clean lossy strict e) (h : save py repr strict d = save py repr strict e) :
    ∃ y d', save py repr strict d = .ok y ∧ (∀ y', Reload y y' → load py strict y' = .ok d') ∧ Same reordered (withSchema py d) d' ∧
      Same reordered (withSchema py e) d' := by
  obtain ⟨y, d', h1, h2, h3, _⟩ := C85_program_partial py repr strict d hd md cd
  obtain ⟨z, e', g1, g2, g3, _⟩ := C85_program_partial py repr strict e he me ce
  rw [h, g1] at h1
  cases h1
  have hr := reload_refl y
  have := (h2 y hr).symm.trans (g2 y hr)
  cases this
  exact ⟨y, d', h.trans g1, h2, h3, g3⟩

/-- what two documents have in common if each is the same as a third one -/
theorem found_same (py : Py) {d e d' : MObj py.F} (hd : ∃ n strict, Shaped strict readers invariants n k!"load" d)
    (he : ∃ n strict, Shaped strict readers invariants n k!"load" e)
    (h1 : Same reordered (withSchema py d) d') (h2 : Same reordered (withSchema py e) d') (p : List Str) (hp : p ≠ []) :
    (findIn p d = none ↔ findIn p e = none) ∧ ∀ v w, findIn p d = some v → findIn p e = some w → w.cls = v.cls ∧
      ∀ f, (w.get f).length = (v.get f).length ∧ ∀ s, v.get f = [.scal s] → w.get f = [.scal s] := by
  obtain ⟨n, _, hd⟩ := hd
  obtain ⟨m, _, he⟩ := he
  have g1 := same_findIn reordered_name p h1
  have g2 := same_findIn reordered_name p h2
  rw [findIn_schema (shaped_schema hd) hp] at g1
  rw [findIn_schema (shaped_schema he) hp] at g2
  generalize findIn p d' = r at g1 g2
  generalize findIn p d = a at g1
  generalize findIn p e = b at g2
  cases g1 with
  | none =>
    cases g2
    exact ⟨⟨fun _ => rfl, fun _ => rfl⟩, fun v w h => by cases h⟩
  | some v u hv =>
    cases g2 with
    | some w _ hw =>
      refine ⟨⟨fun h => (by cases h), fun h => (by cases h)⟩, fun v' w' h h' => ?_⟩
      cases h
      cases h'
      refine ⟨by rw [← same_cls hv, ← same_cls hw], fun f => ⟨by rw [same_get hv f, same_get hw f], fun s hs => ?_⟩⟩
      obtain ⟨x, hx, hs'⟩ := same_value hv hs
      cases hs'
      have hl := same_get hw f
      rw [hx] at hl
      match hg : w.get f, hl with
      | [z], _ =>
        obtain ⟨x', hx', hz⟩ := same_value hw hg
        rw [hx] at hx'
        cases hx'
        cases hz
        rfl

/-- **C90** In terms of files: if two documents that programs have built are saved as the same text, then every path that finds nothing in the one finds nothing
in the other, and what it finds are objects of the same class with the same values in all attributes that hold one value, and as many values in all others.
So whoever changes a name, a class or a value of a document gets another file.  (Missing, again: `Spec/Defects.lean`; and texts that pretty printing changes,
see C32.) -/
theorem C90_file_partial (py : Py) (repr : py.F → Str) (strict : Bool) (nc : NameChars) (d e : MObj py.F) (hd : History py d) (he : History py e)
    (md : Complete readers strict invariants k!"load" d) (me : Complete readers strict invariants k!"load" e) (cd : Clean lossy strict d)
    (ce : Clean lossy strict e) (wd : ∀ y, save py repr strict d = .ok y → Every GoodChars y ∧ Every Smooth y)
    (we : ∀ y, save py repr strict e = .ok y → Every GoodChars y ∧ Every Smooth y)
    (h : ∀ y z, save py repr strict d = .ok y → save py repr strict e = .ok z → saveToFile py nc false y = saveToFile py nc false z)
    (p : List Str) (hp : p ≠ []) :
    (findIn p d = none ↔ findIn p e = none) ∧ ∀ v w, findIn p d = some v → findIn p e = some w → w.cls = v.cls ∧
      ∀ f, (w.get f).length = (v.get f).length ∧ ∀ s, v.get f = [.scal s] → w.get f = [.scal s] := by
  obtain ⟨y, t, x, d', h1, h2, h3, h4, h5, _⟩ := C85_file_partial py repr strict nc d hd md cd wd
  obtain ⟨z, t', x', e', g1, g2, g3, g4, g5, _⟩ := C85_file_partial py repr strict nc e he me ce we
  have := h y z h1 g1
  rw [h2, g2] at this
  cases this
  rw [h3] at g3
  cases g3
  rw [h4] at g4
  cases g4
  obtain ⟨n, sd⟩ := (C85_shaped py strict d).2 ⟨C85_typed py d hd, md⟩
  obtain ⟨m, se⟩ := (C85_shaped py strict e).2 ⟨C85_typed py e he, me⟩
  exact found_same py ⟨n, strict, sd⟩ ⟨m, strict, se⟩ h5 g5 p hp

/-! ## The hypotheses hold -/

/-- packages, in the given order, each with a unit -/
def packagesDoc (F : Type) (ns : List Str) : MObj F := withFields k!"load" [(k!"arPackages", ns.map fun n => withFields k!"readARPackages_ARPackage"
  [(k!"short_name", [.scal (.str n)]), (k!"elements", [withFields k!"readARPackageElements_Unit" [(k!"short_name", [.scal (.str "m".toList)])]])])]

/-- two documents with three packages in different orders are different and the same but for the order; so they are saved as the same tree -/
example (py : Py) (repr : py.F → Str) (strict : Bool) :
    SameButOrder (packagesDoc py.F ["B".toList, "A".toList, "C".toList]) (packagesDoc py.F ["C".toList, "B".toList, "A".toList]) ∧
    ((packagesDoc py.F ["B".toList, "A".toList, "C".toList]).get k!"arPackages").map MObj.name ≠
      ((packagesDoc py.F ["C".toList, "B".toList, "A".toList]).get k!"arPackages").map MObj.name ∧
    ∃ y, save py repr strict (packagesDoc py.F ["B".toList, "A".toList, "C".toList]) = .ok y ∧
      save py repr strict (packagesDoc py.F ["C".toList, "B".toList, "A".toList]) = .ok y := by
  have hm : SameButOrder (packagesDoc py.F ["B".toList, "A".toList, "C".toList]) (packagesDoc py.F ["C".toList, "B".toList, "A".toList]) := by
    refine .single (Moved.here (c := k!"AUTOSAR") (a := (k!"arPackages", false)) (K := [k!"ARPackage"])
      (l := [((k!"schema_location", false), []), ((k!"adminData", false), [])]) (r := _) (vs := [_, _, _]) (vs' := [_, _, _]) (by decide +kernel) ?_ ?_ ?_)
    · intro v hv
      simp only [List.mem_cons, List.not_mem_nil, or_false] at hv
      rcases hv with rfl | rfl | rfl <;> exact List.mem_cons_self
    · show ["B".toList, "A".toList, "C".toList].Nodup
      decide
    · exact ((List.Perm.swap _ _ _).trans ((List.Perm.swap _ _ _).cons _)).symm
  have ha : ∃ y, save py repr strict (packagesDoc py.F ["B".toList, "A".toList, "C".toList]) = .ok y := by
    have hs : Shaped strict readers invariants 4 k!"load" (packagesDoc py.F ["B".toList, "A".toList, "C".toList]) ∧
        Clean lossy strict (packagesDoc py.F ["B".toList, "A".toList, "C".toList]) := by
      cases strict <;> exact ⟨fitsB_sound (by rfl), cleanB_sound _ (by rfl)⟩
    obtain ⟨y, _, hy, _⟩ := C63_built_partial py repr strict 4 _ hs.1 hs.2
    exact ⟨y, hy⟩
  obtain ⟨y, hy⟩ := ha
  have hne : ["B".toList, "A".toList, "C".toList] ≠ ["C".toList, "B".toList, "A".toList] := by decide
  exact ⟨hm, hne, y, hy, (C90_order py repr strict _ _ hm).trans hy⟩

/-- the hypotheses of `C90_file_partial` hold for the document of `Props/Built.lean` -/
example (strict : Bool) : History Py.demo (builtDoc Py.demo.F) ∧ Complete readers strict invariants k!"load" (builtDoc Py.demo.F) ∧
    Clean lossy strict (builtDoc Py.demo.F) := by
  obtain ⟨h1, h2⟩ : (∃ n, Shaped strict readers invariants n k!"load" (builtDoc Py.demo.F)) ∧ Clean lossy strict (builtDoc Py.demo.F) := by
    cases strict
    · exact ⟨⟨4, fitsB_sound (by rfl)⟩, cleanB_sound _ (by rfl)⟩
    · exact ⟨⟨4, fitsB_sound (by rfl)⟩, cleanB_sound _ (by rfl)⟩
  exact ⟨builtDoc_history _, ((C85_shaped _ _ _).1 h1).2, h2⟩

end Verif.Props
