import Verif.Lemmas.ChangeStep
import Verif.Props.Program
/-!
# Property C94: a change of one object changes only its place in the file
-/
namespace Verif.Props
open Verif Verif.Model Verif.Spec Verif.Lemmas

/-- **C94** If an object in a document is changed in any way, but for its class and its short name, only what is written for this object changes
in the file: everything around it, in the same order, is the same (`Replaced`).  The elements in the other place are what the same method writes
for the changed object (`Pieces`). -/
theorem C94_change (py : Py) (repr : py.F → Str) (strict : Bool) (c : Key) (fs fs' : List ((Key × Bool) × List (MObj py.F)))
    (hn : (MObj.mk c fs).name = (MObj.mk c fs').name) (d d' : MObj py.F) (h : Swapped (.mk c fs) (.mk c fs') d d') (hd : d ≠ .mk c fs) (y y' : Xml)
    (h1 : save py repr strict d = .ok y) (h2 : save py repr strict d' = .ok y') :
    Replaced (Pieces py repr strict (.mk c fs) (.mk c fs')) [y] [y'] := save_swapped hn h hd h1 h2

/-- **C94** One call of a method of an object anywhere in a document (setting, adding, creating, removing) changes, in the file, only what is
written for this object. -/
theorem C94_call (py : Py) (repr : py.F → Str) (strict : Bool) (d d' : MObj py.F) (hs : Step readers k!"load" d d') (y y' : Xml)
    (h1 : save py repr strict d = .ok y) (h2 : save py repr strict d' = .ok y') :
    y = y' ∨ ∃ v x, (∃ k b, readers k = some b ∧ Fitting readers b v x) ∧ Swapped v (x.run py readers v) d d' ∧
      (v = d ∨ Replaced (Pieces py repr strict v (x.run py readers v)) [y] [y']) := by
  rcases step_swap (fun k b hb => readers_neat hb) hs with rfl | ⟨c, fs, fs', x, hx, hn, hf, hw⟩
  · rw [h1] at h2; cases h2; exact .inl rfl
  · refine .inr ⟨.mk c fs, x, hf, hx ▸ hw, ?_⟩
    by_cases hd : d = .mk c fs
    · exact .inl hd.symm
    · exact .inr (hx ▸ C94_change py repr strict c fs fs' hn d d' hw hd y y' h1 h2)

/-! ## Examples -/

/-- the text at a place in a file -/
def textAt : List Nat → Xml → Str
  | [], x => x.text
  | i :: p, x => match x.kids[i]? with
    | none => []
    | some y => textAt p y

/-- `setDisplayName` on the unit of a file that was loaded: another text is written in one place, and what is written for the unit is all that
changes. -/
example (py : Py) (repr : py.F → Str) : ∃ d d' y y' v v', load py true fileA = .ok d ∧ Step readers k!"load" d d' ∧
    save py repr true d = .ok y ∧ save py repr true d' = .ok y' ∧
    textAt [0, 0, 3, 0, 1] y = "metre".toList ∧ textAt [0, 0, 3, 0, 1] y' = "m".toList ∧
    v.cls = k!"Unit" ∧ Swapped v v' d d' ∧ Replaced (Pieces py repr true v v') [y] [y'] := by
  let x : Deed py.F := .set (k!"displayName", false) (.scal (.lit none none "m".toList))
  have hx : ∃ ds ps us us' d' y y', load py true fileA = .ok (.mk k!"AUTOSAR" ds) ∧
      callB readers [((k!"arPackages", false), 0), ((k!"elements", true), 0)] x k!"load" (.mk k!"AUTOSAR" ds) = some d' ∧
      (valsAt (k!"arPackages", false) ds)[0]? = some (.mk k!"ARPackage" ps) ∧ (valsAt (k!"elements", true) ps)[0]? = some (.mk k!"Unit" us) ∧
      (MObj.mk k!"Unit" us).name = (MObj.mk k!"Unit" us').name ∧
      MObj.mk k!"AUTOSAR" (changeAt (k!"arPackages", false) (fun vs => vs.set 0 (.mk k!"ARPackage" (changeAt (k!"elements", true)
        (fun vs => vs.set 0 (.mk k!"Unit" us')) ps))) ds) = d' ∧
      save py repr true (.mk k!"AUTOSAR" ds) = .ok y ∧ save py repr true d' = .ok y' ∧
      textAt [0, 0, 3, 0, 1] y = "metre".toList ∧ textAt [0, 0, 3, 0, 1] y' = "m".toList := by
    refine ⟨_, _, _, _, _, _, _, by rfl, by rfl, by rfl, by rfl, ?_, by rfl, by rfl, by rfl, by decide +kernel, by decide +kernel⟩
    rfl
  obtain ⟨ds, ps, us, us', d', y, y', hl, hc, hp, hu, hn, hd', h1, h2, h3, h4⟩ := hx
  have hs : Swapped (.mk k!"Unit" us) (.mk k!"Unit" us') (.mk k!"AUTOSAR" ds) d' :=
    hd' ▸ .inside _ _ _ (sw_changeAt (.inside _ _ _ (sw_changeAt .here hu)) hp)
  exact ⟨_, d', y, y', .mk k!"Unit" us, .mk k!"Unit" us', hl, callB_sound hc, h1, h2, h3, h4, rfl, hs,
    C94_change py repr true _ us us' hn _ d' hs (fun h => by simp at h) y y' h1 h2⟩

end Verif.Props
