import Verif.Lemmas.Writable
import Verif.Props.Saving
/-!
# Property C93: which documents can be saved
-/
namespace Verif.Props
open Verif Verif.Model Verif.Spec Verif.Lemmas

/-- **C93** A document (whatever objects it consists of) is saved if and only if every object that is written can be written by itself: its
values are of classes the writer can deal with, it has no object that no branch of the writer takes (in strict mode), and no statement that
raises an exception is reached (`Spec/Writable`).  So nothing about the rest of the document makes a difference.  (`withSchema` is the document
with the schema location that is written.) -/
theorem C93_saved (py : Py) (repr : py.F → Str) (strict : Bool) (d : MObj py.F) :
    (∃ y, save py repr strict d = .ok y) ↔
      ∀ k v b, Writes writers k!"save" (withSchema py d) k v → writers k = some b → ¬ Fault strict v b := by
  constructor
  · rintro ⟨y, h⟩ k v b hv hb
    unfold save at h
    split at h
    · cases h
    · rename_i out hw
      obtain ⟨m, r, hr⟩ := write_visited hv hw
      exact no_fault hb hr
  · intro h
    obtain ⟨out, hw⟩ := write_of_fine (repr := repr) (Nat.le_refl _) (by rfl) h
    obtain ⟨x, hx⟩ := save_root hw
    exact ⟨x, by simp only [save, hw, hx]⟩

/-- **C93** One object with something wrong is enough: nothing is saved. -/
theorem C93_rejected (py : Py) (repr : py.F → Str) (strict : Bool) (d : MObj py.F) (k : Key) (v : MObj py.F) (b : WB)
    (hv : Writes writers k!"save" (withSchema py d) k v) (hb : writers k = some b) (hf : Fault strict v b) :
    ∃ e, save py repr strict d = .error e := by
  cases h : save py repr strict d with
  | error e => exact ⟨e, rfl⟩
  | ok y => exact absurd hf ((C93_saved py repr strict d).1 ⟨y, h⟩ k v b hv hb)

/-! ## Examples -/

/-- A document that is saved (a package with an annotation and a unit), so nothing is wrong with any object in it. -/
example (py : Py) (repr : py.F → Str) : ∃ d, load py true fileA = .ok d ∧ (∃ y, save py repr true d = .ok y) ∧
    ∀ k v b, Writes writers k!"save" (withSchema py d) k v → writers k = some b → ¬ Fault true v b := by
  obtain ⟨d, h, y, hs⟩ : ∃ d, load py true fileA = .ok d ∧ ∃ y, save py repr true d = .ok y := ⟨_, by rfl, _, by rfl⟩
  exact ⟨d, h, ⟨y, hs⟩, (C93_saved py repr true d).1 ⟨y, hs⟩⟩

/-- The document with a mode switch point without a mode group is not saved, and an object in it is to blame. -/
example (py : Py) (repr : py.F → Str) (strict : Bool) : ∃ d, load py strict pointFile = .ok d ∧
    ∃ k v b, Writes writers k!"save" (withSchema py d) k v ∧ writers k = some b ∧ Fault strict v b := by
  obtain ⟨d, h, hs⟩ := C91_broken py repr strict
  refine ⟨d, h, ?_⟩
  by_contra hn
  push Not at hn
  obtain ⟨y, hy⟩ := (C93_saved py repr strict d).2 hn
  rw [hs] at hy; cases hy

/-- With a value collection it depends on the mode. -/
example (py : Py) (repr : py.F → Str) : ∃ d, load py true valuesFile = .ok d ∧
    (∃ k v b, Writes writers k!"save" (withSchema py d) k v ∧ writers k = some b ∧ Fault true v b) ∧
    ∀ k v b, Writes writers k!"save" (withSchema py d) k v → writers k = some b → ¬ Fault false v b := by
  obtain ⟨d, h, hs, y, hy⟩ := C91_strict_broken py repr
  refine ⟨d, h, ?_, (C93_saved py repr false d).1 ⟨y, hy⟩⟩
  by_contra hn
  push Not at hn
  obtain ⟨y, hy⟩ := (C93_saved py repr true d).2 hn
  rw [hs] at hy; cases hy

end Verif.Props
