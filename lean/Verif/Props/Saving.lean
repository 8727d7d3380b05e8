import Verif.Lemmas.SavingMain
import Verif.Spec.ComSpec
import Verif.Props.Program
/-!
# C91: what can be saved
-/
namespace Verif.Props
open Verif Verif.Model Verif.Spec Verif.Lemmas

section
variable {py : Py} {strict : Bool}

theorem stop_within {o v : MObj py.F} (h : Clean stopsOf strict o) (hv : Within o v) : ∀ m ∈ stopsOf v.cls, m.ok strict v := by
  induction hv with
  | here o => exact stop_needs h stopsOf_zero
  | inside e he hv _ ih =>
    cases h with
    | scal s => cases he
    | mk c fs hn hk => exact ih (hk e he _ hv)

theorem loadAll_history {xs : List Xml} {d : MObj py.F} (h : loadAll py strict (newDoc py) xs = .ok d) : History py d := by
  have key : ∀ (xs : List Xml) (d d' : MObj py.F), History py d → loadAll py strict d xs = .ok d' → History py d' := by
    intro xs
    induction xs with
    | nil => intro d d' hd h; cases h; exact hd
    | cons x xs ih =>
      intro d d' hd h
      simp only [loadAll, foldE] at h
      split at h
      next => cases h
      next d1 h1 => exact ih d1 d' (.load hd h1) h
  exact key xs _ d .new h

/-- the conditions hold if they hold for every object -/
theorem clean_within {D : Key → List Need} (n : Nat) : ∀ o : MObj py.F, o.depth ≤ n → (∀ v, Within o v → ∀ m ∈ D v.cls, m.ok strict v) → Clean D strict o := by
  induction n with
  | zero => intro o hd; exact absurd (mdepth_pos o) (by omega)
  | succ n ih =>
    intro o hd h
    cases o with
    | scal s => exact .scal s
    | mk c fs =>
      refine .mk c fs (h _ (.here _)) fun e he v hv => ih v ?_ fun w hw => h w (.inside e he hv hw)
      have h1 : v ∈ (MObj.mk c fs).get e.1.1 := List.mem_flatMap.2 ⟨e, he, by rw [if_pos (by simp [hits])]; exact hv⟩
      have := depth_get h1
      omega

theorem save_root {repr : py.F → Str} {n : Nat} {o : MObj py.F} {out : Out} (h : writeObj py repr strict writers n k!"save" o = .ok out) : ∃ x, out.kids = [x] := by
  cases n with
  | zero => cases h
  | succ n =>
    change seqE ((writeB py repr strict (writeObj py repr strict writers n) o _).map _) (.ok {}) = .ok out at h
    revert h
    generalize writeB py repr strict (writeObj py repr strict writers n) o _ = r
    intro h
    cases r with
    | error e => cases h
    | ok a => cases h; exact ⟨_, rfl⟩

/-- **C91** Whatever a program did with a document, if `save` raises an exception then it is `AttributeError` or, without warnings,
`NotImplementedError`, and some object in the document is one of those that `stops` lists. -/
theorem C91_errors (py : Py) (repr : py.F → Str) (strict : Bool) (d : MObj py.F) (h : History py d) (e : PyErr) (he : save py repr strict d = .error e) :
    e ∈ stopErrors strict ∧ ∃ v, Within d v ∧ ∃ m ∈ stopsOf v.cls, ¬ m.ok strict v := by
  have ht := history_typed h
  have hcls : d.cls = k!"AUTOSAR" := (held_typed (b := loadBody) rfl ht).1
  have key : e ∈ stopErrors strict ∧ ¬ Clean stopsOf strict (withSchema py d) := by
    unfold save at he
    split at he
    next e' hw =>
      cases he
      exact writeObj_stops _ k!"load" _ _ _ loadBody (Nat.le_refl _) rfl ((withSchema_cls d).trans hcls) (held_schema ht) (by decide) hw
    next out hw =>
      obtain ⟨x, hx⟩ := save_root hw
      rw [hx] at he
      cases he
  refine ⟨key.1, ?_⟩
  by_contra hn
  refine key.2 (withSchema_clean (by decide) hcls (clean_within _ d (Nat.le_refl _) fun v hv m hm => ?_))
  by_contra hm'
  exact hn ⟨v, hv, m, hm, hm'⟩

/-- **C91** Whatever a program did with a document, it can be saved, unless it has one of the objects that `stops` lists.  (What is missing: those should be
saved too, see `C91_broken`, `C91_strict_broken`.) -/
theorem C91_saved_partial (py : Py) (repr : py.F → Str) (strict : Bool) (d : MObj py.F) (h : History py d) (hc : Clean stopsOf strict d) :
    ∃ y, save py repr strict d = .ok y := by
  cases hs : save py repr strict d with
  | ok y => exact ⟨y, rfl⟩
  | error e =>
    obtain ⟨_, v, hv, m, hm, hn⟩ := C91_errors py repr strict d h e hs
    exact absurd (stop_within hc hv m hm) hn

/-- **C91** With warnings, a document that was loaded from files is saved, unless it has a mode switch point that does not say which mode group it is
about. -/
theorem C91_loaded_partial (py : Py) (repr : py.F → Str) (strict : Bool) (xs : List Xml) (d : MObj py.F) (h : loadAll py strict (newDoc py) xs = .ok d)
    (hm : ∀ v, Within d v → v.cls = k!"ModeSwitchPoint" → v.get k!"modeGroupIRef" ≠ []) : ∃ y, save py repr false d = .ok y := by
  cases hs : save py repr false d with
  | ok y => exact ⟨y, rfl⟩
  | error e =>
    exfalso
    obtain ⟨N, hN⟩ := loadAll_fits h blank_fits
    obtain ⟨_, v, hv, m, hmem, hn⟩ := C91_errors py repr false d (loadAll_history h) e hs
    obtain ⟨⟨c, m'⟩, hc, rfl⟩ := List.mem_map.1 hmem
    obtain ⟨hc, hcls⟩ := List.mem_filter.1 hc
    have hcv : v.cls = c := (beq_iff_eq.1 hcls).symm
    simp only [stops, List.mem_cons, Prod.mk.injEq, List.not_mem_nil, or_false] at hc
    rcases hc with ⟨h1, rfl⟩ | ⟨h1, rfl⟩ | ⟨h1, rfl⟩ | ⟨h1, rfl⟩ | ⟨h1, rfl⟩ | ⟨h1, rfl⟩ | ⟨h1, rfl⟩ | ⟨h1, rfl⟩ | ⟨h1, rfl⟩ | ⟨h1, rfl⟩ | ⟨h1, rfl⟩ |
      ⟨h1, rfl⟩ | ⟨h1, rfl⟩
    · exact no_literals hN hv (hcv.trans h1)
    · exact hn ⟨_, List.mem_singleton.2 rfl, hm v hv (hcv.trans h1)⟩
    all_goals exact hn fun h => nomatch h

end

/-! ## What cannot be saved -/

/-- an application component with a runnable entity with a mode switch point that has nothing but a name -/
def pointFile : Xml := fileOf [pkgOf "P" [.node k!"ELEMENTS" [] [] [.node k!"APPLICATION-SW-COMPONENT-TYPE" [] [] [txt k!"SHORT-NAME" "C",
  .node k!"INTERNAL-BEHAVIORS" [] [] [.node k!"SWC-INTERNAL-BEHAVIOR" [] [] [txt k!"SHORT-NAME" "B",
    .node k!"RUNNABLES" [] [] [.node k!"RUNNABLE-ENTITY" [] [] [txt k!"SHORT-NAME" "R",
      .node k!"MODE-SWITCH-POINTS" [] [] [.node k!"MODE-SWITCH-POINT" [] [] [txt k!"SHORT-NAME" "S"]]]]]]]]]]

set_option maxRecDepth 20000 in
set_option maxHeartbeats 2000000 in
/-- **C91 fails** `MODE-GROUP-IREF` is optional.  A file in which it is missing is loaded, in either mode and without a warning, and cannot be saved. -/
theorem C91_broken (py : Py) (repr : py.F → Str) (strict : Bool) :
    ∃ d, load py strict pointFile = .ok d ∧ save py repr strict d = .error .attributeError := by
  cases strict <;> exact ⟨_, by rfl, by rfl⟩

/-- a package with a value collection -/
def valuesFile : Xml := fileOf [pkgOf "P" [.node k!"ELEMENTS" [] [] [.node k!"ECUC-VALUE-COLLECTION" [] [] [txt k!"SHORT-NAME" "C"]]]]

/-- **C91 fails** A package with an ECU configuration is loaded without warnings and cannot be saved without them. -/
theorem C91_strict_broken (py : Py) (repr : py.F → Str) :
    ∃ d, load py true valuesFile = .ok d ∧ save py repr true d = .error .notImplemented ∧ ∃ y, save py repr false d = .ok y :=
  ⟨_, by rfl, by rfl, _, by rfl⟩

/-! ## The hypotheses can be met -/

/-- a document with something that is lost when it is saved, though it is saved -/
example (py : Py) (repr : py.F → Str) : ∃ d y d', load py false valuesFile = .ok d ∧ History py d ∧ Clean stopsOf false d ∧ save py repr false d = .ok y ∧
    load py false y = .ok d' ∧ (findIn ["P".toList, "C".toList] d).isSome = true ∧ (findIn ["P".toList, "C".toList] d').isSome = false :=
  ⟨_, _, _, by rfl, .load .new (C39_new py false valuesFile _ (by rfl)), cleanB_sound _ (by rfl), by rfl, by rfl, by rfl, by rfl⟩

/-- two files are loaded, and the document is saved -/
example (py : Py) (repr : py.F → Str) : ∃ d y, loadAll py true (newDoc py) [fileA, fileB] = .ok d ∧ save py repr false d = .ok y := by
  have h : ∃ d, loadAll py true (newDoc py) [fileA, fileB] = .ok d ∧ Clean stopsOf false d := ⟨_, by rfl, cleanB_sound _ (by rfl)⟩
  obtain ⟨d, hd, hc⟩ := h
  obtain ⟨y, hy⟩ := C91_loaded_partial py repr true _ d hd fun v hv hcls => by
    obtain ⟨f, hf, h⟩ := stop_within hc hv (.oneOf [k!"modeGroupIRef"]) (by rw [hcls]; decide)
    rw [List.mem_singleton.1 hf] at h
    exact h
  exact ⟨d, y, hd, hy⟩

end Verif.Props
