import Verif.Model.Chars
import Verif.Lemmas.ListTool
import Verif.Props.File
/-!
# C58: what `swc-list`, `system-signal` and `memory-section` list, in terms of the files
-/
namespace Verif.Props
open Verif Verif.Model Verif.Gen Verif.Spec Verif.Lemmas

theorem swc_tags : tagsRight k!"SwComponentType" swcTags = true := by decide +kernel
theorem composition_tags : tagsRight k!"CompositionSwComponentType" [k!"COMPOSITION-SW-COMPONENT-TYPE"] = true := by decide +kernel
theorem signal_tags : tagsRight k!"SystemSignal" [k!"SYSTEM-SIGNAL"] = true := by decide +kernel

section
variable {py : Py} {strict : Bool}

theorem loaded_bare {xs : List Xml} {d : MObj py.F} (h : loadAll py strict (newDoc py) xs = .ok d) : d.get k!"elements" = [] := by
  have key : ∀ (xs : List Xml) (d d' : MObj py.F), d.get k!"elements" = [] → loadAll py strict d xs = .ok d' → d'.get k!"elements" = [] := by
    intro xs
    induction xs with
    | nil => intro d d' hd h; cases h; exact hd
    | cons x xs ih =>
      intro d d' hd h
      simp only [loadAll, foldE] at h
      split at h
      · cases h
      rename_i d1 h1
      refine ih d1 d' ?_ h
      obtain ⟨m, b, _, hb, h2⟩ := intoObj_succ (loadInto_eq h1)
      have hb' : readers k!"load" = some loadBody := rfl
      rw [hb'] at hb
      cases hb
      obtain ⟨_, rs, _, _, _, rfl, _⟩ := intoBody_ok h2
      rw [get_mk, shown_none (beq_iff_eq.1 docBody_right.2)]
  refine key xs _ d ?_ h
  simp [newDoc, blankOf, MObj.get, MObj.fields, List.flatMap_map]

theorem listed_all {C : Key} {T : List Key} (hT : tagsRight C T = true) {xs : List Xml} {d : MObj py.F} (h : loadAll py strict (newDoc py) xs = .ok d) (sorted long : Bool) : ElementLines T xs long (printPaths none long (collectDoc C sorted d)) := by
  obtain ⟨ps, h1, h2, h3, h4⟩ := printed (c := C) (sorted := sorted) (loaded_bare h) (loadAll_uniq h (uniq_blank _)) none long
  refine ⟨ps, h1, h2, h3, fun p => ?_⟩
  rw [h4, ← files_found hT h]
  simp

theorem listed_some {C C' : Key} {T : List Key} (hT : tagsRight C' T = true) (hC : armodel.sub C' C = true) {xs : List Xml} {d : MObj py.F}
    (h : loadAll py strict (newDoc py) xs = .ok d) (sorted long : Bool) :
    ElementLines T xs long (printPaths (some C') long (collectDoc C sorted d)) := by
  obtain ⟨ps, h1, h2, h3, h4⟩ := printed (c := C) (sorted := sorted) (loaded_bare h) (loadAll_uniq h (uniq_blank _)) (some C') long
  refine ⟨ps, h1, h2, h3, fun p => ?_⟩
  rw [h4, ← files_found hT h]
  constructor
  · rintro ⟨w, hw, hc⟩
    obtain ⟨e1, e2, _⟩ := found_reaches.1 hw
    exact ⟨w, found_reaches.2 ⟨e1, e2, hc _ rfl⟩⟩
  · rintro ⟨w, hw⟩
    obtain ⟨e1, e2, e3⟩ := found_reaches.1 hw
    refine ⟨w, found_reaches.2 ⟨e1, e2, ?_⟩, fun c' hc => by cases hc; exact e3⟩
    simp only [MObj.inst, List.any_cons, List.any_nil, Bool.or_false] at e3 ⊢
    exact armodel.trans _ _ _ e3 hC

theorem mapM_some {α β : Type} {f : α → Option β} {l : List α} {r : List β} (h : l.mapM f = some r) : List.Forall₂ (fun a b => f a = some b) l r := by
  induction l generalizing r with
  | nil => simp at h; subst h; exact .nil
  | cons a l ih =>
    simp only [List.mapM_cons, Option.bind_eq_bind, Option.bind_eq_some_iff, Option.pure_def, Option.some.injEq] at h
    obtain ⟨b, hb, r', hr, rfl⟩ := h
    exact .cons hb (ih hr)

theorem loadFiles_ok {nc : NameChars} {fs : Fs} {args : List Str} {d : MObj py.F} (h : loadFiles py nc fs args = some d) :
    ∃ names xs, cliParse py fs [] args = .ok names ∧ List.Forall₂ (fun f x => (fs.text f).bind (parseFile nc) = some x) names xs ∧
      loadAll py false (newDoc py) xs = .ok d := by
  unfold loadFiles at h
  split at h
  · cases h
  rename_i names hn
  split at h
  · cases h
  rename_i xs hxs
  split at h
  · cases h
  rename_i d' hd
  cases h
  exact ⟨names, xs, hn, mapM_some hxs, hd⟩

end

/-- **C58** What `swc-list` prints, in terms of the files: one line for every software component that is in a package (at any depth) of
one of the files, and nothing else.  With `--filter CompositionSwComponent` these are the compositions; with `--format long` the lines
are paths.  (One kind of component is missing, see `C58_parameter_broken`.) -/
theorem C58_swc_partial (py : Py) (nc : NameChars) (fs : Fs) (format filter : Option Str) (args : List Str) (lines : List Str)
    (h : swcList py nc fs format filter args = some lines) :
    ∃ names xs, cliParse py fs [] args = .ok names ∧ List.Forall₂ (fun f x => (fs.text f).bind (parseFile nc) = some x) names xs ∧
      ElementLines (if optionIs py "compositionswcomponent".toList filter then [k!"COMPOSITION-SW-COMPONENT-TYPE"] else swcTags) xs
        (optionIs py "long".toList format) lines := by
  obtain ⟨d, hd, rfl⟩ := Option.map_eq_some_iff.1 h
  obtain ⟨names, xs, h1, h2, h3⟩ := loadFiles_ok hd
  refine ⟨names, xs, h1, h2, ?_⟩
  split
  · exact listed_some composition_tags (by decide +kernel) h3 _ _
  · exact listed_all swc_tags h3 _ _

/-- **C58** What `system-signal` prints, in terms of the files. -/
theorem C58_signals_partial (py : Py) (nc : NameChars) (fs : Fs) (format : Option Str) (args : List Str) (lines : List Str)
    (h : systemSignals py nc fs format args = some lines) :
    ∃ names xs, cliParse py fs [] args = .ok names ∧ List.Forall₂ (fun f x => (fs.text f).bind (parseFile nc) = some x) names xs ∧
      ElementLines [k!"SYSTEM-SIGNAL"] xs (optionIs py "full".toList format) lines := by
  obtain ⟨d, hd, rfl⟩ := Option.map_eq_some_iff.1 h
  obtain ⟨names, xs, h1, h2, h3⟩ := loadFiles_ok hd
  exact ⟨names, xs, h1, h2, listed_all signal_tags h3 _ _⟩

/-- **C58** `memory-section` lists system signals, whatever its name says, and prints short names whatever format it is given. -/
theorem C58_memory_broken (py : Py) (nc : NameChars) (fs : Fs) (format : Option Str) (args : List Str) :
    memorySections py nc fs format args = systemSignals py nc fs none args := by
  unfold memorySections systemSignals
  congr 1
  funext d
  have : ((if optionIs py "long".toList format then "long".toList else "short".toList) == "full".toList) = optionIs py "full".toList none := by
    cases optionIs py "long".toList format <;> rfl
  rw [this]

/-! ### Cases -/

/-- the packages `P` with a component and a package `Q` with a composition and a signal -/
def listFile : Xml := .node k!"AUTOSAR" [] [] [.node k!"AR-PACKAGES" [] [] [.node k!"AR-PACKAGE" [] [] [
  .node k!"SHORT-NAME" [] "P".toList [],
  .node k!"ELEMENTS" [] [] [.node k!"APPLICATION-SW-COMPONENT-TYPE" [] [] [.node k!"SHORT-NAME" [] "b".toList []]],
  .node k!"AR-PACKAGES" [] [] [.node k!"AR-PACKAGE" [] [] [.node k!"SHORT-NAME" [] "Q".toList [],
    .node k!"ELEMENTS" [] [] [.node k!"COMPOSITION-SW-COMPONENT-TYPE" [] [] [.node k!"SHORT-NAME" [] "a".toList []],
      .node k!"SYSTEM-SIGNAL" [] [] [.node k!"SHORT-NAME" [] "s".toList []]]]]]]]

/-- the package `Q` in `P` again, with another component, and a component of parameters -/
def listFile2 : Xml := .node k!"AUTOSAR" [] [] [.node k!"AR-PACKAGES" [] [] [.node k!"AR-PACKAGE" [] [] [
  .node k!"SHORT-NAME" [] "P".toList [],
  .node k!"ELEMENTS" [] [] [.node k!"PARAMETER-SW-COMPONENT-TYPE" [] [] [.node k!"SHORT-NAME" [] "p".toList []]],
  .node k!"AR-PACKAGES" [] [] [.node k!"AR-PACKAGE" [] [] [.node k!"SHORT-NAME" [] "Q".toList [],
    .node k!"ELEMENTS" [] [] [.node k!"COMPOSITION-SW-COMPONENT-TYPE" [] [] [.node k!"SHORT-NAME" [] "a".toList []],
      .node k!"SERVICE-SW-COMPONENT-TYPE" [] [] [.node k!"SHORT-NAME" [] "c".toList []]]]]]]]

/-- both files load, and what is printed for both of them -/
theorem list_case : (load Py.demo false listFile).isOk = true ∧ (load Py.demo false listFile2).isOk = true ∧
    (match loadAll Py.demo false (newDoc Py.demo) [listFile, listFile2] with
      | .error _ => false
      | .ok d => decide (printPaths none true (collectDoc k!"SwComponentType" false d) = ["/P/Q/a".toList, "/P/b".toList, "/P/Q/c".toList]) &&
        decide (printPaths (some k!"CompositionSwComponentType") false (collectDoc k!"SwComponentType" false d) = ["a".toList]) &&
        decide (printPaths none false (collectDoc k!"SystemSignal" true d) = ["s".toList])) = true := by decide +kernel

/-- a directory with one file -/
def listDir : Fs where
  isDir _ := false
  walk _ := []
  text f := if f = "a.arxml".toList then some t!"<?xml version='1.0'?>\n<AUTOSAR xmlns=\"http://autosar.org/schema/r4.0\"><AR-PACKAGES><AR-PACKAGE><SHORT-NAME>P</SHORT-NAME><ELEMENTS>
<APPLICATION-SW-COMPONENT-TYPE><SHORT-NAME>b</SHORT-NAME></APPLICATION-SW-COMPONENT-TYPE><SYSTEM-SIGNAL><SHORT-NAME>s</SHORT-NAME></SYSTEM-SIGNAL>
</ELEMENTS></AR-PACKAGE></AR-PACKAGES></AUTOSAR>\n" else none

/-- the tools list something -/
example : (swcList Py.demo .ascii listDir (some "Long".toList) none ["a.arxml".toList] == some ["/P/b".toList]) = true ∧
    (systemSignals Py.demo .ascii listDir (some "FULL".toList) ["a.arxml".toList] == some ["/P/s".toList]) = true ∧
    (memorySections Py.demo .ascii listDir (some "long".toList) ["a.arxml".toList] == some ["s".toList]) = true := by decide +kernel

def parameterElem : Xml := .node k!"PARAMETER-SW-COMPONENT-TYPE" [] [] [.node k!"SHORT-NAME" [] "p".toList []]
def parameterPkg : Xml := .node k!"AR-PACKAGE" [] [] [.node k!"SHORT-NAME" [] "P".toList [], .node k!"ELEMENTS" [] [] [parameterElem]]
def parameterFile : Xml := .node k!"AUTOSAR" [] [] [.node k!"AR-PACKAGES" [] [] [parameterPkg]]

/-- `PARAMETER-SW-COMPONENT-TYPE` is a software component.  The reader does not know it; the tool leaves it out (a warning is logged). -/
theorem C58_parameter_broken : ∃ x d, load Py.demo false x = .ok d ∧ InFile [k!"PARAMETER-SW-COMPONENT-TYPE"] x ["P".toList, "p".toList] ∧
    printPaths none false (collectDoc k!"SwComponentType" false d) = [] := by
  have h : (match load Py.demo false parameterFile with
    | .error _ => false
    | .ok d => (printPaths none false (collectDoc k!"SwComponentType" false d)).isEmpty) = true := by decide +kernel
  split at h
  · cases h
  rename_i d hd
  refine ⟨parameterFile, d, hd, ?_, List.isEmpty_iff.1 h⟩
  exact .element (y := parameterPkg) (e := parameterElem) ⟨_, List.mem_singleton.2 rfl, rfl, List.mem_singleton.2 rfl, rfl⟩
    ⟨_, List.mem_cons_of_mem _ (List.mem_singleton.2 rfl), rfl, List.mem_singleton.2 rfl⟩ (List.mem_singleton.2 rfl)

end Verif.Props
