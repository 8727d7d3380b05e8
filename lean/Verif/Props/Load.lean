import Verif.Lemmas.Again
import Verif.Lemmas.Define
/-!
# Properties C39, C40 and C51: loading several files into one document
-/
namespace Verif.Props
open Verif Verif.Model Verif.Spec Verif.Lemmas

/-! ## Files for the examples -/

/-- an element with text -/
def txt (t : Key) (s : String) : Xml := .node t [] s.toList []

/-- a file with packages -/
def fileOf (pkgs : List Xml) : Xml := .node k!"AUTOSAR" [] [] [.node k!"AR-PACKAGES" [] [] pkgs]

/-- a package with further children -/
def pkgOf (n : String) (kids : List Xml) : Xml := .node k!"AR-PACKAGE" [] [] (txt k!"SHORT-NAME" n :: kids)

/-- the package `P` with a category, an annotation and a unit -/
def fileA : Xml := fileOf [pkgOf "P" [
  .node k!"ANNOTATIONS" [] [] [.node k!"ANNOTATION" [] [] [txt k!"ANNOTATION-ORIGIN" "me"]],
  txt k!"CATEGORY" "STANDARD",
  .node k!"ELEMENTS" [] [] [.node k!"UNIT" [] [] [txt k!"SHORT-NAME" "m", txt k!"DISPLAY-NAME" "metre"]]]]

/-- the package `P` with another unit and a description of the first one, and a package `Q` -/
def fileB : Xml := fileOf [pkgOf "Q" [], pkgOf "P" [
  .node k!"ELEMENTS" [] [] [.node k!"UNIT" [] [] [txt k!"SHORT-NAME" "s"],
    .node k!"UNIT" [] [] [txt k!"SHORT-NAME" "m", txt k!"DISPLAY-NAME" "meter"]]]]

/-! ## C39 -/

/-- **C39** Loading a file into a new document is loading it. -/
theorem C39_new (py : Py) (strict : Bool) (x : Xml) (dx : MObj py.F) (h : load py strict x = .ok dx) :
    loadInto py strict (newDoc py) x = .ok dx := load_newDoc h

/-- **C39** After loading a file into a document with contents, exactly the paths lead to packages and elements (of a class) that
did so in the document or do so in the file; what only the document had is as it was, and what only the file has is as it is in
the file.  (What is missing: if both have it, the first definition should win, see `C39_broken`.  The model does not cover files
that use the name of an existing element for an element of another class, see `Model/Load.lean`.) -/
theorem C39_partial (py : Py) (strict : Bool) (d d' dx : MObj py.F) (x : Xml) (h : loadInto py strict d x = .ok d')
    (hx : load py strict x = .ok dx) :
    (∀ p c, Holds d' p c ↔ Holds d p c ∨ Holds dx p c) ∧
    (∀ p w, Reaches d p w → (∀ v, ¬ Reaches dx p v) → Reaches d' p w) ∧
    (∀ p w, Reaches dx p w → (∀ v, ¬ Reaches d p v) → Reaches d' p w) := by
  refine ⟨load_holds h hx, ?_, ?_⟩
  · intro p w hw hn
    rcases (load_reaches h hx p w).1 hw with h1 | ⟨w', u, h1, _⟩
    · exact h1
    · exact absurd h1 (hn w')
  · intro p w hw hn
    rcases (load_reaches h hx p w).2.1 hw with h1 | ⟨w', u, h1, _⟩
    · exact h1
    · exact absurd h1 (hn w')

/-- **C39** After loading files into a new document, exactly the paths lead to packages and elements (of a class) for which there is a
definition in one of the files (`Spec/Define`; `C82_packages` and `C82_elements` say what definitions are).  A file may define the same
thing several times. -/
theorem C39_files_partial (py : Py) (strict : Bool) (xs : List Xml) (d : MObj py.F) (h : loadAll py strict (newDoc py) xs = .ok d)
    (p : List (Role × Str)) (hp : p ≠ []) (c : Key) : Holds d p c ↔ ∃ x ∈ xs, Defines x p c := loads_holds h hp c

/-- **C39** These are the paths that lead somewhere in the documents the single files load as. -/
theorem C39_alone (py : Py) (strict : Bool) (x : Xml) (dx : MObj py.F) (h : loadInto py strict (newDoc py) x = .ok dx) (p : List (Role × Str)) (hp : p ≠ []) (c : Key) :
    Defines x p c ↔ Holds dx p c := by
  have : loadAll py strict (newDoc py) [x] = .ok dx := by
    unfold loadAll
    rw [foldE, h]
    rfl
  rw [C39_files_partial py strict [x] dx this p hp c]
  simp

/-- **C39** So the order of the files does not matter for what is there. -/
theorem C39_order_partial (py : Py) (strict : Bool) (xs ys : List Xml) (hp : xs.Perm ys) (d d' : MObj py.F)
    (h : loadAll py strict (newDoc py) xs = .ok d) (h' : loadAll py strict (newDoc py) ys = .ok d')
    (p : List (Role × Str)) (hne : p ≠ []) (c : Key) : Holds d p c ↔ Holds d' p c := by
  rw [loads_holds h hne, loads_holds h' hne]
  simp only [hp.mem_iff]

/-- **C39** `find` finds what is defined in one of the files, if no package has the name of an element next to it (otherwise: `C39_find_broken`). -/
theorem C39_find_partial (py : Py) (strict : Bool) (xs : List Xml) (d : MObj py.F) (h : loadAll py strict (newDoc py) xs = .ok d)
    (ha : Apart d) (ns : List Str) (hns : ns ≠ []) :
    (findIn ns d).isSome ↔ ∃ x ∈ xs, ∃ p c, p.map Prod.snd = ns ∧ Defines x p c := by
  have hu : Uniq d := loadAll_uniq h (uniq_blank _)
  constructor
  · intro hf
    obtain ⟨w, hw⟩ := Option.isSome_iff_exists.1 hf
    obtain ⟨p, rfl, hr⟩ := findIn_reaches hw
    obtain ⟨x, hm, hd⟩ := (loads_holds h (by rintro rfl; exact hns rfl) w.cls).1 ⟨w, hr, rfl⟩
    exact ⟨x, hm, p, w.cls, rfl, hd⟩
  · rintro ⟨x, hm, p, c, rfl, hd⟩
    obtain ⟨w, hr, _⟩ := (loads_holds h (by rintro rfl; exact hns rfl) c).2 ⟨x, hm, hd⟩
    rw [reaches_findIn hu ha hr]
    rfl

/-- a test for `Apart`, to a depth -/
def apartB {F : Type} : Nat → MObj F → Bool
  | 0, _ => false
  | n + 1, o => (held o .package).all (fun v => (held o .element).all (fun w => v.name != w.name)) &&
      (held o .package).all (apartB n) && (held o .element).all (apartB n) &&
      decide ((held o .package).map MObj.name).Nodup && decide ((held o .element).map MObj.name).Nodup

theorem apartB_sound {F : Type} (n : Nat) (o : MObj F) (h : apartB n o = true) : Apart o := by
  induction n generalizing o with
  | zero => cases h
  | succ n ih =>
    simp only [apartB, Bool.and_eq_true, List.all_eq_true, bne_iff_ne, decide_eq_true_eq] at h
    obtain ⟨⟨⟨⟨h1, h2⟩, h3⟩, h4⟩, h5⟩ := h
    have hk : ∀ g, ∀ v ∈ held o g, Apart v := by
      intro g v hv
      cases g with
      | package => exact ih v (h2 v hv)
      | element => exact ih v (h3 v hv)
    have hn : ∀ g, ((held o g).map MObj.name).Nodup := by
      intro g
      cases g with
      | package => exact h4
      | element => exact h5
    intro p m v w hvw
    cases p with
    | nil =>
      obtain ⟨ha, hb⟩ := hvw
      generalize hn1 : (Role.package, m) = s1 at ha
      generalize hn2 : (Role.element, m) = s2 at hb
      cases ha with
      | step _ a _ _ _ ha _ =>
        cases hb with
        | step _ b _ _ _ hb _ =>
          cases hn1
          simp only [Prod.mk.injEq] at hn2
          obtain ⟨rfl, hn2⟩ := hn2
          exact h1 a ha b hb hn2
    | cons s p =>
      obtain ⟨g, nm⟩ := s
      obtain ⟨ha, hb⟩ := hvw
      generalize hs : (g, nm) = s at ha hb
      cases ha with
      | step _ a _ g' _ ha ha' =>
        generalize hs' : (g', a.name) = s' at hb hs
        cases hb with
        | step _ b _ g'' _ hb hb' =>
          simp only [Prod.mk.injEq] at hs'
          obtain ⟨rfl, hab⟩ := hs'
          have hf := find?_name (hn g') ha
          have hf' := find?_name (hn g') hb
          rw [hab] at hf
          rw [hf] at hf'
          cases hf'
          exact hk g' a ha p m v w ⟨ha', hb'⟩

/-- the value of an attribute of what a path leads to -/
def valueAt {F : Type} (d : Except RErr (MObj F)) (ns : List Str) (f : Key) : Option (List (MObj F)) := match d with
  | .error _ => none
  | .ok d => (findIn ns d).map fun o => o.get f

/-- both files can be loaded, in both orders -/
example (py : Py) : ∃ da db dab dba, load py true fileA = .ok da ∧ load py true fileB = .ok db ∧
    loadAll py true (newDoc py) [fileA, fileB] = .ok dab ∧ loadAll py true (newDoc py) [fileB, fileA] = .ok dba ∧
    (findIn ["P".toList, "s".toList] dab).isSome = true ∧ (findIn ["Q".toList] dba).isSome = true ∧ (findIn ["P".toList, "s".toList] da).isSome = false ∧
    Apart dab :=
  ⟨_, _, _, _, by rfl, by rfl, by rfl, by rfl, by rfl, by rfl, by rfl, apartB_sound 4 _ (by rfl)⟩

/-- **C39 is false as far as attributes are concerned**: the definition loaded last wins (the unit `m` gets another display name)
and, worse, loading a file in which a package has no category erases the category it has. -/
theorem C39_broken (py : Py) : ∃ d d', load py true fileA = .ok d ∧ loadInto py true d fileB = .ok d' ∧
    valueAt (.ok d) ["P".toList, "m".toList] k!"displayName" = some [.scal (.lit none none "metre".toList)] ∧
    valueAt (.ok d') ["P".toList, "m".toList] k!"displayName" = some [.scal (.lit none none "meter".toList)] ∧
    valueAt (.ok d) ["P".toList] k!"category" = some [.scal (.lit none none "STANDARD".toList)] ∧
    valueAt (.ok d') ["P".toList] k!"category" = some [] :=
  ⟨_, _, by rfl, by rfl, by rfl, by rfl, by rfl, by rfl⟩

/-- a composition `A` with a port `B` in the package `P` -/
def fileC : Xml := fileOf [pkgOf "P" [.node k!"ELEMENTS" [] [] [.node k!"COMPOSITION-SW-COMPONENT-TYPE" [] [] [txt k!"SHORT-NAME" "A",
  .node k!"PORTS" [] [] [.node k!"P-PORT-PROTOTYPE" [] [] [txt k!"SHORT-NAME" "B"]]]]]]

/-- a package `A` in the package `P` -/
def fileD : Xml := fileOf [pkgOf "P" [.node k!"AR-PACKAGES" [] [] [pkgOf "A" []]]]

/-- **C39 is false for packages and elements of the same name**: the port `/P/A/B` is no longer found after a file with a package
`/P/A` was loaded. -/
theorem C39_find_broken (py : Py) : ∃ d d', load py true fileC = .ok d ∧ loadInto py true d fileD = .ok d' ∧
    (findIn ["P".toList, "A".toList, "B".toList] d).isSome = true ∧ (findIn ["P".toList, "A".toList, "B".toList] d').isSome = false :=
  ⟨_, _, by rfl, by rfl, by rfl, by rfl⟩

/-! ## C51 -/

/-- **C51** Loading a file once more adds no package and no element and takes none away.  (What is missing: the attributes, see
`C51_broken`.) -/
theorem C51_partial (py : Py) (strict : Bool) (x : Xml) (d d' : MObj py.F) (h : load py strict x = .ok d) (h' : loadInto py strict d x = .ok d')
    (p : List (Role × Str)) (c : Key) : Holds d' p c ↔ Holds d p c := by
  rw [load_holds h' h, or_self]

/-- **C51** Nor does it change anything else, but for the lists the parser appends to: attribute by attribute the document, its packages, their
elements and so on are as before, or a list is there twice. -/
theorem C51_doubled (py : Py) (strict : Bool) (x : Xml) (d d' : MObj py.F) (h : load py strict x = .ok d) (h' : loadInto py strict d x = .ok d') : Doubled d d' :=
  into_again (load_eq h) (loadInto_eq h')

/-- **C51** So a document in which all these lists are empty is left as it is. -/
theorem C51_same_partial (py : Py) (strict : Bool) (x : Xml) (d d' : MObj py.F) (h : load py strict x = .ok d) (h' : loadInto py strict d x = .ok d')
    (hn : NoLists d) : d' = d :=
  doubled_eq (C51_doubled py strict x d d' h h') hn

/-- such a document: a package with a category and a unit with a display name, loaded twice -/
example (py : Py) : ∃ d, load py true fileB = .ok d ∧ loadInto py true d fileB = .ok d ∧ (findIn ["P".toList, "m".toList] d).isSome = true ∧
    NoLists d :=
  have hP := appendsNone_sound (P := [(k!"AUTOSAR", k!"arPackages"), (k!"ARPackage", k!"short_name"), (k!"ARPackage", k!"elements"), (k!"Unit", k!"short_name"),
    (k!"Unit", k!"displayName")]) (by decide +kernel) (by decide +kernel)
  ⟨_, by rfl, by rfl, by rfl, onlyB_sound hP (by rfl)⟩

/-- **C51 is false**: the annotations of a package (and all other lists of things without a name) are there twice after
loading the same file twice. -/
theorem C51_broken (py : Py) : ∃ d d', load py true fileA = .ok d ∧ loadInto py true d fileA = .ok d' ∧
    (valueAt (.ok d) ["P".toList] k!"annotations").map List.length = some 1 ∧
    (valueAt (.ok d') ["P".toList] k!"annotations").map List.length = some 2 :=
  ⟨_, _, by rfl, by rfl, by rfl, by rfl⟩

/-! ## C40 -/

/-- **C40** Whatever a document contains, after `clear()` loading a file gives what loading it into a new document gives. -/
theorem C40 (py : Py) (strict : Bool) (d : MObj py.F) (hc : d.cls = k!"AUTOSAR") (hf : d.fields.map Prod.fst = loadBody.slots.map RSlot.key) (x : Xml) :
    loadInto py strict (clearDoc py d) x = loadInto py strict (newDoc py) x := by
  have : clearDoc py d = newDoc py := by
    unfold clearDoc newDoc blankOf
    rw [hc, ← hf, List.map_map]
    rfl
  rw [this]

/-- **C40** In particular after any files were loaded. -/
theorem C40_history (py : Py) (strict : Bool) (xs : List Xml) (hne : xs ≠ []) (d d' : MObj py.F) (hd : loadAll py strict d xs = .ok d') (x : Xml) (dx : MObj py.F)
    (h : load py strict x = .ok dx) : loadInto py strict (clearDoc py d') x = .ok dx := by
  have hinto : ∀ (xs : List Xml) (d d' : MObj py.F), xs ≠ [] → loadAll py strict d xs = .ok d' →
      d'.cls = k!"AUTOSAR" ∧ d'.fields.map Prod.fst = loadBody.slots.map RSlot.key := by
    intro xs
    induction xs with
    | nil => intro _ _ h; exact absurd rfl h
    | cons y xs ih =>
      intro d d' _ hd
      simp only [loadAll, foldE] at hd
      split at hd
      · cases hd
      rename_i d1 h1
      cases xs with
      | cons z zs => exact ih d1 d' (by simp) hd
      | nil =>
        cases hd
        obtain ⟨m, b, hm, hb, hr⟩ := intoObj_succ (loadInto_eq h1)
        rw [readers_load] at hb
        cases hb
        obtain ⟨olds, rs, _, hlen, hz, rfl, _⟩ := intoBody_ok hr
        refine ⟨rfl, ?_⟩
        have hl : ∀ (slots : List RSlot) (olds rs : List (List (MObj py.F))), olds.length = slots.length →
            zipE (intoSlot py strict readers (intoObj py strict readers overs m) (overs k!"load") y) slots olds = .ok rs → rs.length = slots.length := by
          intro slots
          induction slots with
          | nil => intro olds rs _ h; cases olds <;> cases h <;> rfl
          | cons s slots ih =>
            intro olds rs hl hz
            obtain ⟨b, bs', c, r', rfl, rfl, hc, hr, hb⟩ := zipE_cons hl hz
            simp [ih bs' r' hb hr]
        have := hl _ _ _ hlen hz
        exact List.map_fst_zip (by simp [this])
  obtain ⟨h1, h2⟩ := hinto xs d d' hne hd
  rw [C40 py strict d' h1 h2 x]
  exact load_newDoc h

/-- after loading `fileA` there is something to forget -/
example (py : Py) : ∃ d, loadAll py true (newDoc py) [fileA, fileB] = .ok d ∧ (findIn ["Q".toList] d).isSome = true ∧
    (findIn ["Q".toList] (clearDoc py d)).isSome = false ∧
    loadInto py true (clearDoc py d) fileA = load py true fileA := ⟨_, by rfl, by rfl, by rfl, by rfl⟩

end Verif.Props
