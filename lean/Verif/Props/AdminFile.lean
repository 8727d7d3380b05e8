import Verif.Model.Chars
import Verif.Model.ArxmlFormat
import Verif.Lemmas.AdminTool
import Verif.Props.File
/-!
# C57: `arxml-format --remove-admin-data`
-/
namespace Verif.Props
open Verif Verif.Model Verif.Gen Verif.Spec Verif.Lemmas

/-- **C57** When a document was loaded, what is saved after the admin data was removed is what is saved before, without the admin
data of the document, of the packages at any depth and of their elements; nothing else is different. -/
theorem C57_saved (py : Py) (repr : py.F → Str) (strict strict' : Bool) (x : Xml) (d : MObj py.F) (hl : load py strict x = .ok d) (y : Xml)
    (hs : save py repr strict' d = .ok y) : save py repr strict' (removeAll d) = .ok (cleanPkg y) ∧ NoAdmin (cleanPkg y) :=
  ⟨save_removeAll (load_regular hl) hs, noAdmin_clean y⟩

/-- the same for documents that were not loaded -/
theorem C57_built (py : Py) (repr : py.F → Str) (strict : Bool) (d : MObj py.F) (hd : Regular d) (y : Xml) (hs : save py repr strict d = .ok y) :
    save py repr strict (removeAll d) = .ok (cleanPkg y) := save_removeAll hd hs

/-- **C57** Removing the admin data of a document that was loaded gives the document that is loaded from the file without it. -/
theorem C57_loaded (py : Py) (strict : Bool) (x : Xml) (d : MObj py.F) (hl : load py strict x = .ok d) :
    load py strict (cleanPkg x) = .ok (removeAll d) := load_clean hl

/-- A file without admin data in these places: the option changes nothing. -/
theorem C57_nothing (py : Py) (strict : Bool) (x : Xml) (hx : NoAdmin x) (d : MObj py.F) (hl : load py strict x = .ok d) : removeAll d = d := by
  have h := load_clean hl
  rw [cleanPkg_id hx, hl] at h
  exact (Except.ok.inj h).symm

theorem tool_ok {py : Py} {repr : py.F → Str} {nc : NameChars} {w rm un : Bool} {s f : Str} (h : arxmlFormat py repr nc w rm un s = some f) :
    ∃ x d y, parseFile nc s = some x ∧ load py (!w) x = .ok d ∧ save py repr true (if rm then removeAll d else d) = .ok y ∧ saveToFile py nc un y = some f := by
  unfold arxmlFormat at h
  split at h
  · cases h
  rename_i x hx
  split at h
  · cases h
  rename_i d hd
  split at h
  · cases h
  rename_i y hy
  exact ⟨x, d, y, hx, hd, hy, h⟩

/-- the file of a saved document -/
theorem tool_file {py : Py} {repr : py.F → Str} {nc : NameChars} {w un : Bool} {d : MObj py.F} {z : Xml}
    (hz : Every GoodChars z) (hl : load py (!w) z = .ok d) {y : Xml} (hs : save py repr true d = .ok y) (hq : un = true → Every Unquoted y) :
    ∃ f, saveToFile py nc un y = some f ∧ parseFile nc f = some (laid 0 y) := by
  have h := file_read (py := py) (nc := nc) un (saved_writable (nc := nc) hz hl (save_modes hs (!w))) hq
  cases hf : saveToFile py nc un y with
  | none => rw [hf] at h; cases h
  | some f => rw [hf] at h; exact ⟨f, rfl, h⟩

theorem every_sub {P : Xml → Prop} (hP : ∀ t as s kids kids', P (.node t as s kids) → P (.node t as s kids')) {x : Xml} (h : Every P x) :
    Every P (cleanPkg x) := by
  have drop : ∀ x, Every P x → Every P (dropAdmin x) := by
    intro x h
    cases h with
    | node t as s kids h1 h2 => exact .node _ _ _ _ (hP _ _ _ _ _ h1) fun k hk => h2 k (List.mem_filter.1 hk).1
  have key : ∀ n (x : Xml), x.depth ≤ n → Every P x → Every P (cleanPkg x) := by
    intro n
    induction n with
    | zero => intro x h; cases x; simp [Xml.depth] at h
    | succ n ih =>
      intro x hn h
      cases h with
      | node t as s kids h1 h2 =>
        rw [cleanPkg_node]
        refine .node _ _ _ _ (hP _ _ _ _ _ h1) ?_
        intro y hy
        obtain ⟨w, hw, hyw⟩ := List.mem_flatMap.1 hy
        have hd := depth_kid (x := .node t as s kids) hw
        have h3 := h2 w hw
        obtain ⟨u, bs, r, ks⟩ := w
        cases h3 with
        | node _ _ _ _ h4 h5 =>
          simp only [cleanPart] at hyw
          split at hyw
          · cases hyw
          split at hyw
          · simp only [List.mem_singleton] at hyw
            subst hyw
            refine .node _ _ _ _ (hP _ _ _ _ _ h4) ?_
            intro e he
            obtain ⟨e', he', rfl⟩ := List.mem_map.1 he
            exact drop e' (h5 e' he')
          split at hyw
          · simp only [List.mem_singleton] at hyw
            subst hyw
            refine .node _ _ _ _ (hP _ _ _ _ _ h4) ?_
            intro q hq
            obtain ⟨q', hq', rfl⟩ := List.mem_map.1 hq
            have := depth_kid (x := .node u bs r ks) hq'
            exact ih q' (by omega) (h5 q' hq')
          · simp only [List.mem_singleton] at hyw
            subst hyw
            exact .node _ _ _ _ h4 h5
  exact key x.depth x (Nat.le_refl _) h

/-- **C57** The tool with and without the option `--remove-admin-data`.  Whenever it writes a file without the option it writes a file
with the option, and the second file is the first one without the admin data of the document, the packages and their elements.
(With `--unescape-entities` no attribute value may have a quotation mark, see C32.) -/
theorem C57_output (py : Py) (repr : py.F → Str) (nc : NameChars) (w un : Bool) (s f : Str) (h : arxmlFormat py repr nc w false un s = some f)
    (hq : ∀ x d y, parseFile nc s = some x → load py (!w) x = .ok d → save py repr true d = .ok y → un = true → Every Unquoted y) :
    ∃ y f', parseFile nc f = some (laid 0 y) ∧ arxmlFormat py repr nc w true un s = some f' ∧ parseFile nc f' = some (laid 0 (cleanPkg y)) ∧
      NoAdmin (laid 0 (cleanPkg y)) := by
  obtain ⟨x, d, y, hx, hd, hy, hf⟩ := tool_ok h
  have hy : save py repr true d = .ok y := hy
  have hq' := hq x d y hx hd hy
  have hgood := parseFile_good hx
  obtain ⟨g, hg, hg'⟩ := tool_file (un := un) hgood hd hy hq'
  rw [hf] at hg
  cases hg
  have hs := save_removeAll (load_regular hd) hy
  have hgood' : Every GoodChars (cleanPkg x) := every_sub (fun _ _ _ _ _ h => h) hgood
  obtain ⟨f', hf', hp'⟩ := tool_file (un := un) hgood' (load_clean hd) hs (fun hu => unquoted_clean (hq' hu))
  refine ⟨y, f', hg', ?_, hp', noAdmin_laid (noAdmin_clean y) 0⟩
  unfold arxmlFormat
  rw [hx]
  dsimp only
  rw [hd]
  dsimp only
  rw [if_pos rfl, hs]
  exact hf'

/-- **C57** Loading the file the tool wrote gives the document without the admin data (with the schema location that is written and up to
the order of what `save` sorts).  In strict mode the tool does write a file.  What is missing for the full claim are the defects of C33. -/
theorem C57_reload_partial (py : Py) (repr : py.F → Str) (nc : NameChars) (w : Bool) (s : Str) (x : Xml) (hp : parseFile nc s = some x) (d : MObj py.F)
    (hl : load py (!w) x = .ok d) (hc : Clean lossy (!w) d) (hsm : ∀ y, save py repr true (removeAll d) = .ok y → Every Smooth y) :
    (w = false → ∃ f, arxmlFormat py repr nc w true false s = some f) ∧
    ∀ f, arxmlFormat py repr nc w true false s = some f → ∃ x' d', parseFile nc f = some x' ∧ NoAdmin x' ∧ load py (!w) x' = .ok d' ∧
      removeAll d' = d' ∧ Same reordered (withSchema py (removeAll d)) d' := by
  have hl' := load_clean hl
  have hc' := clean_removeAll hl hc
  have hgood' : Every GoodChars (cleanPkg x) := every_sub (fun _ _ _ _ _ h => h) (parseFile_good hp)
  obtain ⟨y, d', h1, h2, h3⟩ := C33_partial py repr (!w) (cleanPkg x) (removeAll d) hl' hc'
  refine ⟨?_, ?_⟩
  · rintro rfl
    obtain ⟨f, hf, _⟩ := tool_file (un := false) (w := false) hgood' hl' h1 (fun h => by cases h)
    refine ⟨f, ?_⟩
    unfold arxmlFormat
    rw [hp]
    dsimp only
    rw [hl]
    dsimp only
    rw [if_pos rfl]
    have : save py repr true (removeAll d) = .ok y := h1
    rw [this]
    exact hf
  · intro f hf
    obtain ⟨x1, d1, y1, e1, e2, e3, e4⟩ := tool_ok hf
    rw [hp] at e1
    cases e1
    rw [hl] at e2
    cases e2
    have e3 : save py repr true (removeAll d) = .ok y1 := e3
    have e5 := save_modes e3 (!w)
    rw [h1] at e5
    cases e5
    obtain ⟨g, hg, hg'⟩ := tool_file (un := false) hgood' hl' e3 (fun h => by cases h)
    rw [e4] at hg
    cases hg
    have hr : Reload y (laid 0 y) := reload_laid 0 y (hsm y e3)
    have hn : NoAdmin (laid 0 y) := by
      obtain ⟨y0, _, hy0, _, _⟩ := C33_partial py repr (!w) x d hl hc
      have := save_removeAll (load_regular hl) hy0
      rw [h1] at this
      cases this
      exact noAdmin_laid (noAdmin_clean y0) 0
    exact ⟨_, d', hg', hn, h2 _ hr, C57_nothing py (!w) _ hn d' (h2 _ hr), h3⟩

/-! ### A file that meets the conditions -/

/-- admin data of the document, of a package, of a package in it, of an element and of a port of that element -/
def adminFile : Str := t!"<?xml version='1.0'?>\n<AUTOSAR xmlns=\"http://autosar.org/schema/r4.0\"><ADMIN-DATA><LANGUAGE>EN</LANGUAGE></ADMIN-DATA>
<AR-PACKAGES><AR-PACKAGE><SHORT-NAME>Q</SHORT-NAME><ADMIN-DATA><LANGUAGE>EN</LANGUAGE></ADMIN-DATA>
<ELEMENTS><COMPOSITION-SW-COMPONENT-TYPE><SHORT-NAME>Comp</SHORT-NAME><ADMIN-DATA><LANGUAGE>EN</LANGUAGE></ADMIN-DATA>
<PORTS><P-PORT-PROTOTYPE><SHORT-NAME>p</SHORT-NAME><ADMIN-DATA><LANGUAGE>DE</LANGUAGE></ADMIN-DATA></P-PORT-PROTOTYPE></PORTS>
</COMPOSITION-SW-COMPONENT-TYPE></ELEMENTS>
<AR-PACKAGES><AR-PACKAGE><SHORT-NAME>R</SHORT-NAME><ADMIN-DATA><LANGUAGE>EN</LANGUAGE></ADMIN-DATA></AR-PACKAGE></AR-PACKAGES></AR-PACKAGE>
</AR-PACKAGES></AUTOSAR>\n"

/-- the number of elements with a tag, down to a depth -/
def countTag (t : Key) : Nat → Xml → Nat
  | 0, _ => 0
  | n + 1, x => (if x.tag = t then 1 else 0) + (x.kids.map (countTag t n)).sum

/-- the hypotheses of `C57_output` and `C57_reload_partial` hold for it; four of five are removed -/
example : (match parseFile .ascii adminFile with
    | none => false
    | some x => match load Py.demo true x with
      | .error _ => false
      | .ok d => cleanB lossy true d && (match save Py.demo (fun _ => []) true d with
        | .error _ => false
        | .ok y => countTag k!"ADMIN-DATA" 20 y == 5 && (match save Py.demo (fun _ => []) true (removeAll d) with
          | .error _ => false
          | .ok y => everyB smoothB 20 y && countTag k!"ADMIN-DATA" 20 y == 1))) = true := by decide +kernel

/-- the file is written -/
example : (arxmlFormat Py.demo (fun _ => []) .ascii false true false adminFile).isSome = true := by decide +kernel

/-- a file in which the element at a path has a tag -/
def hasTagAt (p : List Nat) (t : Key) (f : Str) : Bool :=
  match parseFile .ascii f with
  | none => false
  | some x => (at? p x).any fun e => e.tag == t

theorem hasTagAt_sound {p : List Nat} {t : Key} {f : Str} (h : hasTagAt p t f = true) :
    ∃ x e, parseFile .ascii f = some x ∧ at? p x = some e ∧ e.tag = t := by
  unfold hasTagAt at h
  split at h
  · cases h
  rename_i x hx
  cases he : at? p x with
  | none => rw [he] at h; cases h
  | some e => rw [he] at h; exact ⟨x, e, hx, he, beq_iff_eq.1 h⟩

theorem nested_check : ((arxmlFormat Py.demo (fun _ => []) .ascii false true false adminFile).any
    (hasTagAt [0, 0, 1, 0, 1, 0, 1] k!"ADMIN-DATA")) = true := by decide +kernel

/-- The help text says "Remove all the AdminData".  The admin data of what is inside of the elements stays. -/
theorem C57_nested_broken : ∃ s f x p e, arxmlFormat Py.demo (fun _ => []) .ascii false true false s = some f ∧ parseFile .ascii f = some x ∧
    at? p x = some e ∧ e.tag = k!"ADMIN-DATA" := by
  have key : ∀ (o : Option Str) (P : Str → Bool), o.any P = true → ∃ f, o = some f ∧ P f = true := by
    intro o P h
    cases o with
    | none => cases h
    | some f => exact ⟨f, rfl, h⟩
  obtain ⟨f, hf, h⟩ := key _ _ nested_check
  obtain ⟨x, e, h⟩ := hasTagAt_sound h
  exact ⟨adminFile, f, x, _, e, hf, h⟩

/-- a file with an element the writer has no method for -/
def collectionFile : Str := t!"<?xml version='1.0'?>\n<AUTOSAR xmlns=\"http://autosar.org/schema/r4.0\"><AR-PACKAGES><AR-PACKAGE><SHORT-NAME>Q</SHORT-NAME><ELEMENTS>
<ECUC-VALUE-COLLECTION><SHORT-NAME>C</SHORT-NAME></ECUC-VALUE-COLLECTION></ELEMENTS></AR-PACKAGE></AR-PACKAGES></AUTOSAR>\n"

theorem warning_shape : ∀ (o : Option Xml) (b : Bool), (match o with
    | none => false
    | some x => match load Py.demo false x with
      | .error _ => false
      | .ok d => match save Py.demo (fun _ => []) false d with
        | .error _ => false
        | .ok _ => b) = true → ∃ x d y, o = some x ∧ load Py.demo false x = .ok d ∧ save Py.demo (fun _ => []) false d = .ok y ∧ b = true := by
  intro o b h
  split at h
  · cases h
  rename_i x
  split at h
  · cases h
  rename_i d hd
  split at h
  · cases h
  rename_i y hy
  exact ⟨x, d, y, rfl, hd, hy, h⟩

/-- With the option `-w` errors are to be skipped.  The tool does not hand the option to the writer: the document can be loaded and
saved in warning mode, the tool writes nothing. -/
theorem C57_warning_broken : ∃ s x d y, parseFile .ascii s = some x ∧ load Py.demo false x = .ok d ∧ save Py.demo (fun _ => []) false d = .ok y ∧
    (arxmlFormat Py.demo (fun _ => []) .ascii true false false s).isNone = true := by
  have h := warning_shape (parseFile .ascii collectionFile) (arxmlFormat Py.demo (fun _ => []) .ascii true false false collectionFile).isNone (by decide +kernel)
  obtain ⟨x, d, y, h⟩ := h
  exact ⟨collectionFile, x, d, y, h⟩

end Verif.Props
