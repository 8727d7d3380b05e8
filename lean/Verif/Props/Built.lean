import Verif.Lemmas.BuiltFile
import Verif.Props.File
import Verif.Props.Load
/-!
# C63: saving a document that was merged from several files or built with the API
-/
namespace Verif.Props
open Verif Verif.Model Verif.Spec Verif.Lemmas

/-- **C63** Whatever files are loaded into a new document, one after another: the document has the attributes the classes have, no
attribute has a value of another kind, no single attribute has two values, and none that is mandatory is missing. -/
theorem C63_fits (py : Py) (strict : Bool) (xs : List Xml) (d : MObj py.F) (h : loadAll py strict (newDoc py) xs = .ok d) :
    ∃ n, Shaped strict readers invariants n k!"load" d := loadAll_fits h blank_fits

/-- **C63** The same if the document had contents before, whatever made it. -/
theorem C63_fits_more (py : Py) (strict : Bool) (xs : List Xml) (n : Nat) (d d' : MObj py.F) (hd : Shaped strict readers invariants n k!"load" d)
    (h : loadAll py strict d xs = .ok d') : ∃ n, Shaped strict readers invariants n k!"load" d' := loadAll_fits h ⟨n, hd⟩

/-- **C63** Any document, however it was made: if its objects have the attributes of their classes and nothing `save` is known to lose, it is
saved; what is saved can be loaded; this yields the document (with the schema location that is written, and up to the order of what `save`
sorts); and saving that yields the same tree.  (What is missing: the attributes in `Spec/Defects.lean`.) -/
theorem C63_built_partial (py : Py) (repr : py.F → Str) (strict : Bool) (n : Nat) (d : MObj py.F) (hd : Shaped strict readers invariants n k!"load" d)
    (hc : Clean lossy strict d) :
    ∃ y d', save py repr strict d = .ok y ∧ (∀ y', Reload y y' → load py strict y' = .ok d') ∧ Same reordered (withSchema py d) d' ∧
      save py repr strict d' = .ok y := document_fits hd hc

/-- **C63** A document merged from several files is saved to one file that says what all of them together said: loading the one file yields
the document. -/
theorem C63_merged_partial (py : Py) (repr : py.F → Str) (strict : Bool) (xs : List Xml) (d : MObj py.F)
    (h : loadAll py strict (newDoc py) xs = .ok d) (hc : Clean lossy strict d) :
    ∃ y d', save py repr strict d = .ok y ∧ (∀ y', Reload y y' → load py strict y' = .ok d') ∧ Same reordered (withSchema py d) d' ∧
      save py repr strict d' = .ok y := by
  obtain ⟨n, hn⟩ := C63_fits py strict xs d h
  exact document_fits hn hc

/-- **C63** Saving a merged document invents nothing: every text and attribute value of the saved tree is one of some file, perhaps
without the blanks around it, or one of the library's own words. -/
theorem C63_texts (py : Py) (repr : py.F → Str) (strict : Bool) (xs : List Xml) (d : MObj py.F) (h : loadAll py strict (newDoc py) xs = .ok d) (y : Xml)
    (hs : save py repr strict d = .ok y) (s : Str) (hy : Occurs s y) :
    (∃ x ∈ xs, ∃ t, Occurs t x ∧ (s = t ∨ s = py.strip t)) ∨ s ∈ ownTexts := by
  have hx : ∀ x ∈ xs, Every (Strs fun s => ∃ x ∈ xs, Occurs s x) x := fun x hx =>
    every_at x fun p e he => ⟨⟨x, hx, p, e, he, .inl rfl⟩, fun a ha => ⟨x, hx, p, e, he, .inr ⟨a, ha, rfl⟩⟩⟩
  have hd : Derived py (fun s => ∃ x ∈ xs, Occurs s x) (fun s => (∃ x ∈ xs, ∃ t, Occurs t x ∧ (s = t ∨ s = py.strip t)) ∨ s ∈ ownTexts) :=
    ⟨fun s ⟨x, hx, h⟩ => .inl ⟨x, hx, s, h, .inl rfl⟩, fun s ⟨x, hx, h⟩ => .inl ⟨x, hx, s, h, .inr rfl⟩, fun s h => .inr h⟩
  obtain ⟨p, e, he, ht⟩ := hy
  have hq := (at_every (savedDoc_Q hd (loadAll_Q hd hx h newDoc_Q) hs) p e he).here
  rcases ht with rfl | ⟨a, ha, rfl⟩
  · exact hq.1
  · exact hq.2 a ha

/-- What is saved after files were loaded can be written. -/
theorem merged_writable {py : Py} {repr : py.F → Str} {strict : Bool} {nc : NameChars} {xs : List Xml} (hx : ∀ x ∈ xs, Every GoodChars x) {d : MObj py.F}
    (hl : loadAll py strict (newDoc py) xs = .ok d) {y : Xml} (hs : save py repr strict d = .ok y) : Writable nc y := by
  refine ⟨save_names nc hs, ?_⟩
  have hx' : ∀ x ∈ xs, Every (Strs fun s => ∀ c ∈ s, XmlChar c) x := fun x h =>
    every_at x fun p e he => ⟨(at_every (hx x h) p e he).here.2, (at_every (hx x h) p e he).here.1⟩
  have hd : Derived py (fun s => ∀ c ∈ s, XmlChar c) (fun s => ∀ c ∈ s, XmlChar c) :=
    ⟨fun s h => h, fun s h c hc => h c (strip_sub py s c hc), by
      have : ∀ s ∈ ownTexts, ∀ c ∈ s, xmlChar c = true := by decide +kernel
      exact fun s hs c hc => xmlChar_of (this s hs c hc)⟩
  exact every_at y fun p e he => by
    have := (at_every (savedDoc_Q hd (loadAll_Q hd hx' hl newDoc_Q) hs) p e he).here
    exact ⟨this.2, this.1⟩

/-- **C63** From files to file: several files are parsed and loaded into one document, and the document is saved to a file.  The file can be
parsed and loaded; this yields the document; and saving it once more writes the same file, character by character. -/
theorem C63_files_partial (py : Py) (repr : py.F → Str) (strict : Bool) (nc : NameChars) (ss : List Str) (xs : List Xml)
    (hp : List.Forall₂ (fun s x => parseFile nc s = some x) ss xs) (d : MObj py.F) (hl : loadAll py strict (newDoc py) xs = .ok d)
    (hc : Clean lossy strict d) (hsm : ∀ y, save py repr strict d = .ok y → Every Smooth y) :
    ∃ y f x' d', save py repr strict d = .ok y ∧ saveToFile py nc false y = some f ∧ parseFile nc f = some x' ∧
      load py strict x' = .ok d' ∧ Same reordered (withSchema py d) d' ∧
      ∃ y', save py repr strict d' = .ok y' ∧ saveToFile py nc false y' = some f := by
  have hx : ∀ x ∈ xs, Every GoodChars x := by
    clear hl
    induction hp with
    | nil => simp
    | cons h _ ih =>
      intro x hx
      rcases List.mem_cons.1 hx with rfl | hx
      · exact parseFile_good h
      · exact ih x hx
  obtain ⟨y, d', h1, h2, h3, h4⟩ := C63_merged_partial py repr strict xs d hl hc
  have h := file_read (py := py) (nc := nc) false (merged_writable (nc := nc) hx hl h1) (fun h => by cases h)
  cases hf : saveToFile py nc false y with
  | none => rw [hf] at h; cases h
  | some f =>
    rw [hf] at h
    have hr : Reload y (laid 0 y) := reload_laid 0 y (hsm y h1)
    exact ⟨y, f, _, d', h1, hf, h, h2 _ hr, h3, y, h4, hf⟩

/-! ## Examples -/

/-- two files with a package in common -/
def mergeFile1 : Str := t!"<AUTOSAR><AR-PACKAGES><AR-PACKAGE><SHORT-NAME>P</SHORT-NAME><ELEMENTS>
<UNIT><SHORT-NAME>m</SHORT-NAME><DISPLAY-NAME>metre</DISPLAY-NAME></UNIT></ELEMENTS></AR-PACKAGE></AR-PACKAGES></AUTOSAR>"

@[inherit_doc mergeFile1]
def mergeFile2 : Str := t!"<AUTOSAR><AR-PACKAGES><AR-PACKAGE><SHORT-NAME>P</SHORT-NAME><ELEMENTS>
<UNIT><SHORT-NAME>s</SHORT-NAME></UNIT></ELEMENTS></AR-PACKAGE><AR-PACKAGE><SHORT-NAME>A</SHORT-NAME></AR-PACKAGE></AR-PACKAGES></AUTOSAR>"

/-- the hypotheses of `C63_files_partial` (and of `C63_merged_partial`, `C63_texts`, `C63_fits`) hold for them, and both units are in the document -/
example (strict : Bool) : ∃ x1 x2 d, List.Forall₂ (fun s x => parseFile .ascii s = some x) [mergeFile1, mergeFile2] [x1, x2] ∧
    loadAll Py.demo strict (newDoc Py.demo) [x1, x2] = .ok d ∧ Clean lossy strict d ∧ (findIn ["P".toList, "m".toList] d).isSome = true ∧
    (findIn ["P".toList, "s".toList] d).isSome = true ∧
    (∃ y, save Py.demo (fun _ => []) strict d = .ok y) ∧ ∀ y, save Py.demo (fun _ => []) strict d = .ok y → Every Smooth y := by
  have h : ∀ s : Bool, (match parseFile .ascii mergeFile1, parseFile .ascii mergeFile2 with
      | some x1, some x2 => match loadAll Py.demo s (newDoc Py.demo) [x1, x2] with
        | .error _ => false
        | .ok d => (cleanB lossy s d && (findIn ["P".toList, "m".toList] d).isSome && (findIn ["P".toList, "s".toList] d).isSome) &&
          (match save Py.demo (fun _ => []) s d with
          | .error _ => false
          | .ok y => everyB smoothB 20 y)
      | _, _ => false) = true := by decide +kernel
  have := h strict
  split at this
  next x1 x2 hx1 hx2 =>
    split at this
    · cases this
    next d hd =>
    simp only [Bool.and_eq_true] at this
    obtain ⟨⟨⟨h1, h3⟩, h4⟩, h2⟩ := this
    split at h2
    · cases h2
    next y hy =>
    refine ⟨x1, x2, d, .cons hx1 (.cons hx2 .nil), hd, cleanB_sound d h1, h3, h4, ⟨y, hy⟩, fun z hz => ?_⟩
    rw [hy] at hz
    cases hz
    exact everyB_sound smoothB_sound 20 y h2
  · cases this

/-! ### A document that no file was loaded into -/

/-- a test for `ScalarOf`, for some of the kinds -/
def scalarB {F : Type} : RKind → Scalar F → Bool
  | .lit, .lit _ _ _ => true
  | .litPlain, .lit none none _ => true
  | .litText, .lit none none v => v != []
  | .limit, .limit _ _ _ _ => true
  | .ref, .ref _ _ _ => true
  | .raw, .str v => v != []
  | _, _ => false

theorem scalarB_sound {py : Py} {k : RKind} {s : Scalar py.F} (h : scalarB k s = true) : ScalarOf py k s := by
  unfold scalarB at h
  split at h
  · exact ⟨_, _, _, rfl⟩
  · exact ⟨_, rfl⟩
  · exact ⟨_, by simpa using h, rfl⟩
  · exact ⟨_, _, _, _, rfl⟩
  · exact ⟨_, _, _, rfl⟩
  · exact ⟨_, by simpa using h, rfl⟩
  · cases h

/-- a test for `ValueOf` -/
def valueB {F : Type} (M : Key → MObj F → Bool) : Item → MObj F → Bool
  | .prim k, .scal s => scalarB k s
  | .attr _ .raw, .scal (.str _) => true
  | .attr _ .lit, .scal (.lit none none _) => true
  | .name, .scal (.str w) => w != []
  | .objs alts, v => alts.any fun e => altOf alts e.1 == some e.2 && M e.2 v
  | _, _ => false

theorem valueB_sound {py : Py} {M : Key → MObj py.F → Bool} {M' : Key → MObj py.F → Prop} (hM : ∀ k v, M k v = true → M' k v) {i : Item} {v : MObj py.F}
    (h : valueB M i v = true) : ValueOf M' i v := by
  unfold valueB at h
  split at h
  · exact ⟨_, rfl, scalarB_sound h⟩
  · exact ⟨_, rfl, _, rfl⟩
  · exact ⟨_, rfl, _, rfl⟩
  · exact ⟨_, by simpa using h, rfl⟩
  · obtain ⟨e, he, h⟩ := List.any_eq_true.1 h
    rw [Bool.and_eq_true, beq_iff_eq] at h
    exact ⟨e.1, e.2, h.1, hM _ _ h.2⟩
  · cases h

/-- a test for `Shaped` -/
def fitsB {F : Type} (strict : Bool) (T : Key → Option RBody) (I : Key → List Need) : Nat → Key → MObj F → Bool
  | 0, _, _ => false
  | n + 1, k, o => match T k, o with
    | some b, .mk c fs => c == b.cls && fs.map Prod.fst == b.slots.map RSlot.key &&
        (b.slots.zip (fs.map Prod.snd)).all (fun e => e.2.all (valueB (fitsB strict T I n) e.1.item) &&
          (!(e.1.path.single || e.1.last) || decide (e.2.length ≤ 1)) &&
          (!e.2.isEmpty || (e.1.req != .always && (e.1.req != .strict || !strict) && !inherent e.1))) &&
        namesOk b.slots o && (I b.cls).all fun m => okB strict m o
    | _, _ => false

theorem fitsB_sound {py : Py} {strict : Bool} {T : Key → Option RBody} {I : Key → List Need} {n : Nat} {k : Key} {o : MObj py.F}
    (h : fitsB strict T I n k o = true) : Shaped strict T I n k o := by
  induction n generalizing k o with
  | zero => cases h
  | succ n ih =>
    unfold fitsB at h
    split at h
    next b c fs hb =>
      simp only [Bool.and_eq_true, beq_iff_eq] at h
      obtain ⟨⟨⟨⟨rfl, hk⟩, hs⟩, hn⟩, hI⟩ := h
      have hzip : fs = (b.slots.map RSlot.key).zip (fs.map Prod.snd) := by
        rw [← hk]
        clear hk hs hn hI
        induction fs with
        | nil => rfl
        | cons e fs ih => simp only [List.map_cons, List.zip_cons_cons, ← ih]
      refine ⟨b, fs.map Prod.snd, hb, by rw [← hzip], ?_, hn, fun m hm => okB_sound (List.all_eq_true.1 hI m hm)⟩
      have hlen : b.slots.length = (fs.map Prod.snd).length := by
        have := congrArg List.length hk
        simpa using this.symm
      rw [List.forall₂_iff_zip]
      refine ⟨hlen, fun {s vs} hsv => ?_⟩
      have h := List.all_eq_true.1 hs (s, vs) hsv
      simp only [Bool.and_eq_true, Bool.or_eq_true, Bool.not_eq_true', bne_iff_ne, ne_eq, decide_eq_true_eq, List.isEmpty_eq_false_iff] at h
      obtain ⟨⟨h1, h2⟩, h3⟩ := h
      refine ⟨fun v hv => valueB_sound (fun k v h => ih h) (List.all_eq_true.1 h1 v hv), fun hs => ?_, fun hvs => ?_⟩
      · rcases h2 with h2 | h2
        · rw [hs] at h2; cases h2
        · exact h2
      · rcases h3 with h3 | ⟨⟨h3, h4⟩, h5⟩
        · exact absurd hvs h3
        · refine ⟨h3, fun hr => ?_, h5⟩
          rcases h4 with h4 | h4
          · exact absurd hr h4
          · exact h4
    next => cases h

/-- an object with the attributes the method `k` reads, with these values -/
def withFields {F : Type} (k : Key) (vals : List (Key × List (MObj F))) : MObj F := match readers k with
  | none => .mk k!"" []
  | some b => .mk b.cls (b.slots.map fun s => (s.key, ((vals.find? fun e => e.1 == s.field).map Prod.snd).getD []))

/-- `document.createARPackage("P")`, in it a unit with a display name and a composition with a port -/
def builtDoc (F : Type) : MObj F := withFields k!"load" [(k!"arPackages", [withFields k!"readARPackages_ARPackage"
  [(k!"short_name", [.scal (.str "P".toList)]), (k!"elements", [
    withFields k!"readARPackageElements_Unit" [(k!"short_name", [.scal (.str "m".toList)]), (k!"displayName", [.scal (.lit none none "metre".toList)])],
    withFields k!"readARPackageElements_CompositionSwComponentType" [(k!"short_name", [.scal (.str "C".toList)]),
      (k!"ports", [withFields k!"readSwComponentTypePorts_PPortPrototype" [(k!"short_name", [.scal (.str "p".toList)])]])]])]])]

/-- the hypotheses of `C63_built_partial` hold for it, in both modes -/
example (py : Py) (strict : Bool) : Shaped strict readers invariants 4 k!"load" (builtDoc py.F) ∧ Clean lossy strict (builtDoc py.F) ∧
    (findIn ["P".toList, "C".toList, "p".toList] (builtDoc py.F)).isSome = true := by
  cases strict
  · exact ⟨fitsB_sound (by rfl), cleanB_sound _ (by rfl), by rfl⟩
  · exact ⟨fitsB_sound (by rfl), cleanB_sound _ (by rfl), by rfl⟩

/-- a file can be loaded into it -/
example (py : Py) (strict : Bool) : ∃ d', loadAll py strict (builtDoc py.F) [fileA, fileB] = .ok d' := by
  cases strict <;> exact ⟨_, by rfl⟩

end Verif.Props
