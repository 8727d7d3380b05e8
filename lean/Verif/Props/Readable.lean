import Verif.Lemmas.ReadableInto
import Verif.Props.Load
/-!
# Property C92: which files can be loaded
-/
namespace Verif.Props
open Verif Verif.Model Verif.Spec Verif.Lemmas

/-- **C92** Files whose names are as they have to be (`WellNamed`) are in the model, and all files that are loaded in the model are such files. -/
theorem C92_named (py : Py) (strict : Bool) (x : Xml) :
    ((∀ k y b, Visits readers k!"load" x k y → readers k = some b → WellNamed b y) → load py strict x ≠ .error .outside) ∧
    ∀ d, load py strict x = .ok d → ∀ k y b, Visits readers k!"load" x k y → readers k = some b → WellNamed b y := by
  unfold load
  split
  · exact ⟨fun _ => nofun, nofun⟩
  · refine ⟨fun hn => outside_named (le_refl _) (by rfl) hn, fun d h k y b hv hb => ?_⟩
    obtain ⟨m, o, hr⟩ := visits_read readers hv h
    exact named_of_read hr hb

theorem load_iff (py : Py) (strict : Bool) (x : Xml) (ho : load py strict x ≠ .error .outside) :
    (∃ d, load py strict x = .ok d) ↔
      (strict = true → x.tag = k!"AUTOSAR") ∧
      ∀ k y b, Visits readers k!"load" x k y → readers k = some b → Readable py strict b y := by
  unfold load at ho ⊢
  constructor
  · rintro ⟨d, h⟩
    split at h
    · cases h
    · rename_i hc
      refine ⟨fun hs => ?_, fun k y b hv hb => ?_⟩
      · by_contra ht; exact hc ⟨ht, hs⟩
      · obtain ⟨m, o, hr⟩ := visits_read readers hv h
        exact readable_of_read hr hb
  · rintro ⟨ht, h⟩
    have hc : ¬ (x.tag ≠ k!"AUTOSAR" ∧ strict = true) := fun hc => hc.1 (ht hc.2)
    rw [if_neg hc] at ho ⊢
    rcases read_of_readable (n := x.depth) (le_refl _) (by rfl) h with h' | h'
    · exact h'
    · exact absurd h' ho

/-- **C92** A file is loaded if and only if every element that is read can be read by itself: its texts are what values of these kinds have to
be, what is needed is there, and (in strict mode) it has no child that is not supported (`Spec/Readable`).  So nothing about the rest of the
file, its size, its depth or the order of its elements makes a difference.  (What is missing: files in which elements have the same name or no
name.) -/
theorem C92_partial (py : Py) (strict : Bool) (x : Xml)
    (hn : ∀ k y b, Visits readers k!"load" x k y → readers k = some b → WellNamed b y) :
    (∃ d, load py strict x = .ok d) ↔
      (strict = true → x.tag = k!"AUTOSAR") ∧
      ∀ k y b, Visits readers k!"load" x k y → readers k = some b → Readable py strict b y :=
  load_iff py strict x ((C92_named py strict x).1 hn)

/-- **C92** The same holds for files that are loaded into a document with contents, and for files in which elements have the same name (which
are read into one object): whether a file is loaded does not depend on the document.  (What is missing: documents and files in which elements
of different classes have the same name, or an element has no name.) -/
theorem C92_into_partial (py : Py) (strict : Bool) (d : MObj py.F) (x : Xml) (ho : loadInto py strict d x ≠ .error .outside) :
    (∃ d', loadInto py strict d x = .ok d') ↔
      (strict = true → x.tag = k!"AUTOSAR") ∧
      ∀ k y b, Visits readers k!"load" x k y → readers k = some b → Readable py strict b y := by
  unfold loadInto at ho ⊢
  constructor
  · rintro ⟨d', h⟩
    split at h
    · cases h
    · rename_i hc
      refine ⟨fun hs => ?_, fun k y b hv hb => ?_⟩
      · by_contra ht; exact hc ⟨ht, hs⟩
      · obtain ⟨m, o, r, hr⟩ := visits_into hv h
        exact readable_of_into hr hb
  · rintro ⟨ht, h⟩
    have hc : ¬ (x.tag ≠ k!"AUTOSAR" ∧ strict = true) := fun hc => hc.1 (ht hc.2)
    rw [if_neg hc] at ho ⊢
    rcases into_of_readable (n := x.depth) (le_refl _) (by rfl) h (some d) with h' | h'
    · exact h'
    · exact absurd h' ho

/-- **C92** So a file that can be loaded by itself can be loaded into any document, and a file that can be loaded into some document can be
loaded into any other. -/
theorem C92_other_partial (py : Py) (strict : Bool) (d d₁ d' : MObj py.F) (x : Xml)
    (h : load py strict x = .ok d' ∨ loadInto py strict d₁ x = .ok d') (ho : loadInto py strict d x ≠ .error .outside) :
    ∃ d'', loadInto py strict d x = .ok d'' := by
  refine (C92_into_partial py strict d x ho).2 ?_
  rcases h with h | h
  · exact (load_iff py strict x (by rw [h]; simp)).1 ⟨d', h⟩
  · exact (C92_into_partial py strict d₁ x (by rw [h]; simp)).1 ⟨d', h⟩

/-- **C92** So a list of files is loaded into one document if and only if each of the files can be loaded. -/
theorem C92_files_partial (py : Py) (strict : Bool) (xs : List Xml) (d : MObj py.F) (ho : loadAll py strict d xs ≠ .error .outside) :
    (∃ d', loadAll py strict d xs = .ok d') ↔
      ∀ x ∈ xs, (strict = true → x.tag = k!"AUTOSAR") ∧
        ∀ k y b, Visits readers k!"load" x k y → readers k = some b → Readable py strict b y := by
  unfold loadAll at ho ⊢
  induction xs generalizing d with
  | nil => simp [foldE]
  | cons x xs ih =>
    simp only [foldE, List.mem_cons, forall_eq_or_imp] at ho ⊢
    have hx := C92_into_partial py strict d x
    cases h : loadInto py strict d x with
    | error e =>
      rw [h] at ho hx
      have := hx (by simpa using ho)
      simp only [reduceCtorEq, exists_false, false_iff] at this ⊢
      exact fun hc => this hc.1
    | ok d₁ =>
      rw [h] at ho hx
      rw [ih d₁ ho, ← hx (by simp)]
      simp

/-- **C92** In which order files are loaded makes no difference to whether they are loaded. -/
theorem C92_order_partial (py : Py) (strict : Bool) (xs ys : List Xml) (hp : xs.Perm ys) (d d' : MObj py.F)
    (h : loadAll py strict d xs = .ok d') (ho : loadAll py strict d ys ≠ .error .outside) : ∃ d'', loadAll py strict d ys = .ok d'' :=
  (C92_files_partial py strict ys d ho).2 fun x hx =>
    (C92_files_partial py strict xs d (by rw [h]; simp)).1 ⟨d', h⟩ x (hp.mem_iff.2 hx)

/-- **C92** Loading ends: with a document, or with one of three exceptions of the library, or (only with warnings) with the use of a variable
that has no value, for files in the model.  `NotImplementedError` is only raised in strict mode. -/
theorem C92_errors (py : Py) (strict : Bool) (x : Xml) :
    (∃ d, load py strict x = .ok d) ∨ load py strict x = .error .outside ∨
    load py strict x = .error (.py .valueError) ∨ load py strict x = .error (.py .attributeError) ∨
    (strict = true ∧ load py strict x = .error (.py .notImplemented)) ∨ (strict = false ∧ load py strict x = .error .unbound) := by
  unfold load
  split
  · exact .inr (.inr (.inl rfl))
  · cases h : readObj py strict readers x.depth k!"load" x with
    | ok d => exact .inl ⟨d, rfl⟩
    | error e =>
      have := read_err (le_refl _) (by rfl) h
      right
      cases e with
      | fuel => cases this
      | outside => exact .inl rfl
      | unbound => cases strict <;> simp_all [loadErr]
      | py e => cases e <;> simp_all [loadErr]

/-- **C92** One element with something wrong is enough: the file is not loaded. -/
theorem C92_rejected (py : Py) (strict : Bool) (x : Xml) (k : Key) (y : Xml) (b : RBody) (hv : Visits readers k!"load" x k y)
    (hb : readers k = some b) (s : RSlot) (hs : s ∈ b.slots) (z : Xml) (hz : z ∈ select s.path y) (hf : ¬ ItemFine py strict s.item z)
    (d : MObj py.F) : load py strict x ≠ .ok d := fun h =>
  hf ((((load_iff py strict x (by rw [h]; simp)).1 ⟨d, h⟩).2 k y b hv hb).fine s hs z hz)

/-- **C92** Whatever a file contains, if it is loaded in strict mode, it is loaded with warnings, too. -/
theorem C92_modes (py : Py) (x : Xml) (d : MObj py.F) (h : load py true x = .ok d) : ∃ d', load py false x = .ok d' := by
  have hn := (C92_named py true x).2 d h
  have := (C92_partial py true x hn).1 ⟨d, h⟩
  refine (C92_partial py false x hn).2 ⟨nofun, fun k y b hv hb => ?_⟩
  have hr := this.2 k y b hv hb
  refine ⟨fun s hs z hz => ?_, fun s hs hq => hr.there s hs ?_⟩
  · have := hr.fine s hs z hz
    cases hi : s.item with
    | attr n kk => cases kk <;> simp [ItemFine]
    | guard tags g => rw [hi] at this; exact .inl (by simpa [ItemFine] using this)
    | _ => rw [hi] at this; exact this
  · rcases hq with h | h
    · exact .inl h
    · cases h.2

/-- a file with a signal of a length -/
def lengthFile (s : String) : Xml := fileOf [pkgOf "P" [
  .node k!"ELEMENTS" [] [] [.node k!"I-SIGNAL" [] [] [txt k!"SHORT-NAME" "S", txt k!"LENGTH" s]]]]

/-- A length in one of the documented formats is loaded, even in strict mode, and so everything in the file can be read. -/
example : (∃ d, load Py.demo true (lengthFile "0x11") = .ok d) ∧
    ∀ k y b, Visits readers k!"load" (lengthFile "0x11") k y → readers k = some b → Readable Py.demo true b y := by
  have h : ∃ d, load Py.demo true (lengthFile "0x11") = .ok d := ⟨_, by rfl⟩
  exact ⟨h, ((load_iff Py.demo true _ (by obtain ⟨d, hd⟩ := h; rw [hd]; simp)).1 h).2⟩

/-- Any other text is not, not even with warnings, and an element is to blame. -/
example : load Py.demo false (lengthFile "many") = .error (.py .valueError) ∧
    ∃ k y b, Visits readers k!"load" (lengthFile "many") k y ∧ readers k = some b ∧ ¬ Readable Py.demo false b y := by
  have h : load Py.demo false (lengthFile "many") = .error (.py .valueError) := by rfl
  refine ⟨h, ?_⟩
  by_contra hn
  push Not at hn
  obtain ⟨d, hd⟩ := (load_iff Py.demo false _ (by rw [h]; simp)).2 ⟨nofun, hn⟩
  rw [h] at hd; cases hd

/-- A file with an element that is not supported is loaded with warnings, so its names are as they have to be; in strict mode it is not, and an
element is to blame. -/
example (py : Py) : ∃ x, (∃ d, load py false x = .ok d) ∧
    (∀ k y b, Visits readers k!"load" x k y → readers k = some b → WellNamed b y) ∧
    ∃ k y b, Visits readers k!"load" x k y ∧ readers k = some b ∧ Readable py false b y ∧ ¬ Readable py true b y := by
  let x := fileOf [pkgOf "P" [.node k!"ELEMENTS" [] [] [.node k!"VENDOR-ELEMENT" [] [] []]]]
  have h : ∃ d, load py false x = .ok d := ⟨_, by rfl⟩
  have hn := (C92_named py false x).2 _ h.choose_spec
  refine ⟨x, h, hn, ?_⟩
  by_contra hc
  push Not at hc
  obtain ⟨d, hd⟩ := (C92_partial py true x hn).2 ⟨fun _ => rfl, fun k y b hv hb =>
    hc k y b hv hb (((C92_partial py false x hn).1 h).2 k y b hv hb)⟩
  have he : load py true x = .error (.py .notImplemented) := by rfl
  rw [he] at hd; cases hd

/-- A file that is read twice, and a faulty file that is not read into a document with contents either. -/
example : ∃ d, load Py.demo true (lengthFile "0x11") = .ok d ∧ (∃ d', loadInto Py.demo true d (lengthFile "0x11") = .ok d') ∧
    loadInto Py.demo false d (lengthFile "many") = .error (.py .valueError) ∧
    ∃ k y b, Visits readers k!"load" (lengthFile "many") k y ∧ readers k = some b ∧ ¬ Readable Py.demo false b y := by
  refine ⟨_, by rfl, ⟨_, by rfl⟩, by rfl, ?_⟩
  by_contra hn
  push Not at hn
  have h : loadInto Py.demo false (newDoc Py.demo) (lengthFile "many") = .error (.py .valueError) := by rfl
  obtain ⟨d, hd⟩ := (C92_into_partial Py.demo false _ _ (by rw [h]; simp)).2 ⟨nofun, hn⟩
  rw [h] at hd; cases hd

/-- Two files, in either order, and with a faulty one among them. -/
example : (∃ d, loadAll Py.demo true (newDoc Py.demo) [lengthFile "0x11", fileA] = .ok d) ∧
    (∃ d, loadAll Py.demo true (newDoc Py.demo) [fileA, lengthFile "0x11"] = .ok d) ∧
    loadAll Py.demo false (newDoc Py.demo) [fileA, lengthFile "many", lengthFile "0x11"] = .error (.py .valueError) :=
  ⟨⟨_, by rfl⟩, ⟨_, by rfl⟩, by rfl⟩

/-- A file with another root element is only loaded with warnings. -/
example (py : Py) : load py true (pkgOf "P" []) = .error (.py .valueError) ∧ ∃ d, load py false (pkgOf "P" []) = .ok d := ⟨by rfl, _, by rfl⟩

/-- **C92** It is not so that every well-formed AUTOSAR file can be loaded with warnings: for a kind of value the reader does not know (here
`REFERENCE-VALUE-SPECIFICATION`, as the value of a constant's field) it uses a variable that has no value. -/
theorem C92_broken (py : Py) : ∃ x, load py true x = .error (.py .notImplemented) ∧ load py false x = .error .unbound :=
  ⟨fileOf [pkgOf "P" [.node k!"ELEMENTS" [] [] [.node k!"CONSTANT-SPECIFICATION" [] [] [txt k!"SHORT-NAME" "C",
    .node k!"VALUE-SPEC" [] [] [.node k!"RECORD-VALUE-SPECIFICATION" [] [] [.node k!"FIELDS" [] [] [
      .node k!"REFERENCE-VALUE-SPECIFICATION" [] [] []]]]]]]], by rfl, by rfl⟩

end Verif.Props
