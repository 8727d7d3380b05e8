import Verif.Model.Chars
import Verif.Lemmas.Provenance
import Verif.Lemmas.Parsed
import Verif.Props.Codec
import Verif.Props.Markup
/-!
# C33, C34 and C50: from file to file
-/
namespace Verif.Props
open Verif Verif.Model Verif.Spec Verif.Lemmas

theorem at_every {P : Xml → Prop} {x : Xml} (h : Every P x) (p : List Nat) (e : Xml) (he : at? p x = some e) : Every P e := by
  induction p generalizing x with
  | nil => cases he; exact h
  | cons i p ih =>
    rw [at?] at he
    split at he
    · cases he
    · next y hy => exact ih (h.kid (List.mem_of_getElem? hy)) he

theorem every_at {P : Xml → Prop} : (x : Xml) → (∀ p e, at? p x = some e → P e) → Every P x := by
  have key : ∀ n (x : Xml), x.depth ≤ n → (∀ p e, at? p x = some e → P e) → Every P x := by
    intro n
    induction n with
    | zero => intro x hn; cases x; simp [Xml.depth] at hn
    | succ n ih =>
      intro x hn h
      cases x with
      | node t as s kids =>
        refine .node _ _ _ _ (h [] _ rfl) fun k hk => ih k ?_ ?_
        · have := depth_kid (x := .node t as s kids) hk
          omega
        · intro p e he
          obtain ⟨i, hi, hik⟩ := List.getElem_of_mem hk
          refine h (i :: p) e ?_
          rw [at?]
          have : (Xml.node t as s kids).kids[i]? = some k := by rw [← hik]; exact List.getElem?_eq_getElem hi
          rw [this]
          exact he
  exact fun x => key x.depth x (Nat.le_refl _)

theorem strip_sub (py : Py) (s : Str) : ∀ c ∈ py.strip s, c ∈ s := by
  intro c hc
  unfold Py.strip at hc
  have h1 := (List.dropWhile_sublist _).subset (List.mem_reverse.1 hc)
  exact (List.dropWhile_sublist _).subset (List.mem_reverse.1 h1)

/-- **C50** Saving invents nothing: every text and every attribute value of the saved tree is a text or attribute value of the
tree that was loaded, perhaps without the blanks around it, or one of the library's own words. -/
theorem C50 (py : Py) (repr : py.F → Str) (strict : Bool) (x : Xml) (d : MObj py.F) (hl : load py strict x = .ok d) (y : Xml)
    (hs : save py repr strict d = .ok y) (s : Str) (hy : Occurs s y) :
    (∃ t, Occurs t x ∧ (s = t ∨ s = py.strip t)) ∨ s ∈ ownTexts := by
  have hx : Every (Strs fun s => Occurs s x) x :=
    every_at x fun p e he => ⟨⟨p, e, he, .inl rfl⟩, fun a ha => ⟨p, e, he, .inr ⟨a, ha, rfl⟩⟩⟩
  have hd : Derived py (fun s => Occurs s x) (fun s => (∃ t, Occurs t x ∧ (s = t ∨ s = py.strip t)) ∨ s ∈ ownTexts) :=
    ⟨fun s h => .inl ⟨s, h, .inl rfl⟩, fun s h => .inl ⟨s, h, .inr rfl⟩, fun s h => .inr h⟩
  obtain ⟨p, e, he, h⟩ := hy
  have hq := (at_every (saved_Q hd hx hl hs) p e he).here
  rcases h with rfl | ⟨a, ha, rfl⟩
  · exact hq.1
  · exact hq.2 a ha

/-- What is saved after a file was loaded can be written. -/
theorem saved_writable {py : Py} {repr : py.F → Str} {strict : Bool} {nc : NameChars} {x : Xml} (hx : Every GoodChars x) {d : MObj py.F}
    (hl : load py strict x = .ok d) {y : Xml} (hs : save py repr strict d = .ok y) : Writable nc y := by
  refine ⟨save_names nc hs, ?_⟩
  have hx' : Every (Strs fun s => ∀ c ∈ s, XmlChar c) x :=
    every_at x fun p e he => ⟨(at_every hx p e he).here.2, (at_every hx p e he).here.1⟩
  have hd : Derived py (fun s => ∀ c ∈ s, XmlChar c) (fun s => ∀ c ∈ s, XmlChar c) :=
    ⟨fun s h => h, fun s h c hc => h c (strip_sub py s c hc), by
      have : ∀ s ∈ ownTexts, ∀ c ∈ s, xmlChar c = true := by decide +kernel
      exact fun s hs c hc => xmlChar_of (this s hs c hc)⟩
  exact every_at y fun p e he => by
    have := (at_every (saved_Q hd hx' hl hs) p e he).here
    exact ⟨this.2, this.1⟩

/-- **C33** Loading a file and saving it never fails because of what is in the file: whenever the document can be turned into
a tree, the file is written, and it can be parsed again. -/
theorem C33_written (py : Py) (repr : py.F → Str) (strict : Bool) (nc : NameChars) (s : Str) (x : Xml) (hp : parseFile nc s = some x)
    (d : MObj py.F) (hl : load py strict x = .ok d) (y : Xml) (hs : save py repr strict d = .ok y) :
    ∃ f, saveToFile py nc false y = some f ∧ parseFile nc f = some (laid 0 y) := by
  have h := file_read (py := py) (nc := nc) false (saved_writable (nc := nc) (parseFile_good hp) hl hs) (fun h => by cases h)
  cases hf : saveToFile py nc false y with
  | none => rw [hf] at h; cases h
  | some f => rw [hf] at h; exact ⟨f, rfl, h⟩

/-- **C33, C34** From file to file: a file is loaded, the document saved to a second file, that file is loaded and the
document saved to a third file.  Then the second document is the first one (with the schema location that is written, and up to
the order of what `save` sorts), and the third file is the second one, character by character. -/
theorem C33_file_partial (py : Py) (repr : py.F → Str) (strict : Bool) (nc : NameChars) (s : Str) (x : Xml) (hp : parseFile nc s = some x)
    (d : MObj py.F) (hl : load py strict x = .ok d) (hc : Clean lossy strict d) (hsm : ∀ y, save py repr strict d = .ok y → Every Smooth y) :
    ∃ y f x' d', save py repr strict d = .ok y ∧ saveToFile py nc false y = some f ∧ parseFile nc f = some x' ∧
      load py strict x' = .ok d' ∧ Same reordered (withSchema py d) d' ∧
      ∃ y', save py repr strict d' = .ok y' ∧ saveToFile py nc false y' = some f := by
  obtain ⟨y, d', h1, h2, h3⟩ := C33_partial py repr strict x d hl hc
  obtain ⟨f, hf, hf'⟩ := C33_written py repr strict nc s x hp d hl y h1
  have hr : Reload y (laid 0 y) := reload_laid 0 y (hsm y h1)
  obtain ⟨h4, _⟩ := C34_partial py repr strict x d hl hc y h1 _ hr d' (h2 _ hr)
  exact ⟨y, f, _, d', h1, hf, hf', h2 _ hr, h3, y, h4, hf⟩

/-- a file with two packages in descending order, a composition, special characters, line ends of both kinds -/
def demoFile : Str := t!"<?xml version='1.0'?>\r\n<AUTOSAR xmlns=\"http://autosar.org/schema/r4.0\">
<AR-PACKAGES><AR-PACKAGE UUID=\"&lt;1&gt;\"><SHORT-NAME>Q</SHORT-NAME>
<DESC><L-2 L=\"EN\">a &amp; b &#60;c&#x3e;\r\nd</L-2></DESC>
<ELEMENTS><UNIT><SHORT-NAME>m</SHORT-NAME><DISPLAY-NAME/></UNIT>
<COMPOSITION-SW-COMPONENT-TYPE><SHORT-NAME>Comp</SHORT-NAME><PORTS><P-PORT-PROTOTYPE><SHORT-NAME>p</SHORT-NAME></P-PORT-PROTOTYPE></PORTS>
</COMPOSITION-SW-COMPONENT-TYPE></ELEMENTS></AR-PACKAGE>
<AR-PACKAGE><SHORT-NAME>P</SHORT-NAME></AR-PACKAGE></AR-PACKAGES></AUTOSAR>\n"

/-- the hypotheses of `C33_file_partial` hold for it, in both modes -/
example (strict : Bool) : ∃ x d, parseFile .ascii demoFile = some x ∧ load Py.demo strict x = .ok d ∧ Clean lossy strict d ∧
    (∃ y, save Py.demo (fun _ => []) strict d = .ok y) ∧ ∀ y, save Py.demo (fun _ => []) strict d = .ok y → Every Smooth y := by
  have h : ∀ s : Bool, (match parseFile .ascii demoFile with
      | none => false
      | some x => match load Py.demo s x with
        | .error _ => false
        | .ok d => cleanB lossy s d && (match save Py.demo (fun _ => []) s d with
          | .error _ => false
          | .ok y => everyB smoothB 20 y)) = true := by decide +kernel
  have := h strict
  split at this
  · cases this
  next x hx =>
  split at this
  · cases this
  next d hd =>
  rw [Bool.and_eq_true] at this
  obtain ⟨h1, h2⟩ := this
  split at h2
  · cases h2
  next y hy =>
  refine ⟨x, d, hx, hd, cleanB_sound d h1, ⟨y, hy⟩, fun z hz => ?_⟩
  rw [hy] at hz
  cases hz
  exact everyB_sound smoothB_sound 20 y h2

/-! ### C32 for documents -/

/-- `parser.load`, `writer.save`, and the file read again -/
def fileCycle (py : Py) (repr : py.F → Str) (strict : Bool) (nc : NameChars) (x : Xml) : Option Xml :=
  match load py strict x with
  | .error _ => none
  | .ok d => match save py repr strict d with
    | .error _ => none
    | .ok y => (saveToFile py nc false y).bind (parseFile nc)

def fileCycles (py : Py) (repr : py.F → Str) (strict : Bool) (nc : NameChars) : Nat → Xml → Option Xml
  | 0, x => some x
  | n + 1, x => (fileCycle py repr strict nc x).bind (fileCycles py repr strict nc n)

/-- `document.getARPackages()[0].getLongName().getL4()[0].getValue()` -/
def longNameText {F : Type} (d : MObj F) : Option Str :=
  ((d.get k!"arPackages").head?.bind fun p => (p.get k!"longName").head?.bind fun l => (l.get k!"l4").head?.bind fun l =>
    (l.get k!"value").head?).bind fun
    | .scal (.str s) => some s
    | _ => none

/-- a package whose long name has an emphasised word after the text `s`; `t` is the white space between tags -/
def longDoc (t : Nat → Str) (s : Str) : Xml := .node k!"AUTOSAR" [(k!"xsi:schemaLocation", "x".toList)] (t 0) [.node k!"AR-PACKAGES" [] (t 1) [.node k!"AR-PACKAGE" [] (t 2)
  [.leaf k!"SHORT-NAME" [] "P".toList, .node k!"LONG-NAME" [] (t 3)
  [.node k!"L-4" [(k!"L", "EN".toList)] s [.node k!"TT" [(k!"TYPE", "SGMLTAG".toList)] "word".toList []]]]]]

theorem longDoc_load (py : Py) (strict : Bool) (t : Nat → Str) (c : Char) (s : Str) :
    (match load py strict (longDoc t (c :: s)) with
     | .error _ => none
     | .ok d => longNameText d) = some (c :: s) := by rfl

theorem longDoc_save (py : Py) (repr : py.F → Str) (strict : Bool) (t : Nat → Str) (c : Char) (s : Str) :
    (match load py strict (longDoc t (c :: s)) with
     | .error _ => none
     | .ok d => match save py repr strict d with
       | .error _ => none
       | .ok y => some y) = some (longDoc (fun _ => []) (c :: s)) := by rfl

theorem longDoc_writable (nc : NameChars) (s : Str) (hs : ∀ c ∈ s, XmlChar c) : Writable nc (longDoc (fun _ => []) s) := by
  have hn : everyB namesB 20 (longDoc (fun _ => []) s) = everyB namesB 20 (longDoc (fun _ => []) []) := rfl
  refine ⟨everyB_sound (namesB_sound nc) 20 _ (by rw [hn]; decide +kernel), everyB_sound charsB_sound 20 _ ?_⟩
  have h : s.all xmlChar = true := List.all_eq_true.2 fun c hc => xmlChar_iff c (hs c hc)
  simp only [longDoc, everyB, charsB, Xml.leaf, Xml.kids, Xml.attrs, Xml.text, List.all_cons, List.all_nil, h, Bool.and_true]
  decide +kernel

/-- **C32** The same for documents: the text of a long name before an emphasised word grows with every cycle of loading and
saving. -/
theorem C32_document_broken (py : Py) (repr : py.F → Str) (strict : Bool) (nc : NameChars) (s : Str) (h0 : s ≠ [])
    (hs : ∀ c ∈ s, XmlChar c) (hr : '\r' ∉ s) (n : Nat) :
    ∃ x d, fileCycles py repr strict nc n (longDoc (fun _ => []) s) = some x ∧ load py strict x = .ok d ∧
      longNameText d = some (times n (lineBreak 4) ++ s ++ times n (lineBreak 4)) := by
  have key : ∀ n (t : Nat → Str) (s : Str), s ≠ [] → (∀ c ∈ s, XmlChar c) → '\r' ∉ s → ∃ x d, fileCycles py repr strict nc n (longDoc t s) = some x ∧ load py strict x = .ok d ∧
      longNameText d = some (times n (lineBreak 4) ++ s ++ times n (lineBreak 4)) := by
    intro n
    induction n with
    | zero =>
      intro t s h0 hs hr
      obtain ⟨c, s, rfl⟩ := List.exists_cons_of_ne_nil h0
      have h := longDoc_load py strict t c s
      cases hd : load py strict (longDoc t (c :: s)) with
      | error e => rw [hd] at h; cases h
      | ok d => 
        rw [hd] at h
        exact ⟨_, d, rfl, hd, by simpa [times] using h⟩
    | succ n ih =>
      intro t s h0 hs hr
      have h1 : fileCycle py repr strict nc (longDoc t s) = some (laid 0 (longDoc (fun _ => []) s)) := by
        obtain ⟨c, s, rfl⟩ := List.exists_cons_of_ne_nil h0
        have h := longDoc_save py repr strict t c s
        unfold fileCycle
        cases hd : load py strict (longDoc t (c :: s)) with
        | error e => rw [hd] at h; cases h
        | ok d =>
          rw [hd] at h
          cases hy : save py repr strict d with
          | error e => simp only [hy] at h; cases h
          | ok y =>
            simp only [hy, Option.some.injEq] at h ⊢
            rw [h]
            exact C30_exact py nc _ (longDoc_writable nc _ hs)
      have h2 : laid 0 (longDoc (fun _ => []) s) = longDoc (fun i => lineBreak i) (lineBreak 4 ++ (s ++ lineBreak 4)) := by
        simp only [longDoc, laid, laidAll, Xml.leaf, List.map_cons, List.map_nil, if_neg h0, newlines_plain hr]
        rfl
      obtain ⟨x, d, e1, e2, e3⟩ := ih (fun i => lineBreak i) (lineBreak 4 ++ (s ++ lineBreak 4)) (by simp [lineBreak])
        (by
          have hb : ∀ c ∈ lineBreak 4, XmlChar c := by
            intro c hc
            rcases lineBreak_mem hc with rfl | rfl
            · exact .inr (.inl rfl)
            · exact .inr (.inr (.inr (by decide)))
          intro c hc
          simp only [List.mem_append] at hc
          rcases hc with hc | hc | hc
          · exact hb c hc
          · exact hs c hc
          · exact hb c hc)
        (by
          simp only [List.mem_append, not_or]
          exact ⟨lineBreak_no_cr 4, hr, lineBreak_no_cr 4⟩)
      refine ⟨x, d, by rw [fileCycles, h1, Option.bind_some, h2, e1], e2, ?_⟩
      rw [e3]
      have : ∀ r, times n (lineBreak 4) ++ (lineBreak 4 ++ r) = lineBreak 4 ++ (times n (lineBreak 4) ++ r) := by
        intro r; rw [← List.append_assoc, ← times_succ', times_succ, List.append_assoc]
      simp only [times_succ, List.append_assoc]
      rw [this]
  exact key n _ s h0 hs hr

example : "The ".toList ≠ [] ∧ (∀ c ∈ "The ".toList, XmlChar c) ∧ '\r' ∉ "The ".toList :=
  ⟨by decide, fun c hc => xmlChar_of ((by decide : ∀ c ∈ "The ".toList, xmlChar c = true) c hc), by decide⟩

end Verif.Props
