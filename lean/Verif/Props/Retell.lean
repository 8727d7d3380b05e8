import Verif.Lemmas.RetellTable
import Verif.Props.Exchange
/-!
# Property C100: a change of texts of a file changes only the values that are read from them
-/
namespace Verif.Props
open Verif Verif.Model Verif.Spec Verif.Lemmas

/-- **C100** If texts of a file are replaced by other texts (`Retold`), in any elements, and neither the old ones nor the new ones are blank, the
documents that are read have the same objects in the same order, with the same attributes and the same number of values in each.  Only values
read from the elements with the replaced texts are different, and they are what the same accessor makes of the new text (`ValueFrom`). -/
theorem C100_texts (py : Py) (strict : Bool) (P : Key → Str → Str → Prop) (hP : ∀ t s s', P t s s' → blank py s = false ∧ blank py s' = false)
    (x x' : Xml) (h : Retold P x x') (d d' : MObj py.F) (h1 : load py strict x = .ok d) (h2 : load py strict x' = .ok d') :
    Renewed (ValueFrom py P) d d' := load_retold hP h h1 h2

/-- **C100** The text of the elements that hold other elements (`Holder`) is not read: it is only the space between those elements.  Whatever is
written there, blank or not, the outcome of loading the file is the same, be it a document or an error.  There are thirty-two kinds of elements
whose own text is read as well (`textual`). -/
theorem C100_space (py : Py) (strict : Bool) (x x' : Xml) (h : Retold (fun t _ _ => Holder t ∧ t ∉ textual) x x') :
    load py strict x = load py strict x' := load_spaced h

/-! ## Examples -/

/-- the category of the package in a file is replaced by another one -/
def fileCategory (s : String) : Xml := fileOf [pkgOf "P" [txt k!"CATEGORY" s, .node k!"ELEMENTS" [] [] [unitMetre]]]

/-- the text of a category is replaced -/
def categories (t : Key) (s s' : Str) : Prop := t = k!"CATEGORY" ∧ s = "STANDARD".toList ∧ s' = "ICS".toList

theorem retold_same {P : Key → Str → Str → Prop} (t : Key) (s : String) : Retold P (txt t s) (txt t s) := .node _ _ _ _ _ _ (.inl rfl) .nil

/-- both files can be loaded, the documents are different, and it is the category that is different -/
example (py : Py) : ∃ d d', load py true (fileCategory "STANDARD") = .ok d ∧ load py true (fileCategory "ICS") = .ok d' ∧ d ≠ d' ∧
    Renewed (ValueFrom py categories) d d' := by
  have hb : blank py "STANDARD".toList = false := by simp [blank, py.space_ascii 'S' (by decide), asciiSpace]
  have hb' : blank py "ICS".toList = false := by simp [blank, py.space_ascii 'I' (by decide), asciiSpace]
  have hx : ∃ d d' p p', load py true (fileCategory "STANDARD") = .ok d ∧ load py true (fileCategory "ICS") = .ok d' ∧
      d.get k!"arPackages" = [p] ∧ d'.get k!"arPackages" = [p'] ∧ p.get k!"category" = [.scal (.lit none none "STANDARD".toList)] ∧
      p'.get k!"category" = [.scal (.lit none none "ICS".toList)] := by
    refine ⟨_, _, _, _, by rfl, by rfl, by rfl, by rfl, by rfl, by rfl⟩
  obtain ⟨d, d', p, p', h1, h2, hp, hp', hc, hc'⟩ := hx
  refine ⟨d, d', h1, h2, ?_, C100_texts py true categories ?_ _ _ ?_ d d' h1 h2⟩
  · rintro rfl
    rw [hp] at hp'; cases hp'
    rw [hc] at hc'
    simp at hc'
  · rintro _ _ _ ⟨rfl, rfl, rfl⟩; exact ⟨hb, hb'⟩
  · refine .node _ _ _ _ _ _ (.inl rfl) (.cons (.node _ _ _ _ _ _ (.inl rfl) (.cons (.node _ _ _ _ _ _ (.inl rfl) (.cons (retold_same _ _) (.cons ?_
      (.cons (.node _ _ _ _ _ _ (.inl rfl) (.cons (.node _ _ _ _ _ _ (.inl rfl) (.cons (retold_same _ _) .nil)) .nil)) .nil)))) .nil)) .nil)
    exact .node _ _ _ _ _ _ (.inr ⟨rfl, rfl, rfl⟩) .nil

/-- a file with this text in the list of the elements of a package and in the unit -/
def fileSpace (s : String) : Xml :=
  fileOf [pkgOf "P" [.node k!"ELEMENTS" [] s.toList [.node k!"UNIT" [] s.toList [txt k!"SHORT-NAME" "m"]]]]

/-- a method of the reader looks for elements inside the elements with this tag -/
def stepsB (k t : Key) : Bool := match readers k with
  | none => false
  | some b => b.slots.any fun s => (stepsOf s.path).contains t

theorem stepsB_sound {k t : Key} (h : stepsB k t = true) : Holder t := by
  unfold stepsB at h
  split at h
  · cases h
  · rename_i b hb
    obtain ⟨s, hs, h⟩ := List.any_eq_true.1 h
    exact .inr ⟨k, b, s, hb, hs, List.contains_iff_mem.1 h⟩

theorem elements_holder : Holder k!"ELEMENTS" := stepsB_sound (k := k!"readARPackages_ARPackage") (by decide +kernel)

/-- the elements of a package can be written one per line or all in one -/
example (py : Py) : ∃ d, load py true (fileSpace "") = .ok d ∧ load py true (fileSpace "\n    ") = .ok d := by
  have h1 : ∃ d, load py true (fileSpace "") = .ok d := ⟨_, by rfl⟩
  obtain ⟨d, h1⟩ := h1
  refine ⟨d, h1, ?_⟩
  rw [← h1]
  refine (C100_space py true _ _ ?_).symm
  refine .node _ _ _ _ _ _ (.inl rfl) (.cons (.node _ _ _ _ _ _ (.inl rfl) (.cons (.node _ _ _ _ _ _ (.inl rfl) (.cons (retold_same _ _)
    (.cons (.node _ _ _ _ _ _ (.inr ⟨elements_holder, by decide⟩) (.cons (.node _ _ _ _ _ _ (.inr ⟨.inl unit_object, by decide⟩)
      (.cons (retold_same _ _) .nil)) .nil)) .nil))) .nil)) .nil)

/-- The text of an emphasis is one of those that are read, though objects are made of the elements: another text is another object. -/
theorem C100_needed (py : Py) : Holder k!"E" ∧ k!"E" ∈ textual ∧ ∃ v v' : MObj py.F, v ≠ v' ∧
    readObj py true readers 1 k!"readEmphasisText_EmphasisText" (.node k!"E" [] "1".toList []) = .ok v ∧
    readObj py true readers 1 k!"readEmphasisText_EmphasisText" (.node k!"E" [] "2".toList []) = .ok v' := by
  refine ⟨.inl (makesB_sound (k := k!"readLLongName_LLongName") (by decide +kernel)), by decide, ?_⟩
  have hx : ∃ v v' : MObj py.F, readObj py true readers 1 k!"readEmphasisText_EmphasisText" (.node k!"E" [] "1".toList []) = .ok v ∧
      readObj py true readers 1 k!"readEmphasisText_EmphasisText" (.node k!"E" [] "2".toList []) = .ok v' ∧ v.get k!"value" = [.scal (.lit none none "1".toList)] ∧
      v'.get k!"value" = [.scal (.lit none none "2".toList)] := ⟨_, _, by rfl, by rfl, by rfl, by rfl⟩
  obtain ⟨v, v', h1, h2, h3, h4⟩ := hx
  refine ⟨v, v', ?_, h1, h2⟩
  rintro rfl
  rw [h3] at h4
  simp at h4

end Verif.Props
