import Verif.Model.Chars
import Verif.Lemmas.FormatMain
/-!
# C55: formatting a file
-/
namespace Verif.Props
open Verif Verif.Model Verif.Spec Verif.Lemmas

/-- a file with an attribute, a text of two lines, a blank line between two elements, and text beside elements -/
private def sample : Str := "<A x=\"1\">\n\n<B>b\nc</B>see<C/></A>".toList

private def sampleTree : El :=
  .mk "A".toList [("x".toList, "1".toList)] "\n\n".toList
    [.mk "B".toList [] "b\nc".toList [] "see".toList, .mk "C".toList [] [] [] []] []

private theorem sample_parsed : parseXml NameChars.ascii.plain sample = some sampleTree := rfl

/-- ASCII names have no characters that end a line -/
private theorem ascii_names : OneLineNames NameChars.ascii := by
  intro c h he
  have : ∀ c ∈ lineEnds, NameChars.ascii.char c = false := by decide
  rw [this c he] at h
  cases h

/-- C55: what formatting does to any file that can be read: the result can be read, and gives the same elements in the
same order, with the same names; `Formatted` says what becomes of the attributes, the texts and the white space. -/
theorem C55_formatted (py : Py) (nc : NameChars) (hnc : OneLineNames nc) (s : Str) (e : El) (h : parseXml nc.plain s = some e) :
    ∃ t e', formatXml py nc s = some t ∧ parseXml nc t = some e' ∧ Formatted py 0 e e' :=
  ⟨_, _, formatXml_eq hnc h, parse_formatted (nc := nc) (named_of_plain (parsed_named h)), formatted_read py e 0⟩

/-- C55 for documents of data: when no attribute value has a line end or a tab and no text of a leaf has a blank line inside
(and its lines end with `\n`), all attributes and all texts of leaves are kept. -/
theorem C55_kept_partial (py : Py) (nc : NameChars) (hnc : OneLineNames nc) (s : Str) (e : El) (h : parseXml nc.plain s = some e)
    (ha : EveryEl PlainAttrs e) (hl : EveryEl (PlainLeaf py) e) :
    ∃ t e', formatXml py nc s = some t ∧ parseXml nc t = some e' ∧ SameData e e' :=
  ⟨_, _, formatXml_eq hnc h, parse_formatted (nc := nc) (named_of_plain (parsed_named h)), sameData_of (formatted_read py e 0) ha hl⟩

/-- C55: the condition on the texts of the leaves is necessary: a text is kept exactly when it has no blank line inside and
its lines end with `\n`. -/
theorem C55_text (py : Py) (s : Str) : squeezed py s = s ↔ Even py s := even_iff py s

/-- C55: formatting a formatted file changes nothing, when no attribute value has a line end or a tab. -/
theorem C55_again_partial (py : Py) (nc : NameChars) (hnc : OneLineNames nc) (s : Str) (e : El) (h : parseXml nc.plain s = some e)
    (ha : EveryEl PlainAttrs e) :
    ∃ t, formatXml py nc s = some t ∧ formatXml py nc t = some t := by
  refine ⟨_, formatXml_eq hnc h, ?_⟩
  have hp := parse_formatted (py := py) (nc := nc.plain) (parsed_named h)
  rw [read_plain ha] at hp
  rw [formatXml_eq hnc hp, formatted_again]

private theorem oneLine_one : OneLine "1".toList := by
  have : ∀ c ∈ "1".toList, c ≠ '\t' ∧ c ∉ lineEnds := by decide
  exact this

private theorem sample_attrs : EveryEl PlainAttrs sampleTree := by
  refine .mk _ _ _ _ _ ?_ ?_
  · intro a ha
    simp only [El.attrs, List.mem_singleton] at ha
    subst ha
    exact oneLine_one
  · intro k hk
    simp only [List.mem_cons, List.not_mem_nil, or_false] at hk
    rcases hk with rfl | rfl
    · exact .mk _ _ _ _ _ (by intro a ha; cases ha) (by intro k hk; cases hk)
    · exact .mk _ _ _ _ _ (by intro a ha; cases ha) (by intro k hk; cases hk)

private theorem sample_leaves (py : Py) : EveryEl (PlainLeaf py) sampleTree := by
  refine .mk _ _ _ _ _ (by intro h; cases h) ?_
  intro k hk
  simp only [List.mem_cons, List.not_mem_nil, or_false] at hk
  rcases hk with rfl | rfl
  · exact .mk _ _ _ _ _ (fun _ => (even_iff py _).1 rfl) (by intro k hk; cases hk)
  · exact .mk _ _ _ _ _ (fun _ => (even_iff py _).1 rfl) (by intro k hk; cases hk)

/-- the theorems apply to the sample file; this is what it becomes -/
example (py : Py) : formatXml py NameChars.ascii sample =
    some t!"<?xml version=\"1.0\" encoding=\"UTF-8\"?>\n<A x=\"1\">\n  <B>b\nc</B>\n  see\n  <C></C>\n</A>\n" := by
  rw [formatXml_eq ascii_names sample_parsed]
  have hsee : squeezed py ('\n' :: textPart "  ".toList "see".toList ++ "  ".toList) = "\n  see\n  ".toList := by
    have h1 : seen py "  see".toList = true := by
      cases h : seen py "  see".toList with
      | true => rfl
      | false =>
        have := seen_false h 's' (by decide)
        rw [py.space_ascii _ (by decide)] at this
        exact absurd this (by decide)
    rw [squeezed_eq, linesOf_around py (by decide) (by decide)]
    have : linesOf ("  ".toList ++ "see".toList) = ["  see".toList] := rfl
    rw [this, List.filter_cons, if_pos h1]
    rfl
  have htop : squeezed py ('\n' :: textPart "  ".toList "\n\n".toList ++ "  ".toList) = "\n  ".toList := by
    refine around_blank py (by decide) (by decide) ?_
    rw [visible_nil_iff]
    have h0 : seen py [] = false := seen_blank (by intro c hc; cases hc)
    have : linesOf "\n\n".toList = [[], [], []] := rfl
    rw [this]
    simp [h0]
  have hC : unpatched py "C".toList true = false := by
    unfold unpatched
    have : py.word 'C' = true := by rw [py.word_ascii _ (by decide)]; decide
    simp [this]
  have hf : formatted py [] sampleTree = .mk "A".toList [("x".toList, "1".toList)] "\n  ".toList
      [.mk "B".toList [] "b\nc".toList [] "\n  see\n  ".toList, .mk "C".toList [] [] [] "\n".toList] [] := by
    have : formatted py [] sampleTree = .mk "A".toList [("x".toList, "1".toList)] (squeezed py ('\n' :: textPart "  ".toList "\n\n".toList ++ "  ".toList))
      [.mk "B".toList [] "b\nc".toList [] (squeezed py ('\n' :: textPart "  ".toList "see".toList ++ "  ".toList)), .mk "C".toList [] [] [] "\n".toList] [] := rfl
    rw [this, hsee, htop]
  rw [hf]
  have hCC : flat domData domData (unpatched py) (.mk "C".toList [] [] [] "\n".toList) = "<C></C>".toList := by
    rw [flat, List.isEmpty_nil, hC, flats]; decide +kernel
  have hB : flat domData domData (unpatched py) (.mk "B".toList [] "b\nc".toList [] "\n  see\n  ".toList) = "<B>b\nc</B>".toList := by
    rw [flat, if_neg (by simp), flats]; decide +kernel
  rw [flat, if_neg (by simp), flats, flats, flats, hCC, hB]
  congr 1

example (py : Py) : ∃ t e', formatXml py NameChars.ascii sample = some t ∧ parseXml NameChars.ascii t = some e' ∧ SameData sampleTree e' :=
  C55_kept_partial py _ ascii_names _ _ sample_parsed sample_attrs (sample_leaves py)

example (py : Py) : ∃ t, formatXml py NameChars.ascii sample = some t ∧ formatXml py NameChars.ascii t = some t :=
  C55_again_partial py _ ascii_names _ _ sample_parsed sample_attrs

/-- C55 does not hold for every file: a blank line inside the text of a leaf is lost. -/
theorem C55_kept_broken (py : Py) : ∃ s e t e', parseXml NameChars.ascii.plain s = some e ∧ formatXml py NameChars.ascii s = some t ∧
    parseXml NameChars.ascii t = some e' ∧ ¬ SameData e e' := by
  have h : parseXml NameChars.ascii.plain "<A>a\n\nb</A>".toList = some (.mk "A".toList [] "a\n\nb".toList [] []) := rfl
  refine ⟨_, _, _, _, h, formatXml_eq ascii_names h, parse_formatted (nc := NameChars.ascii) (named_of_plain (parsed_named h)), ?_⟩
  intro hs
  cases hs with
  | mk _ _ _ _ _ _ _ _ _ _ htx _ =>
  have : squeezed py "a\n\nb".toList = "a\n\nb".toList := htx rfl
  rw [even_iff] at this
  exact this.2 ⟨"a".toList, [], "b".toList, rfl, by intro c hc; cases hc⟩

/-- Formatting again is not always without effect: a line end in an attribute value (written as a character reference)
becomes a plain line end and then a blank. -/
theorem C55_again_broken (py : Py) : ∃ s t t', formatXml py NameChars.ascii s = some t ∧ formatXml py NameChars.ascii t = some t' ∧ t' ≠ t := by
  have h : parseXml NameChars.ascii.plain "<A x=\"a&#10;b\"/>".toList = some (.mk "A".toList [("x".toList, "a\nb".toList)] [] [] []) := rfl
  have h2 := parse_formatted (py := py) (nc := NameChars.ascii.plain) (parsed_named h)
  have hq : squeezed py "a\nb".toList = "a\nb".toList := rfl
  have hb : squeezed py "a b".toList = "a b".toList := rfl
  have hv : flatValue "a\nb".toList = "a b".toList := by decide +kernel
  have e2 : El.map (squeezed py) (fun v => flatValue (squeezed py v)) (lay [] (El.mk "A".toList [("x".toList, "a\nb".toList)] [] [] []).dom) =
      .mk "A".toList [("x".toList, "a b".toList)] [] [] [] := by
    rw [← hv, ← hq]; rfl
  rw [e2] at h2
  refine ⟨_, _, _, formatXml_eq ascii_names h, formatXml_eq ascii_names h2, ?_⟩
  have f1 : formatted py [] (.mk "A".toList [("x".toList, "a\nb".toList)] [] [] []) = .mk "A".toList [("x".toList, "a\nb".toList)] [] [] [] := rfl
  have f2 : formatted py [] (.mk "A".toList [("x".toList, "a b".toList)] [] [] []) = .mk "A".toList [("x".toList, "a b".toList)] [] [] [] := rfl
  rw [f1, f2, flat, flat]
  have hu : unpatched py "A".toList [("x".toList, "a\nb".toList)].isEmpty = true := rfl
  have hu2 : unpatched py "A".toList [("x".toList, "a b".toList)].isEmpty = true := rfl
  rw [hu, hu2, flats]
  decide +kernel

end Verif.Props
