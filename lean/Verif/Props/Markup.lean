import Verif.Lemmas.MarkupAscii
import Verif.Lemmas.MarkupQuote
import Verif.Lemmas.Names
/-!
# C30–C32: the saved file and the tree
-/
namespace Verif.Props
open Verif Verif.Model Verif.Spec Verif.Lemmas

/-! ### C30 -/

/-- **C30** What is read from the saved file is exactly the tree that was saved, laid out: every text and attribute value
differs at most in its line ends and tabs, and only texts before a child element get line breaks around them. -/
theorem C30_exact (py : Py) (nc : NameChars) (x : Xml) (h : Writable nc x) :
    (saveToFile py nc false x).bind (parseFile nc) = some (laid 0 x) := file_read false h fun h => by cases h

/-- **C30** The saved file has the same tags, attributes, order of children and leaf texts, for trees whose attribute values
have no tabs and line ends and whose leaf texts have no carriage returns. -/
theorem C30_partial (py : Py) (nc : NameChars) (x : Xml) (h : Writable nc x) (hs : Every Smooth x) :
    ∃ f y, saveToFile py nc false x = some f ∧ parseFile nc f = some y ∧ Reload x y := by
  have h1 := C30_exact py nc x h
  cases hf : saveToFile py nc false x with
  | none => rw [hf] at h1; cases h1
  | some f => rw [hf] at h1; exact ⟨f, _, rfl, h1, reload_laid 0 x hs⟩

/-- **C30** … and for no others: which trees are changed by saving them. -/
theorem C30_iff (py : Py) (nc : NameChars) (x : Xml) (h : Writable nc x) :
    (∃ f y, saveToFile py nc false x = some f ∧ parseFile nc f = some y ∧ Reload x y) ↔ Every Smooth x := by
  constructor
  · rintro ⟨f, y, h1, h2, h3⟩
    have h4 := C30_exact py nc x h
    rw [h1, Option.bind_some, h2] at h4
    cases h4
    exact smooth_of_reload 0 x h3
  · exact C30_partial py nc x h

/-- **C30** A tree is saved if and only if all of its characters are allowed in XML; otherwise saving fails before the file
is opened (names are those of the writer). -/
theorem C30_saved_iff (py : Py) (nc : NameChars) (x : Xml) (h : Every (GoodNames nc) x) :
    (saveToFile py nc false x).isSome ↔ Every GoodChars x := by
  constructor
  · intro hs
    by_contra hg
    rw [bad_unsaved py nc false hg] at hs
    cases hs
  · intro hg
    have := C30_exact py nc x ⟨h, hg⟩
    cases hf : saveToFile py nc false x with
    | none => rw [hf] at this; cases this
    | some f => rfl

/-- a package whose name, attribute and description have every kind of special character -/
def markupTree (v s : Str) : Xml :=
  .node k!"AUTOSAR" [] [] [.node k!"AR-PACKAGES" [] [] [.node k!"AR-PACKAGE" [(k!"UUID", v)] []
    [.node k!"SHORT-NAME" [] "P".toList [], .node k!"CATEGORY" [] [] [], .node k!"DESC" [] [] [.node k!"L-2" [(k!"L", "EN".toList)] s []]]]]

/-- sufficient for `Every`, for trees that are not deep -/
def everyB (p : Xml → Bool) : Nat → Xml → Bool
  | 0, _ => false
  | n + 1, x => p x && x.kids.all (everyB p n)

theorem everyB_sound {p : Xml → Bool} {P : Xml → Prop} (hp : ∀ x, p x = true → P x) (n : Nat) (x : Xml) (h : everyB p n x = true) : Every P x := by
  induction n generalizing x with
  | zero => cases h
  | succ n ih =>
    rw [everyB, Bool.and_eq_true] at h
    cases x with
    | node t as s kids => exact .node _ _ _ _ (hp _ h.1) fun k hk => ih k (List.all_eq_true.1 h.2 k hk)

def smoothB (x : Xml) : Bool :=
  (x.attrs.all fun a => !a.2.contains '\t' && !a.2.contains '\n' && !a.2.contains '\r') && (!x.kids.isEmpty || !x.text.contains '\r')

theorem smoothB_sound (x : Xml) (h : smoothB x = true) : Smooth x := by
  simp only [smoothB, Bool.and_eq_true, Bool.or_eq_true, Bool.not_eq_true', List.all_eq_true] at h
  refine ⟨fun a ha => ?_, fun hk => ?_⟩
  · obtain ⟨⟨h1, h2⟩, h3⟩ := h.1 a ha
    exact ⟨by simpa using h1, by simpa using h2, by simpa using h3⟩
  · rcases h.2 with h | h
    · rw [hk] at h; cases h
    · simpa using h

def namesB (x : Xml) : Bool := nameB x.tag && (x.attrs.all fun a => nameB a.1) && decide (x.attrs.map Prod.fst).Nodup

theorem namesB_sound (nc : NameChars) (x : Xml) (h : namesB x = true) : GoodNames nc x := by
  simp only [namesB, Bool.and_eq_true, List.all_eq_true, decide_eq_true_eq] at h
  exact ⟨(name_ok nc h.1.1).1, fun a ha => name_ok nc (h.1.2 a ha), h.2⟩

def charsB (x : Xml) : Bool := (x.attrs.all fun a => a.2.all xmlChar) && x.text.all xmlChar

theorem charsB_sound (x : Xml) (h : charsB x = true) : GoodChars x := by
  simp only [charsB, Bool.and_eq_true, List.all_eq_true] at h
  exact ⟨fun a ha c hc => xmlChar_of (h.1 a ha c hc), fun c hc => xmlChar_of (h.2 c hc)⟩

theorem writable_of (nc : NameChars) {x : Xml} (h : everyB (fun x => namesB x && charsB x) 20 x = true) : Writable nc x := by
  refine ⟨everyB_sound (fun x h => ?_) 20 x h, everyB_sound (fun x h => ?_) 20 x h⟩
  · rw [Bool.and_eq_true] at h; exact namesB_sound nc x h.1
  · rw [Bool.and_eq_true] at h; exact charsB_sound x h.2

/-- the hypotheses of `C30_partial` hold for a tree with markup characters, quotation marks, an empty element and line ends in a text -/
example (nc : NameChars) : Writable nc (markupTree "<'&\">".toList "a<b> &amp; \"c\"\n\t'd' ]]> é".toList) ∧
    Every Smooth (markupTree "<'&\">".toList "a<b> &amp; \"c\"\n\t'd' ]]> é".toList) :=
  ⟨writable_of nc (by decide +kernel), everyB_sound smoothB_sound 20 _ (by decide +kernel)⟩

/-- **C30** The restriction to texts without carriage returns and to attribute values without tabs and line ends is needed:
such trees are saved, but what is read is another tree. -/
theorem C30_broken (py : Py) (nc : NameChars) : ∃ x y, Writable nc x ∧ Writable nc y ∧
    (∃ f, saveToFile py nc false x = some f ∧ ∀ z, parseFile nc f = some z → ¬ Reload x z) ∧
    (∃ f, saveToFile py nc false y = some f ∧ ∀ z, parseFile nc f = some z → ¬ Reload y z) := by
  have key : ∀ x, Writable nc x → ¬ Every Smooth x → ∃ f, saveToFile py nc false x = some f ∧ ∀ z, parseFile nc f = some z → ¬ Reload x z := by
    intro x hw hs
    obtain ⟨f, hf⟩ := Option.isSome_iff_exists.1 ((C30_saved_iff py nc x hw.1).2 hw.2)
    exact ⟨f, hf, fun z hz hr => hs ((C30_iff py nc x hw).1 ⟨f, z, hf, hz, hr⟩)⟩
  have w1 : Writable nc (.node k!"AUTOSAR" [(k!"UUID", "a\tb".toList)] [] []) := writable_of nc (by decide +kernel)
  have w2 : Writable nc (.node k!"AUTOSAR" [] "a\rb".toList []) := writable_of nc (by decide +kernel)
  refine ⟨_, _, w1, w2, key _ w1 fun h => ?_, key _ w2 fun h => ?_⟩
  · exact (h.here.1 (k!"UUID", "a\tb".toList) (by simp [Xml.attrs])).1 (by simp)
  · exact h.here.2 rfl (by simp [Xml.text])

/-! ### C31 -/

/-- **C31** For trees without quotation marks in attribute values, the option makes no difference to what is read. -/
theorem C31_partial (py : Py) (nc : NameChars) (x : Xml) (h : Writable nc x) (hq : Every Unquoted x) :
    ∃ f g y, saveToFile py nc false x = some f ∧ saveToFile py nc true x = some g ∧ parseFile nc f = some y ∧ parseFile nc g = some y := by
  have h1 := file_read (py := py) false h fun h => by cases h
  have h2 := file_read (py := py) true h fun _ => hq
  cases hf : saveToFile py nc false x with
  | none => rw [hf] at h1; cases h1
  | some f =>
    cases hg : saveToFile py nc true x with
    | none => rw [hg] at h2; cases h2
    | some g =>
      rw [hf] at h1; rw [hg] at h2
      exact ⟨f, g, _, rfl, rfl, h1, h2⟩

/-- **C31** … and for no others: whatever is read from the file, it is not what is read without the option. -/
theorem C31_iff (py : Py) (nc : NameChars) (x : Xml) (h : Writable nc x) :
    (∃ f g y, saveToFile py nc false x = some f ∧ saveToFile py nc true x = some g ∧ parseFile nc f = some y ∧ parseFile nc g = some y) ↔
      Every Unquoted x := by
  constructor
  · rintro ⟨f, g, y, h1, h2, h3, h4⟩
    by_contra hq
    have h5 := C30_exact py nc x h
    rw [h1, Option.bind_some, h3] at h5
    refine file_quoted (py := py) h hq ?_
    rw [h2, Option.bind_some, h4, h5]
  · exact C31_partial py nc x h

/-- its hypotheses hold for a tree whose texts have entities to unescape -/
example (nc : NameChars) : Writable nc (markupTree "<'&>".toList "\"a\" 'b' &quot; &amp;apos; é".toList) ∧
    Every Unquoted (markupTree "<'&>".toList "\"a\" 'b' &quot; &amp;apos; é".toList) := by
  refine ⟨writable_of nc (by decide +kernel), everyB_sound (p := fun x => x.attrs.all fun a => !a.2.contains '"') (fun x h => ?_) 20 _ (by decide +kernel)⟩
  intro a ha
  simpa using List.all_eq_true.1 h a ha

/-- a package with a `UUID`, and a child with text so that no tag is empty -/
def quoted (v : Str) : Xml := .node k!"AUTOSAR" [] [] [.node k!"AR-PACKAGE" [(k!"UUID", v)] [] [.node k!"SHORT-NAME" [] "P".toList []]]

theorem file_of_unescaped {py : Py} {nc : NameChars} {x : Xml} (h : plainB x = true) {r : Option Xml}
    (hr : ((plainFile x).map unescaped).bind (parseFile .ascii) = r) : ∃ f, saveToFile py nc true x = some f ∧ parseFile nc f = r := by
  obtain ⟨h1, h2⟩ := plain_unescaped h py nc
  obtain ⟨f, hf⟩ := Option.isSome_iff_exists.1 h2
  refine ⟨f, hf, ?_⟩
  rw [hf, hr] at h1
  exact h1

/-- **C31** With a quotation mark in an attribute value the claim is false.  The file may be unreadable, and it may be readable
with another content: the value can add an attribute to the element. -/
theorem C31_broken (py : Py) (nc : NameChars) :
    (∃ x f g, Writable nc x ∧ saveToFile py nc false x = some f ∧ (parseFile nc f).isSome ∧ saveToFile py nc true x = some g ∧ parseFile nc g = none) ∧
    (∃ x f g y z, Writable nc x ∧ saveToFile py nc false x = some f ∧ parseFile nc f = some y ∧ saveToFile py nc true x = some g ∧ parseFile nc g = some z ∧
      (at? [0] y).map Xml.attrs = some [(k!"UUID", "1\" T=\"2".toList)] ∧ (at? [0] z).map Xml.attrs = some [(k!"UUID", "1".toList), (k!"T", "2".toList)]) := by
  have key : ∀ x, Writable nc x → ∃ f, saveToFile py nc false x = some f ∧ parseFile nc f = some (laid 0 x) := by
    intro x h
    have h1 := C30_exact py nc x h
    cases hf : saveToFile py nc false x with
    | none => rw [hf] at h1; cases h1
    | some f => rw [hf] at h1; exact ⟨f, rfl, h1⟩
  constructor
  · have w : Writable nc (quoted "\"".toList) := writable_of nc (by decide +kernel)
    obtain ⟨f, hf, hp⟩ := key _ w
    obtain ⟨g, hg, hq⟩ := file_of_unescaped (py := py) (nc := nc) (x := quoted "\"".toList) (by decide +kernel) (r := none) (by decide +kernel)
    exact ⟨_, f, g, w, hf, by rw [hp]; rfl, hg, hq⟩
  · have w : Writable nc (quoted "1\" T=\"2".toList) := writable_of nc (by decide +kernel)
    obtain ⟨f, hf, hp⟩ := key _ w
    have hz : (match ((plainFile (quoted "1\" T=\"2".toList)).map unescaped).bind (parseFile .ascii) with
        | none => false
        | some z => decide ((at? [0] z).map Xml.attrs = some [(k!"UUID", "1".toList), (k!"T", "2".toList)])) = true := by decide +kernel
    cases hr : ((plainFile (quoted "1\" T=\"2".toList)).map unescaped).bind (parseFile .ascii) with
    | none => rw [hr] at hz; cases hz
    | some z =>
      rw [hr] at hz
      obtain ⟨g, hg, hq⟩ := file_of_unescaped (py := py) (nc := nc) (x := quoted "1\" T=\"2".toList) (by decide +kernel) hr
      exact ⟨_, f, g, _, z, w, hf, hp, hg, hq, by decide +kernel, of_decide_eq_true hz⟩

/-! ### C32 -/

/-- **C32** The text of an element without child elements is the same after any number of cycles. -/
theorem C32_partial (py : Py) (nc : NameChars) (x : Xml) (h : Writable nc x) (p : List Nat) (e : Xml) (he : at? p x = some e)
    (hk : e.kids = []) (hr : '\r' ∉ e.text) (n : Nat) :
    ∃ y e', cycles py nc n x = some y ∧ at? p y = some e' ∧ e'.text = e.text ∧ e'.tag = e.tag := by
  refine ⟨_, laids n (0 + p.length) e, cycles_eq n h, by rw [at_laids, he]; rfl, laids_text_leaf n _ e hk hr, ?_⟩
  have : ∀ n d x, (laids n d x).tag = x.tag := by
    intro n d
    induction n with
    | zero => intro x; rfl
    | succ n ih => intro x; rw [laids, ih, laid_tag]
  exact this n _ e

/-- **C32** The text before inline markup is not: each cycle puts a line break and indentation on both of its sides. -/
theorem C32_broken (py : Py) (nc : NameChars) (x : Xml) (h : Writable nc x) (p : List Nat) (e : Xml) (he : at? p x = some e)
    (hk : e.kids ≠ []) (hs : e.text ≠ []) (hr : '\r' ∉ e.text) (n : Nat) :
    ∃ y e', cycles py nc n x = some y ∧ at? p y = some e' ∧
      e'.text = times n (lineBreak p.length) ++ e.text ++ times n (lineBreak p.length) ∧ (e'.text = e.text ↔ n = 0) := by
  have ht := laids_text_mixed n (0 + p.length) e hk hs hr
  rw [Nat.zero_add] at ht
  refine ⟨_, laids n (0 + p.length) e, cycles_eq n h, by rw [at_laids, he]; rfl, by rw [Nat.zero_add]; exact ht, ?_⟩
  rw [Nat.zero_add, ht]
  constructor
  · intro h
    cases n with
    | zero => rfl
    | succ n =>
      have := congrArg List.length h
      rw [times_succ] at this
      simp [lineBreak] at this
      omega
  · rintro rfl
    simp [times]

/-- a long name with an emphasised word -/
def longName : Xml := .node k!"AUTOSAR" [] [] [.node k!"LONG-NAME" [] []
  [.node k!"L-4" [(k!"L", "EN".toList)] "The ".toList [.node k!"TT" [(k!"TYPE", "SGMLTAG".toList)] "word".toList []]]]

example (nc : NameChars) : Writable nc longName ∧ ∃ e, at? [0, 0] longName = some e ∧ e.kids ≠ [] ∧ e.text = "The ".toList :=
  ⟨writable_of nc (by decide +kernel), _, rfl, by simp [Xml.kids], rfl⟩

end Verif.Props
