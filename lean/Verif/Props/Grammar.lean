import Verif.Model.Chars
import Verif.Props.Marks
import Verif.Lemmas.GrammarRun
/-!
# C79: which files are read
-/
namespace Verif.Props
open Verif Verif.Model Verif.Spec Verif.Lemmas

theorem lines_iff (s t : Str) : Lines s t ↔ newlines s = t := by
  constructor
  · intro h
    induction h with
    | nil => rfl
    | pair _ ih => rw [newlines, ih]
    | @cr s t hs _ ih =>
      rw [newlines, ih]
      intro s' h
      rw [h] at hs
      exact hs rfl
    | @other c s t hc _ ih =>
      rw [newlines, ih]
      · intro s' h _; exact hc h
      · intro h; exact hc h
  · rintro rfl
    induction hn : s.length using Nat.strongRecOn generalizing s with
    | ind k ih =>
      subst hn
      unfold newlines
      split
      · exact .nil
      · next s => exact .pair (ih s.length (by simp) s rfl)
      · next s hs =>
        refine .cr ?_ (ih s.length (by simp) s rfl)
        cases s with
        | nil => simp
        | cons c s =>
          intro h
          simp only [List.head?_cons, Option.some.injEq] at h
          exact hs s (by rw [h])
      · next c s h1 h2 => exact .other (fun h => h2 h) (ih s.length (by simp) s rfl)

theorem afterDecl_sound {s u : Str} (h : afterDecl s = some u) : ∃ x, s = x ++ "?>".toList ++ u ∧ ¬ "?>".toList <:+: x := by
  induction s with
  | nil => cases h
  | cons c s ih =>
    rw [afterDecl] at h
    split at h
    · next hp =>
      obtain ⟨r, hr⟩ := List.isPrefixOf_iff_prefix.1 hp
      have hr : '?' :: '>' :: r = c :: s := hr
      injection hr with h1 h2
      subst h1 h2
      cases h
      exact ⟨[], rfl, by decide⟩
    · next hp =>
      obtain ⟨x, rfl, hx⟩ := ih h
      refine ⟨c :: x, rfl, not_infix_cons (x := '?') (y := '>') hx ?_⟩
      rintro rfl hh
      cases x with
      | nil => cases hh
      | cons y x =>
        cases hh
        exact hp rfl

theorem skipDecl_iff (s u : Str) : skipDecl s = some u ↔ ∃ d, s = d ++ u ∧ Declared d u := by
  constructor
  · intro h
    unfold skipDecl at h
    split at h
    · next hp =>
      obtain ⟨r, rfl⟩ := List.isPrefixOf_iff_prefix.1 hp
      have e : afterDecl ("<?xml ".toList ++ r) = afterDecl r := by
        have e1 : "<?xml ".toList ++ r = '<' :: '?' :: 'x' :: 'm' :: 'l' :: ' ' :: r := rfl
        rw [e1]
        simp [afterDecl]
      rw [e] at h
      obtain ⟨x, rfl, hx⟩ := afterDecl_sound h
      exact ⟨"<?xml ".toList ++ x ++ "?>".toList, by simp, .inr ⟨x, rfl, hx⟩⟩
    · next hp =>
      cases h
      exact ⟨[], rfl, .inl ⟨rfl, fun h => hp (List.isPrefixOf_iff_prefix.2 h)⟩⟩
  · rintro ⟨d, rfl, h⟩
    exact skip_declared h

/-- **C79** The files that are read are the well-formed ones, and what is read is what they stand for: start tags and end tags match, no
attribute comes twice, every reference stands for a character, there is one root element, and every character is allowed. -/
theorem C79_grammar (nc : NameChars) (s : Str) (e : El) : parseXml nc s = some e ↔ ∃ t, Lines s t ∧ WellFormed nc t e := by
  have hall : (newlines s).all xmlChar = true ↔ ∀ c ∈ newlines s, XmlChar c := by
    rw [List.all_eq_true]
    exact forall_congr' fun c => imp_congr_right fun _ => (xmlChar_eq c).symm
  unfold parseXml WellFormed
  simp only
  constructor
  · intro h
    split at h
    · next ha =>
      refine ⟨newlines s, (lines_iff _ _).2 rfl, hall.1 ha, ?_⟩
      obtain ⟨u, hu, h⟩ := Option.bind_eq_some_iff.1 h
      obtain ⟨fin, h1, h2⟩ := Option.bind_eq_some_iff.1 h
      obtain ⟨d, hd, hd2⟩ := (skipDecl_iff _ _).1 hu
      obtain ⟨m1, r, m2, rfl, g1, g2, g3⟩ := grammar_sound u.length u (Nat.le_refl _) ⟨fin, h1, h2⟩
      exact ⟨d, m1, r, m2, hd, hd2, g1, g2, g3⟩
    · cases h
  · rintro ⟨t, ht, hx, d, m1, r, m2, h1, h2, h3, h4, h5⟩
    obtain rfl := (lines_iff _ _).1 ht
    rw [if_pos (hall.2 hx), (skipDecl_iff _ _).2 ⟨d, h1, h2⟩, Option.bind_some]
    obtain ⟨fin, g1, g2⟩ := grammar_complete h3 h4 h5
    rw [g1]
    exact g2

/-- **C79** A file stands for one tree at most. -/
theorem C79_unambiguous (nc : NameChars) (s : Str) (e e' : El) (h : WellFormed nc s e) (h' : WellFormed nc s e') (hs : '\r' ∉ s) : e = e' := by
  have hl : Lines s s := (lines_iff _ _).2 (newlines_plain hs)
  have h1 := (C79_grammar nc s e).2 ⟨s, hl, h⟩
  have h2 := (C79_grammar nc s e').2 ⟨s, hl, h'⟩
  rw [h1] at h2
  exact Option.some.inj h2

/-- a file with everything in it -/
example : (parseXml .ascii t!"<?xml version='1.0'?>\r\n<!-- c --><A b = 'x&#65;'\n c=\"\" >t<B/>u<![CDATA[<&]]><?p?></A >\n").isSome = true := by decide +kernel

/-- end tags that do not match, an attribute that comes twice, two roots, a reference that stands for nothing -/
example : [t!"<A></B>", t!"<A b='1' b='2'/>", t!"<A/><A/>", t!"<A>&x;</A>", t!"<A>"].map (fun s => (parseXml .ascii s).isSome) = [false, false, false, false, false] := by
  decide +kernel

/-- by the grammar -/
example : WellFormed .ascii "<A b='x'>t<B/>u</A>".toList
    (.mk "A".toList [("b".toList, "x".toList)] "t".toList [.mk "B".toList [] [] [] "u".toList] []) := by
  have hname : ∀ c : Char, NameChars.ascii.start c = true → XmlName .ascii [c] := fun c h => ⟨c, [], rfl, h, by simp⟩
  have hself : ∀ (lit : Char → Char) (c : Char), c ≠ '&' → Spelled lit [c] [lit c] := fun lit c h => .self h .nil
  have hdata : ∀ c : Char, c ≠ '<' → c ≠ '&' → CharData [c] [c] := fun c h1 h2 => ⟨by simpa using Ne.symm h1, fun h => by have := h.length_le; simp at this, hself id c h2⟩
  refine ⟨by intro c hc; rw [xmlChar_eq]; revert c; decide, [], [], "<A b='x'>t<B/>u</A>".toList, [], rfl, .inl ⟨rfl, by decide⟩, .blank blank_nil, ?_, .blank blank_nil⟩
  have ha : Attrs .ascii " b='x'".toList [("b".toList, "x".toList)] :=
    Attrs.cons (w := " ".toList) (a := "b".toList) (w1 := []) (w2 := []) (q := '\'') (raw := "x".toList) (rest := []) (by decide) (fun c hc => .inl (by simpa using hc)) (hname 'b' (by decide)) blank_nil blank_nil (.inr rfl)
      (by decide) (by decide) (hself inValue 'x' (by decide)) (.nil blank_nil) (by decide)
  have hb : Element .ascii "<B/>".toList (.mk "B".toList [] [] [] []) := Element.empty (a := []) (hname 'B' (by decide)) (.nil blank_nil)
  have hc : Content .ascii "t<B/>u".toList "t".toList [.mk "B".toList [] [] [] "u".toList] :=
    Content.element (raw := "t".toList) (rest := "u".toList) (hdata 't' (by decide) (by decide)) hb (.chars (hdata 'u' (by decide) (by decide)))
  exact Element.full (w := []) (hname 'A' (by decide)) ha hc blank_nil

end Verif.Props
