import Verif.Model.Chars
import Verif.Lemmas.MarksRun
/-!
# C59: comments in a file
-/
namespace Verif.Props
open Verif Verif.Model Verif.Spec Verif.Lemmas

theorem afterDecl_skip (x s : Str) (h : ¬ "?>".toList <:+: x) : afterDecl (x ++ "?>".toList ++ s) = some s := by
  induction x with
  | nil => rfl
  | cons c x ih =>
    rw [List.cons_append, List.cons_append, afterDecl]
    have hx : ¬ "?>".toList <:+: x := fun h' => h (h'.trans ⟨[c], [], by simp⟩)
    rw [if_neg, ih hx]
    intro hp
    obtain ⟨r, hr⟩ := List.isPrefixOf_iff_prefix.1 hp
    have hr : '?' :: '>' :: r = c :: (x ++ "?>".toList ++ s) := hr
    injection hr with h1 h2
    subst h1
    cases x with
    | nil => cases h2
    | cons y x =>
      injection h2 with h3 h4
      subst h3
      exact h ⟨[], x, rfl⟩

theorem skip_declared {d s : Str} (h : Declared d s) : skipDecl (d ++ s) = some s := by
  rcases h with ⟨rfl, h⟩ | ⟨x, rfl, h⟩
  · unfold skipDecl
    rw [List.nil_append, if_neg (fun h' => h (List.isPrefixOf_iff_prefix.1 h'))]
  · unfold skipDecl
    rw [if_pos]
    · have e : "<?xml ".toList ++ x ++ "?>".toList ++ s = '<' :: '?' :: 'x' :: 'm' :: 'l' :: ' ' :: (x ++ "?>".toList ++ s) := rfl
      have hh : "<?xml ".toList ++ x ++ "?>".toList ++ s = ("<?xml ".toList ++ x) ++ "?>".toList ++ s := by simp
      rw [hh]
      refine afterDecl_skip _ _ ?_
      have e1 : "<?xml ".toList ++ x = '<' :: '?' :: 'x' :: 'm' :: 'l' :: ' ' :: x := rfl
      rw [e1]
      refine not_infix_cons (x := '?') (y := '>') ?_ (fun h => absurd h (by decide))
      refine not_infix_cons (x := '?') (y := '>') ?_ (fun _ h => absurd h (by simp))
      refine not_infix_cons (x := '?') (y := '>') ?_ (fun h => absurd h (by decide))
      refine not_infix_cons (x := '?') (y := '>') ?_ (fun h => absurd h (by decide))
      refine not_infix_cons (x := '?') (y := '>') ?_ (fun h => absurd h (by decide))
      refine not_infix_cons (x := '?') (y := '>') h (fun h => absurd h (by decide))
    · rw [List.isPrefixOf_iff_prefix]
      exact ⟨x ++ "?>".toList ++ s, by simp⟩

private theorem stripped_mem {s t : Str} (h : Stripped s t) : ∀ c ∈ t, c ∈ s ∨ c.toNat < 128 ∧ 32 ≤ c.toNat := by
  induction h with
  | nil => intro c hc; cases hc
  | char c s t _ _ ih =>
    intro x hx
    rcases List.mem_cons.1 hx with rfl | hx
    · exact .inl (by simp)
    · exact (ih x hx).imp (fun h => by simp [h]) id
  | tag c s t _ _ _ _ ih =>
    intro x hx
    simp only [List.mem_cons] at hx ⊢
    rcases hx with rfl | rfl | hx
    · simp
    · simp
    · exact (ih x hx).imp (fun h => by simp [h]) id
  | comment b s t _ _ _ ih => intro x hx; exact (ih x hx).imp (fun h => by simp [h]) id
  | inst b s t _ _ ih => intro x hx; exact (ih x hx).imp (fun h => by simp [h]) id
  | cdata b s t _ _ ih =>
    intro x hx
    rcases List.mem_append.1 hx with hx | hx
    · obtain ⟨c, hc, hx⟩ := List.mem_flatMap.1 hx
      have ascii : ∀ y ∈ "&amp;&lt;&gt;".toList, y.toNat < 128 ∧ 32 ≤ y.toNat := by decide
      have sub1 : ∀ y ∈ "&amp;".toList, y ∈ "&amp;&lt;&gt;".toList := by decide
      have sub2 : ∀ y ∈ "&lt;".toList, y ∈ "&amp;&lt;&gt;".toList := by decide
      have sub3 : ∀ y ∈ "&gt;".toList, y ∈ "&amp;&lt;&gt;".toList := by decide
      unfold outside at hx
      split at hx
      · exact .inr (ascii x (sub1 x hx))
      · split at hx
        · exact .inr (ascii x (sub2 x hx))
        · split at hx
          · exact .inr (ascii x (sub3 x hx))
          · simp only [List.mem_singleton] at hx
            subst hx
            exact .inl (by simp [hc])
    · exact (ih x hx).imp (fun h => by simp [h]) id

private theorem stripped_head {s t : Str} (h : Stripped s t) : ¬ "<?xml ".toList <+: t := by
  have key : ∀ {s t : Str}, Stripped s t → ∀ r, t ≠ '<' :: '?' :: r := by
    intro s t h
    induction h with
    | nil => intro r h; cases h
    | char c s t hc _ _ => intro r h; cases h; exact hc rfl
    | tag c s t _ hq _ _ _ => intro r h; cases h; exact hq rfl
    | comment _ _ _ _ _ _ ih => exact ih
    | inst _ _ _ _ _ ih => exact ih
    | cdata b s t _ _ ih =>
      intro r h
      cases b with
      | nil => exact ih r h
      | cons c b =>
        have hl : '<' ∈ (c :: b).flatMap outside := by
          cases ho : outside c with
          | nil =>
            unfold outside at ho
            split at ho
            · cases ho
            · split at ho
              · cases ho
              · split at ho <;> cases ho
          | cons y l =>
            rw [List.flatMap_cons, ho, List.cons_append] at h
            injection h with h1 _
            rw [List.flatMap_cons, ho, ← h1]
            simp
        exact outside_lt _ hl
  rintro ⟨r, hr⟩
  exact key h _ hr.symm

private theorem xml_of_ascii {c : Char} (h : c.toNat < 128 ∧ 32 ≤ c.toNat) : xmlChar c = true := by
  simp only [xmlChar, Bool.or_eq_true, Bool.and_eq_true, decide_eq_true_eq, beq_iff_eq, bne_iff_ne]
  omega

private theorem parts {nc : NameChars} {d s : Str} {e : El} (hcr : '\r' ∉ d ++ s) (hd : Declared d s) (h : parseXml nc (d ++ s) = some e) :
    (∀ c ∈ d ++ s, xmlChar c = true) ∧ ∃ fin, run nc ⟨[], none, .content []⟩ s = some fin ∧ finish fin = some e := by
  unfold parseXml at h
  simp only [newlines_plain hcr] at h
  split at h
  · next ha =>
    rw [skip_declared hd, Option.bind_some] at h
    exact ⟨fun c hc => List.all_eq_true.1 ha c hc, Option.bind_eq_some_iff.1 h⟩
  · cases h

private theorem whole {nc : NameChars} {d s : Str} {e : El} {fin : PState} (hcr : '\r' ∉ d ++ s) (hd : Declared d s) (hx : ∀ c ∈ d ++ s, xmlChar c = true)
    (h : run nc ⟨[], none, .content []⟩ s = some fin) (hf : finish fin = some e) : parseXml nc (d ++ s) = some e := by
  unfold parseXml
  simp only [newlines_plain hcr]
  rw [if_pos (List.all_eq_true.2 hx), skip_declared hd, Option.bind_some, h]
  exact hf

private theorem strip_parse {nc : NameChars} (hm : nc.marks = true) {d s t : Str} {e : El} (hcr : '\r' ∉ d ++ s) (hd : Declared d s) (ht : Stripped s t)
    (hn : ¬ "]]>".toList <:+: t) (h : parseXml nc (d ++ s) = some e) : parseXml nc.plain (d ++ t) = some e := by
  obtain ⟨hx, fin, h1, h2⟩ := parts hcr hd h
  obtain ⟨fin', r1, r2⟩ := strip_run hm ht _ ⟨[], none, .content []⟩ fin e (Sim.content _ _ _) (fun h => by cases h) (by simpa [pending] using hn) h1 h2
  refine whole ?_ ?_ ?_ r1 r2
  · intro hc
    rcases List.mem_append.1 hc with hc | hc
    · exact hcr (List.mem_append.2 (.inl hc))
    · rcases stripped_mem ht _ hc with hc | hc
      · exact hcr (List.mem_append.2 (.inr hc))
      · revert hc; decide
  · rcases hd with ⟨rfl, _⟩ | hd
    · exact .inl ⟨rfl, stripped_head ht⟩
    · exact .inr hd
  · intro c hc
    rcases List.mem_append.1 hc with hc | hc
    · exact hx c (List.mem_append.2 (.inl hc))
    · rcases stripped_mem ht _ hc with hc | hc
      · exact hx c (List.mem_append.2 (.inr hc))
      · exact xml_of_ascii hc

/-- C59: a file that is read without an error, and the same file without its comments, processing instructions and CDATA
sections (the texts of the latter are kept): what is read is the same.  `d` is the XML declaration.  The lines of the file
end with `\n`, and `]]` and `>` do not come together when what was between them is left out. -/
theorem C59_stripped (nc : NameChars) (hm : nc.marks = true) (d s t : Str) (x : Xml) (hcr : '\r' ∉ d ++ s) (hd : Declared d s) (ht : Stripped s t)
    (hn : ¬ "]]>".toList <:+: t) (h : parseFile nc (d ++ s) = some x) : parseFile nc (d ++ t) = some x := by
  obtain ⟨e, he, rfl⟩ := Option.map_eq_some_iff.1 h
  rw [parseFile, parse_more (strip_parse hm hcr hd ht hn he)]
  rfl

/-- C59: every file that is read has such a form. -/
theorem C59_form (nc : NameChars) (d s : Str) (x : Xml) (hcr : '\r' ∉ d ++ s) (hd : Declared d s) (h : parseFile nc (d ++ s) = some x) :
    ∃ t, Stripped s t := by
  obtain ⟨e, he, rfl⟩ := Option.map_eq_some_iff.1 h
  obtain ⟨_, fin, h1, h2⟩ := parts hcr hd he
  exact strip_exists s.length s (Nat.le_refl _) _ fin e (.inr ⟨[], rfl⟩) (fun h => by cases h) h1 h2

/-- C59: a comment or a processing instruction may be added before any tag, and at the end of the file; what is read is
the same. -/
theorem C59_added (nc : NameChars) (hm : nc.marks = true) (d a b m : Str) (x : Xml) (hcr : '\r' ∉ d ++ (a ++ m ++ b)) (hx : ∀ c ∈ m, xmlChar c = true)
    (hd : Declared d (a ++ b)) (hr : Remark nc m) (hb : b = [] ∨ ∃ b', b = '<' :: b') (h : parseFile nc.plain (d ++ (a ++ b)) = some x) :
    parseFile nc (d ++ (a ++ m ++ b)) = some x := by
  obtain ⟨e, he, rfl⟩ := Option.map_eq_some_iff.1 h
  have hcr' : '\r' ∉ d ++ (a ++ b) := by
    intro hc
    refine hcr ?_
    simp only [List.mem_append] at hc ⊢
    tauto
  obtain ⟨hx', fin, h1, h2⟩ := parts hcr' hd he
  obtain ⟨fin', r1, r2⟩ := insert_run hm hr a b hb (.inr ⟨[], rfl⟩) h1 h2
  have hd' : Declared d (a ++ m ++ b) := by
    rcases hd with ⟨rfl, hd⟩ | hd
    · refine .inl ⟨rfl, ?_⟩
      intro hp
      obtain ⟨r, hr'⟩ := hp
      -- an XML declaration cannot be read, so the remark is not one, and `a` does not begin like one
      have : run nc ⟨[], none, .content []⟩ ("<?xml ".toList ++ r) = some fin' := by rw [hr']; exact r1
      have e0 : "<?xml ".toList ++ r = '<' :: '?' :: 'x' :: 'm' :: 'l' :: ' ' :: r := rfl
      have hx1 : nc.start 'x' = true := by rw [nc.start_ascii _ (by decide)]; decide
      have hm1 : nc.char 'm' = true := by rw [nc.char_ascii _ (by decide)]; decide
      have hl1 : nc.char 'l' = true := by rw [nc.char_ascii _ (by decide)]; decide
      have hs1 : nc.char ' ' = false := by rw [nc.char_ascii _ (by decide)]; decide
      have e1 : step nc ⟨[], none, .content []⟩ '<' = some ⟨[], none, .lt⟩ := rfl
      have e2 : step nc ⟨[], none, .target []⟩ 'x' = some ⟨[], none, .target ['x']⟩ := by simp [step, hx1]
      have e3 : step nc ⟨[], none, .target ['x']⟩ 'm' = some ⟨[], none, .target ['m', 'x']⟩ := by simp [step, hm1]
      have e4 : step nc ⟨[], none, .target ['m', 'x']⟩ 'l' = some ⟨[], none, .target ['l', 'm', 'x']⟩ := by simp [step, hl1]
      have e5 : step nc ⟨[], none, .target ['l', 'm', 'x']⟩ ' ' = none := by
        simp only [step, hs1]
        rw [if_neg (by simp), if_pos (.inr (by decide))]
      rw [e0, run_cons, e1, Option.bind_some, run_cons, step_question hm, Option.bind_some, run_cons, e2, Option.bind_some, run_cons, e3,
        Option.bind_some, run_cons, e4, Option.bind_some, run_cons, e5] at this
      cases this
    · exact .inr hd
  have hx2 : ∀ c ∈ d ++ (a ++ m ++ b), xmlChar c = true := by
    intro c hc
    simp only [List.mem_append] at hc
    rcases hc with hc | (hc | hc) | hc
    · exact hx' c (by simp [hc])
    · exact hx' c (by simp [hc])
    · exact hx c hc
    · exact hx' c (by simp [hc])
  rw [parseFile, whole hcr hd' hx2 r1 r2]
  rfl

/-- C59: a file whose lines end with `\r\n` is read like the one whose lines end with `\n`. -/
theorem C59_lines (nc : NameChars) (s : Str) (hcr : '\r' ∉ s) : parseFile nc (s.flatMap fun c => if c = '\n' then ['\r', '\n'] else [c]) = parseFile nc s := by
  have h : newlines (s.flatMap fun c => if c = '\n' then ['\r', '\n'] else [c]) = s := by
    induction s with
    | nil => rfl
    | cons c s ih =>
      simp only [List.mem_cons, not_or] at hcr
      rw [List.flatMap_cons]
      by_cases hc : c = '\n'
      · subst hc
        show '\n' :: newlines (s.flatMap fun c => if c = '\n' then ['\r', '\n'] else [c]) = _
        rw [ih hcr.2]
      · rw [if_neg hc, List.singleton_append]
        have : ∀ t, newlines (c :: t) = c :: newlines t := by
          intro t
          rw [newlines]
          · exact fun _ h => absurd h.symm hcr.1
          · exact fun h => absurd h.symm hcr.1
        rw [this, ih hcr.2]
  unfold parseFile parseXml
  simp only [h, newlines_plain hcr]

/-- a file with a comment before the root, one inside a text, a processing instruction and a CDATA section -/
private def marked : Str := t!"<!-- a --><A>x<!-- <b> -->y<?p q?><B><![CDATA[1<2]]></B></A>"

private def unmarkedFile : Str := "<A>xy<B>1&lt;2</B></A>".toList

private theorem marked_stripped : Stripped marked unmarkedFile := by
  have h7 : Stripped "</B></A>".toList "</B></A>".toList :=
    .tag _ _ _ (by decide) (by decide) (by decide) (.char _ _ _ (by decide) (.char _ _ _ (by decide) (.tag _ _ _ (by decide) (by decide) (by decide)
      (.char _ _ _ (by decide) (.char _ _ _ (by decide) .nil)))))
  have h6 : Stripped "<![CDATA[1<2]]></B></A>".toList "1&lt;2</B></A>".toList := Stripped.cdata "1<2".toList _ _ (by decide) h7
  have h5 : Stripped "<B><![CDATA[1<2]]></B></A>".toList "<B>1&lt;2</B></A>".toList :=
    .tag _ _ _ (by decide) (by decide) (by decide) (.char _ _ _ (by decide) h6)
  have h4 : Stripped "<?p q?><B><![CDATA[1<2]]></B></A>".toList "<B>1&lt;2</B></A>".toList := Stripped.inst "p q".toList _ _ (by decide) h5
  have h3 : Stripped t!"<!-- <b> -->y<?p q?><B><![CDATA[1<2]]></B></A>" "y<B>1&lt;2</B></A>".toList :=
    Stripped.comment " <b> ".toList _ _ (by decide) (by decide) (.char _ _ _ (by decide) h4)
  exact Stripped.comment " a ".toList _ _ (by decide) (by decide)
    (.tag _ _ _ (by decide) (by decide) (by decide) (.char _ _ _ (by decide) (.char _ _ _ (by decide) h3)))

/-- the theorems apply to it -/
example : (parseFile .ascii marked).isSome = true ∧ ∀ x, parseFile .ascii marked = some x → parseFile .ascii unmarkedFile = some x := by
  refine ⟨by decide +kernel, fun x hx => ?_⟩
  exact C59_stripped .ascii rfl [] _ _ x (by decide) (.inl ⟨rfl, by decide⟩) marked_stripped (by decide) hx

example : (parseFile NameChars.ascii.plain unmarkedFile).isSome = true ∧
    ∀ x, parseFile NameChars.ascii.plain unmarkedFile = some x → parseFile .ascii "<A>xy<!-- <c> --><B>1&lt;2</B></A>".toList = some x := by
  refine ⟨by decide +kernel, fun x hx => ?_⟩
  exact C59_added .ascii rfl [] "<A>xy".toList "<B>1&lt;2</B></A>".toList "<!-- <c> -->".toList x (by decide) (by decide) (.inl ⟨rfl, by decide⟩)
    (.comment " <c> ".toList (by decide) (by decide)) (.inr ⟨_, rfl⟩) hx

/-- C59: the condition on `]]` and `>` is necessary: without the comment between them the file cannot be read. -/
theorem C59_joined : ∃ s t, Stripped s t ∧ (parseFile .ascii s).isSome = true ∧ (parseFile .ascii t).isNone = true := by
  refine ⟨"<A>]]<!---->></A>".toList, "<A>]]></A>".toList, ?_, by decide +kernel, by decide +kernel⟩
  have h7 : Stripped "></A>".toList "></A>".toList :=
    .char _ _ _ (by decide) (.tag _ _ _ (by decide) (by decide) (by decide) (.char _ _ _ (by decide) (.char _ _ _ (by decide) .nil)))
  have h6 : Stripped "<!---->></A>".toList "></A>".toList := Stripped.comment [] _ _ (by decide) (by decide) h7
  exact .tag _ _ _ (by decide) (by decide) (by decide) (.char _ _ _ (by decide) (.char _ _ _ (by decide) (.char _ _ _ (by decide) h6)))

end Verif.Props
