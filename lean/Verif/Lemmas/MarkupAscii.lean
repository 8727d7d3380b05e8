import Verif.Lemmas.Cycles
/-!
# Files of ASCII characters, and files that cannot be written
-/
namespace Verif.Lemmas
open Verif Verif.Model Verif.Spec

/-! ### Which characters beyond ASCII are allowed in names does not matter for ASCII files -/

theorem step_ascii (nc : NameChars) (st : PState) {c : Char} (h : c.toNat < 128) (hm : c ≠ '!' ∧ c ≠ '?') : step nc st c = step .ascii st c := by
  have h1 : nc.start c = NameChars.ascii.start c := by rw [nc.start_ascii c h, NameChars.ascii.start_ascii c h]
  have h2 : nc.char c = NameChars.ascii.char c := by rw [nc.char_ascii c h, NameChars.ascii.char_ascii c h]
  have h3 : (c == '!') = false := by simpa using hm.1
  have h4 : (c == '?') = false := by simpa using hm.2
  simp only [step, h1, h2, h3, h4, Bool.and_false]

theorem run_ascii (nc : NameChars) (s : Str) (h : ∀ c ∈ s, c.toNat < 128) (hm : ∀ c ∈ s, c ≠ '!' ∧ c ≠ '?') (st : PState) :
    run nc st s = run .ascii st s := by
  induction s generalizing st with
  | nil => rfl
  | cons c s ih =>
    rw [run, run, step_ascii nc st (h c (by simp)) (hm c (by simp))]
    congr 1
    funext st'
    exact ih (fun x hx => h x (by simp [hx])) (fun x hx => hm x (by simp [hx])) st'

/-- no comments, processing instructions and CDATA sections -/
def unmarked (s : Str) : Bool := (skipDecl (newlines s)).all fun u => u.all fun c => c != '!' && c != '?'

theorem afterDecl_mem {s u : Str} (h : afterDecl s = some u) : ∀ c ∈ u, c ∈ s := by
  induction s with
  | nil => cases h
  | cons c s ih =>
    rw [afterDecl] at h
    split at h
    · cases h
      intro x hx
      exact List.mem_cons_of_mem _ (List.mem_of_mem_drop hx)
    · intro x hx
      exact List.mem_cons_of_mem _ (ih h x hx)

theorem skipDecl_mem {s u : Str} (h : skipDecl s = some u) : ∀ c ∈ u, c ∈ s := by
  unfold skipDecl at h
  split at h
  · exact afterDecl_mem h
  · cases h; exact fun _ h => h

theorem parse_ascii (nc : NameChars) (s : Str) (h : ∀ c ∈ s, c.toNat < 128) (hm : unmarked s = true) : parseXml nc s = parseXml .ascii s := by
  unfold parseXml
  have hn : ∀ c ∈ newlines s, c.toNat < 128 := by
    intro c hc
    rcases newlines_mem hc with rfl | hc
    · decide
    · exact h c hc
  simp only
  split
  · cases hu : skipDecl (newlines s) with
    | none => rfl
    | some u =>
      have hm' : ∀ c ∈ u, c ≠ '!' ∧ c ≠ '?' := by
        rw [unmarked, hu] at hm
        simpa using hm
      rw [Option.bind_some, Option.bind_some, run_ascii nc u (fun c hc => hn c (skipDecl_mem hu c hc)) hm']
  · rfl

/-! ### A text without `/>` is not patched -/

def noEmpty : Str → Bool
  | [] => true
  | c :: s => !"/>".toList.isPrefixOf (c :: s) && noEmpty s

theorem noEmpty_append (a b : Str) : noEmpty (a ++ b) = true → noEmpty b = true := by
  induction a with
  | nil => exact id
  | cons c a ih => intro h; rw [List.cons_append, noEmpty, Bool.and_eq_true] at h; exact ih h.2

theorem expand_noEmpty (py : Py) (s : Str) (h : noEmpty s = true) : expand py s = s := by
  induction s with
  | nil => rfl
  | cons c s ih =>
    have hs : noEmpty s = true := noEmpty_append [c] s h
    cases he : emptyTag py (c :: s) with
    | none => rw [expand_none he, ih hs]
    | some v =>
      obtain ⟨m, r⟩ := v
      have := (emptyTag_some he)
      have hx : ∃ a, c :: s = a ++ ("/>".toList ++ r) := by
        obtain ⟨h1, h2⟩ : c :: s = '<' :: m ++ '/' :: '>' :: r ∧ True := ⟨this.1, trivial⟩
        exact ⟨'<' :: m, h1⟩
      obtain ⟨a, ha⟩ := hx
      rw [ha] at h
      have := noEmpty_append a _ h
      rw [show "/>".toList ++ r = '/' :: '>' :: r from rfl, noEmpty] at this
      simp [List.isPrefixOf] at this

/-- the replacements of `patch_xml` that do not depend on the parameters -/
def unescaped (s : Str) : Str := replaceAll "&apos;".toList ['\''] (replaceAll "&quot;".toList ['"'] s)

/-- saving and reading, when everything is ASCII and no tag is empty -/
def plainFile (x : Xml) : Option Str := (parseXml .ascii (etHead ++ etWrite x.toEl.withNamespaces)).map fun dom => domHead ++ domWrite [] dom

def asciiB (s : Str) : Bool := s.all fun c => decide (c.toNat < 128)

def plainB (x : Xml) : Bool :=
  (asciiB (etHead ++ etWrite x.toEl.withNamespaces) && unmarked (etHead ++ etWrite x.toEl.withNamespaces)) &&
    (match plainFile x with
     | none => false
     | some s => noEmpty s && (asciiB (unescaped s) && unmarked (unescaped s)))

theorem plain_unescaped {x : Xml} (h : plainB x = true) (py : Py) (nc : NameChars) :
    (saveToFile py nc true x).bind (parseFile nc) = ((plainFile x).map unescaped).bind (parseFile .ascii) ∧ (saveToFile py nc true x).isSome := by
  have hb : ∀ s, asciiB s = true → ∀ c ∈ s, c.toNat < 128 := fun s hs c hc => of_decide_eq_true (List.all_eq_true.1 hs c hc)
  rw [plainB, Bool.and_eq_true] at h
  obtain ⟨h1, h2⟩ := h
  rw [Bool.and_eq_true] at h1
  unfold saveToFile
  rw [parse_ascii nc _ (hb _ h1.1) h1.2]
  unfold plainFile at h2 ⊢
  cases hp : parseXml .ascii (etHead ++ etWrite x.toEl.withNamespaces) with
  | none => rw [hp] at h2; cases h2
  | some dom =>
    rw [hp] at h2
    simp only [Option.map_some] at h2
    rw [Bool.and_eq_true, Bool.and_eq_true] at h2
    have hx : patchXml py true (domHead ++ domWrite [] dom) = unescaped (domHead ++ domWrite [] dom) := by
      unfold patchXml
      rw [expand_noEmpty py _ h2.1]
      rfl
    simp only [Option.map_some, hx, Option.bind_some, Option.isSome_some, and_true]
    unfold parseFile
    rw [parse_ascii nc _ (hb _ h2.2.1) h2.2.2]

/-! ### A character XML forbids -/

theorem newlines_keeps {s : Str} {c : Char} (h : c ∈ s) (hr : c ≠ '\r') : c ∈ newlines s := by
  fun_induction newlines s <;> simp_all
  all_goals tauto

theorem mem_esc {e : Char → Str} {s : Str} {c : Char} (h : c ∈ s) (he : e c = [c]) : c ∈ s.flatMap e :=
  List.mem_flatMap.2 ⟨c, h, by rw [he]; simp⟩

theorem mem_etText {s : Str} {c : Char} (h : c ∈ s) (hc : ¬ XmlChar c) : c ∈ etText s := by
  rw [etText_eq]
  refine mem_esc h ?_
  have : ∀ x ∈ ['&', '<', '>'], c ≠ x := by
    intro x hx e; subst e
    revert hx
    intro hx
    refine hc (.inr (.inr (.inr ?_)))
    simp only [List.mem_cons, List.not_mem_nil, or_false] at hx
    rcases hx with rfl | rfl | rfl <;> decide
  simp only [List.mem_cons, List.not_mem_nil, or_false, forall_eq_or_imp, forall_eq] at this
  simp [escEt, this]

theorem mem_etAttr {s : Str} {c : Char} (h : c ∈ s) (hc : ¬ XmlChar c) : c ∈ etAttr s := by
  rw [etAttr_eq]
  refine mem_esc h ?_
  have : ∀ x ∈ ['&', '<', '>', '"'], c ≠ x := by
    intro x hx e; subst e
    revert hx
    intro hx
    refine hc (.inr (.inr (.inr ?_)))
    simp only [List.mem_cons, List.not_mem_nil, or_false] at hx
    rcases hx with rfl | rfl | rfl | rfl <;> decide
  simp only [List.mem_cons, List.not_mem_nil, or_false, forall_eq_or_imp, forall_eq] at this
  have h1 : c ≠ '\t' := fun e => hc (.inl e)
  have h2 : c ≠ '\n' := fun e => hc (.inr (.inl e))
  have h3 : c ≠ '\r' := fun e => hc (.inr (.inr (.inl e)))
  simp [escEtA, this, h1, h2, h3]

theorem mem_attrText {esc : Str → Str} {as : List (Str × Str)} {a : Str × Str} (h : a ∈ as) {c : Char} (hc : c ∈ esc a.2) : c ∈ attrText esc as :=
  List.mem_flatMap.2 ⟨a, h, by simp [hc]⟩

mutual
theorem bad_written : (x : Xml) → ¬ Every GoodChars x → ∃ c ∈ etWrite x.toEl, ¬ XmlChar c
  | .node t as s kids, h => by
    rw [Xml.toEl, etWrite]
    by_cases h1 : ∃ c ∈ s, ¬ XmlChar c
    · obtain ⟨c, hc, hb⟩ := h1
      exact ⟨c, by simp [mem_etText hc hb], hb⟩
    by_cases h2 : ∃ a ∈ as, ∃ c ∈ a.2, ¬ XmlChar c
    · obtain ⟨a, ha, c, hc, hb⟩ := h2
      have := mem_attrText (esc := etAttr) (List.mem_map_of_mem (f := fun a : Key × Str => (keyName a.1, a.2)) ha) (mem_etAttr hc hb)
      exact ⟨c, by simp [this], hb⟩
    by_cases h3 : ∀ k ∈ kids, Every GoodChars k
    · refine absurd (Every.node t as s kids ⟨?_, ?_⟩ h3) h
      · intro a ha c hc
        by_contra hb
        exact h2 ⟨a, ha, c, hc, hb⟩
      · intro c hc
        by_contra hb
        exact h1 ⟨c, hc, hb⟩
    · obtain ⟨c, hc, hb⟩ := bad_writtens kids h3
      exact ⟨c, by simp [hc], hb⟩
theorem bad_writtens : (l : List Xml) → ¬ (∀ x ∈ l, Every GoodChars x) → ∃ c ∈ etWrites (Xml.toEls l), ¬ XmlChar c
  | [], h => absurd (by simp) h
  | x :: l, h => by
    rw [Xml.toEls, etWrites]
    by_cases h1 : Every GoodChars x
    · have h2 : ¬ (∀ x ∈ l, Every GoodChars x) := by
        intro h2
        refine h fun y hy => ?_
        rcases List.mem_cons.1 hy with rfl | hy
        · exact h1
        · exact h2 y hy
      obtain ⟨c, hc, hb⟩ := bad_writtens l h2
      exact ⟨c, by simp [hc], hb⟩
    · obtain ⟨c, hc, hb⟩ := bad_written x h1
      exact ⟨c, by simp [hc], hb⟩
end

theorem xmlChar_of {c : Char} (h : xmlChar c = true) : XmlChar c := by
  simp only [xmlChar, Bool.or_eq_true, Bool.and_eq_true, decide_eq_true_eq, beq_iff_eq, bne_iff_ne] at h
  have key : ∀ d : Char, c.toNat = d.toNat → c = d := by
    intro d hd
    have := congrArg Char.ofNat hd
    rwa [Char.ofNat_toNat, Char.ofNat_toNat] at this
  rcases h with ((h | h) | h) | h
  · exact .inl (key '\t' h)
  · exact .inr (.inl (key '\n' h))
  · exact .inr (.inr (.inl (key '\r' h)))
  · exact .inr (.inr (.inr ⟨h.1.1, h.1.2, h.2⟩))

theorem withNamespaces_mem {e : El} {c : Char} (h : c ∈ etWrite e) : c ∈ etWrite e.withNamespaces := by
  cases e with
  | mk n as s kids t =>
    rw [El.withNamespaces]
    rw [etWrite] at h ⊢
    simp only [attrText, List.flatMap_append, List.mem_append, List.mem_cons] at h ⊢
    tauto

theorem bad_unsaved (py : Py) (nc : NameChars) (u : Bool) {x : Xml} (h : ¬ Every GoodChars x) : saveToFile py nc u x = none := by
  obtain ⟨c, hc, hb⟩ := bad_written x h
  have h1 : c ∈ newlines (etHead ++ etWrite x.toEl.withNamespaces) :=
    newlines_keeps (List.mem_append_right _ (withNamespaces_mem hc)) fun e => hb (.inr (.inr (.inl e)))
  have h2 : parseXml nc (etHead ++ etWrite x.toEl.withNamespaces) = none := by
    unfold parseXml
    simp only
    rw [if_neg]
    intro h
    exact hb (xmlChar_of (List.all_eq_true.1 h c h1))
  rw [saveToFile, h2, Option.map_none]

end Verif.Lemmas
