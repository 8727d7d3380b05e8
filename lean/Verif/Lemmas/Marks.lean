import Verif.Lemmas.MarkupMain
import Verif.Spec.Marks
/-!
# Comments, processing instructions and CDATA sections
-/
namespace Verif.Lemmas
open Verif Verif.Model Verif.Spec

/-! ### Reading one of them -/

theorem run_bang_comment {nc : NameChars} (hm : nc.marks = true) (stk : List Frame) (root : Option El) (s : Str) :
    run nc ⟨stk, root, .lt⟩ ("!--".toList ++ s) = run nc ⟨stk, root, .comment 0⟩ s := by
  have h1 : nc.start '!' = false := by rw [nc.start_ascii _ (by decide)]; decide
  have e : step nc ⟨stk, root, .lt⟩ '!' = some ⟨stk, root, .bang⟩ := by simp [step, h1, hm]
  show (step nc ⟨stk, root, .lt⟩ '!').bind _ = _
  rw [e]
  rfl

theorem run_comment (nc : NameChars) (stk : List Frame) (root : Option El) (s : Str) : ∀ (b : Str) (k : Nat), k < 2 →
    ¬ "--".toList <:+: (List.replicate k '-' ++ b) → (List.replicate k '-' ++ b).getLast? ≠ some '-' →
    run nc ⟨stk, root, .comment k⟩ (b ++ "-->".toList ++ s) = run nc ⟨stk, root, .content []⟩ s := by
  intro b
  induction b with
  | nil =>
    intro k hk _ hl
    match k, hk with
    | 0, _ => rfl
    | 1, _ => simp at hl
  | cons c b ih =>
    intro k hk hi hl
    by_cases hc : c = '-'
    · subst hc
      match k, hk with
      | 0, _ =>
        show run nc ⟨stk, root, .comment 1⟩ (b ++ "-->".toList ++ s) = _
        exact ih 1 (by omega) hi hl
      | 1, _ => exact absurd ⟨[], b, rfl⟩ hi
    · have e : step nc ⟨stk, root, .comment k⟩ c = some ⟨stk, root, .comment 0⟩ := by
        simp only [step]
        rw [if_neg (by omega), if_neg hc]
      show (step nc ⟨stk, root, .comment k⟩ c).bind _ = _
      rw [e]
      refine ih 0 (by omega) ?_ ?_
      · intro h
        refine hi ?_
        have : b <:+: List.replicate k '-' ++ c :: b := ⟨List.replicate k '-' ++ [c], [], by simp⟩
        exact h.trans this
      · intro h
        refine hl ?_
        rw [List.getLast?_append, List.getLast?_cons]
        have : b.getLast? = some '-' := h
        rw [this]
        rfl

theorem run_whole_comment {nc : NameChars} (hm : nc.marks = true) (stk : List Frame) (root : Option El) {b : Str} (s : Str)
    (h1 : ¬ "--".toList <:+: b) (h2 : b.getLast? ≠ some '-') :
    run nc ⟨stk, root, .lt⟩ ("!--".toList ++ b ++ "-->".toList ++ s) = run nc ⟨stk, root, .content []⟩ s := by
  have := run_comment nc stk root s b 0 (by omega) h1 h2
  rw [← this, List.append_assoc, List.append_assoc, run_bang_comment hm, List.append_assoc]

/-- in a processing instruction -/
theorem run_inst (nc : NameChars) (stk : List Frame) (root : Option El) (s : Str) : ∀ (b : Str) (q : Bool),
    ¬ "?>".toList <:+: ((if q then ['?'] else []) ++ b) →
    run nc ⟨stk, root, .inst q⟩ (b ++ "?>".toList ++ s) = run nc ⟨stk, root, .content []⟩ s := by
  intro b
  induction b with
  | nil =>
    intro q _
    have e : step nc ⟨stk, root, .inst q⟩ '?' = some ⟨stk, root, .inst true⟩ := by cases q <;> rfl
    show (step nc ⟨stk, root, .inst q⟩ '?').bind _ = _
    rw [e]
    rfl
  | cons c b ih =>
    intro q h
    have hn : ¬ (q && c == '>') = true := by
      intro hq
      simp only [Bool.and_eq_true, beq_iff_eq] at hq
      obtain ⟨rfl, rfl⟩ := hq
      exact h ⟨[], b, rfl⟩
    have e : step nc ⟨stk, root, .inst q⟩ c = some ⟨stk, root, .inst (c == '?')⟩ := by
      simp only [step]
      rw [if_neg hn]
    show (step nc ⟨stk, root, .inst q⟩ c).bind _ = _
    rw [e]
    refine ih (c == '?') ?_
    intro hi
    refine h ?_
    by_cases hc : c = '?'
    · subst hc
      exact hi.trans ⟨if q then ['?'] else [], [], by simp⟩
    · have hf : (c == '?') = false := by simpa using hc
      rw [hf] at hi
      exact hi.trans ⟨(if q then ['?'] else []) ++ [c], [], by simp⟩

/-- a processing instruction that is read -/
theorem run_target {nc : NameChars} (stk : List Frame) (root : Option El) (s : Str) {fin : PState} : ∀ (b n : Str),
    ¬ "?>".toList <:+: b → run nc ⟨stk, root, .target n⟩ (b ++ "?>".toList ++ s) = some fin →
    run nc ⟨stk, root, .content []⟩ s = some fin := by
  intro b
  induction b with
  | nil =>
    intro n _ h
    have hq : nc.start '?' = false := by rw [nc.start_ascii _ (by decide)]; decide
    have hq2 : nc.char '?' = false := by rw [nc.char_ascii _ (by decide)]; decide
    rw [List.nil_append, show "?>".toList ++ s = '?' :: '>' :: s from rfl, run_cons] at h
    simp only [step, hq, hq2, ite_self, Bool.false_eq_true, if_false] at h
    by_cases h1 : n = [] ∨ reserved n.reverse = true
    · rw [if_pos h1] at h; cases h
    rw [if_neg h1, if_neg (by decide), if_pos trivial] at h
    exact h
  | cons c b ih =>
    intro n hi h
    have hb : ¬ "?>".toList <:+: b := fun h' => hi (h'.trans ⟨[c], [], by simp⟩)
    rw [List.cons_append, List.cons_append, run_cons] at h
    simp only [step] at h
    by_cases h1 : (if n = [] then nc.start c else nc.char c) = true
    · rw [if_pos h1] at h; exact ih (c :: n) hb h
    rw [if_neg h1] at h
    by_cases h2 : n = [] ∨ reserved n.reverse = true
    · rw [if_pos h2] at h; cases h
    rw [if_neg h2] at h
    by_cases h3 : xmlSpace c = true
    · rw [if_pos h3] at h
      have := run_inst nc stk root s b false hb
      rw [← this]
      exact h
    rw [if_neg h3] at h
    by_cases h4 : c = '?'
    · rw [if_pos h4] at h
      subst h4
      have h' : run nc ⟨stk, root, .instEnd⟩ (b ++ "?>".toList ++ s) = some fin := h
      cases b with
      | nil =>
        have : run nc ⟨stk, root, .instEnd⟩ ([] ++ "?>".toList ++ s) = none := rfl
        rw [this] at h'; cases h'
      | cons x b =>
        rw [List.cons_append, List.cons_append, run_cons] at h'
        simp only [step] at h'
        by_cases hx : x = '>'
        · subst hx; exact absurd ⟨[], b, rfl⟩ hi
        · rw [if_neg hx] at h'; cases h'
    · rw [if_neg h4] at h; cases h

theorem step_question {nc : NameChars} (hm : nc.marks = true) (stk : List Frame) (root : Option El) :
    step nc ⟨stk, root, .lt⟩ '?' = some ⟨stk, root, .target []⟩ := by
  have h1 : nc.start '?' = false := by rw [nc.start_ascii _ (by decide)]; decide
  simp [step, h1, hm]

/-- in a CDATA section -/
theorem run_cdata (nc : NameChars) (stk : List Frame) (root : Option El) (s : Str) : ∀ (b raw : Str), ¬ "]]>".toList <:+: (raw.reverse ++ b) →
    run nc ⟨stk, root, .cdata raw⟩ (b ++ "]]>".toList ++ s) =
      (endCdata ⟨stk, root, .lt⟩ (raw.reverse ++ b)).bind fun st => run nc st s := by
  intro b
  induction b with
  | nil =>
    intro raw _
    have e0 : [] ++ "]]>".toList ++ s = ']' :: ']' :: '>' :: s := rfl
    have e1 : step nc ⟨stk, root, .cdata raw⟩ ']' = some ⟨stk, root, .cdata (']' :: raw)⟩ := rfl
    have e2 : step nc ⟨stk, root, .cdata (']' :: raw)⟩ ']' = some ⟨stk, root, .cdata (']' :: ']' :: raw)⟩ := rfl
    have e3 : step nc ⟨stk, root, .cdata (']' :: ']' :: raw)⟩ '>' = endCdata ⟨stk, root, .lt⟩ raw.reverse := rfl
    rw [List.append_nil, e0, run_cons, e1, Option.bind_some, run_cons, e2, Option.bind_some, run_cons, e3]
  | cons c b ih =>
    intro raw h
    have e : step nc ⟨stk, root, .cdata raw⟩ c = some ⟨stk, root, .cdata (c :: raw)⟩ := by
      simp only [step]
      split
      · next t =>
        refine absurd ?_ h
        exact ⟨t.reverse, b, by simp⟩
      · rfl
    rw [List.cons_append, List.cons_append, run_cons, e, Option.bind_some, ih (c :: raw) (by simpa using h)]
    simp

theorem run_section {nc : NameChars} (hm : nc.marks = true) (stk : List Frame) (root : Option El) (s : Str) :
    run nc ⟨stk, root, .lt⟩ ("![CDATA[".toList ++ s) = run nc ⟨stk, root, .cdata []⟩ s := by
  have h1 : nc.start '!' = false := by rw [nc.start_ascii _ (by decide)]; decide
  have e : step nc ⟨stk, root, .lt⟩ '!' = some ⟨stk, root, .bang⟩ := by simp [step, h1, hm]
  have e0 : "![CDATA[".toList ++ s = '!' :: '[' :: 'C' :: 'D' :: 'A' :: 'T' :: 'A' :: '[' :: s := rfl
  rw [e0, run_cons, e, Option.bind_some]
  simp [run, step]

/-! ### The two runs -/

theorem addText_addText (u v : Str) (f : Frame) : (f.addText u).addText v = f.addText (u ++ v) := by
  obtain ⟨n, as, t, kids⟩ := f
  cases kids with
  | nil => simp [Frame.addText]
  | cons e l => cases e; simp [Frame.addText, El.withTail, El.tail]

theorem addText_nil (f : Frame) : f.addText [] = f := by
  obtain ⟨n, as, t, kids⟩ := f
  cases kids with
  | nil => simp [Frame.addText]
  | cons e l => cases e; simp [Frame.addText, El.withTail, El.tail]

theorem decodeGo_append {p u : Str} (q : Option Str) (h : decodeGo id q p = some u) (s : Str) :
    decodeGo id q (p ++ s) = (decodeGo id none s).map (u ++ ·) := by
  induction p generalizing q u with
  | nil =>
    cases q with
    | none =>
      cases h
      simp only [List.nil_append]
      cases decodeGo id none s <;> rfl
    | some e => cases h
  | cons c p ih =>
    cases q with
    | none =>
      rw [List.cons_append, decodeGo] at *
      by_cases hc : c = '&'
      · rw [if_pos hc] at h ⊢; exact ih _ h
      · rw [if_neg hc] at h ⊢
        obtain ⟨v, hv, rfl⟩ := Option.map_eq_some_iff.1 h
        rw [ih _ hv]
        cases decodeGo id none s <;> rfl
    | some e =>
      rw [List.cons_append, decodeGo] at *
      by_cases hc : c = ';'
      · rw [if_pos hc] at h ⊢
        obtain ⟨x, hx, h⟩ := Option.bind_eq_some_iff.1 h
        obtain ⟨v, hv, rfl⟩ := Option.map_eq_some_iff.1 h
        rw [hx, Option.bind_some, ih _ hv]
        cases decodeGo id none s <;> rfl
      · rw [if_neg hc] at h ⊢; exact ih _ h

theorem hasCdataEnd_infix {s : Str} (h : hasCdataEnd s = true) : "]]>".toList <:+: s := by
  induction s with
  | nil => cases h
  | cons c s ih =>
    rw [hasCdataEnd, Bool.or_eq_true] at h
    rcases h with h | h
    · exact (List.isPrefixOf_iff_prefix.1 h).isInfix
    · exact (ih h).trans ⟨[c], [], by simp⟩

theorem decodeText_go {s t : Str} (h : decodeText s = some t) : decodeGo id none s = some t := by
  unfold decodeText at h
  split at h
  · cases h
  · exact h

/-- in a tag -/
def TagMode : Mode → Prop
  | .lt | .name _ | .tag _ _ | .attr _ _ _ | .eq _ _ _ | .quote _ _ _ | .value _ _ _ _ _ | .closed _ _ | .slash _ _ | .cname _ | .cend _ => True
  | _ => False

/-- the states of the two runs: some text was already put into the element by the first one -/
inductive Sim : PState → PState → Prop
  | same (st : PState) : TagMode st.mode → Sim st st
  | inside (f : Frame) (l : List Frame) (root : Option El) (pre u raw : Str) : decodeGo id none pre = some u →
      Sim ⟨f.addText u :: l, root, .content raw⟩ ⟨f :: l, root, .content (raw ++ pre.reverse)⟩
  | top (root : Option El) (pre raw : Str) : pre.all xmlSpace = true →
      Sim ⟨[], root, .content raw⟩ ⟨[], root, .content (raw ++ pre.reverse)⟩

theorem Sim.content (stk : List Frame) (root : Option El) (raw : Str) : Sim ⟨stk, root, .content raw⟩ ⟨stk, root, .content raw⟩ := by
  cases stk with
  | nil => simpa using Sim.top root [] raw rfl
  | cons f l =>
    have := Sim.inside f l root [] [] raw rfl
    rw [addText_nil] at this
    simpa using this

/-- the text that was not put into the element -/
def pending (st : PState) : Str :=
  match st.mode with
  | .content raw => raw.reverse
  | _ => []

theorem openEl_sim {stk : List Frame} {root : Option El} {n : Str} {as : List (Str × Str)} {st : PState} (h : openEl stk root n as = some st) :
    Sim st st ∧ st.mode = .content [] := by
  unfold openEl at h
  split at h
  · cases h
  · cases h; exact ⟨Sim.content _ _ _, rfl⟩

theorem closeEl_sim {stk : List Frame} {root : Option El} {n : Str} {st : PState} (h : closeEl stk root n = some st) :
    Sim st st ∧ st.mode = .content [] := by
  unfold closeEl at h
  split at h
  · cases h
  · split at h
    · simp only at h
      split at h <;> (cases h; exact ⟨Sim.content _ _ _, rfl⟩)
    · cases h

/-- a step inside a tag -/
theorem step_tag {nc : NameChars} {st st1 : PState} {c : Char} (hm : TagMode st.mode) (hl : st.mode = .lt → c ≠ '!' ∧ c ≠ '?')
    (h : step nc st c = some st1) : step nc.plain st c = some st1 ∧ Sim st1 st1 ∧ st1.mode ≠ .lt ∧ (st1.mode = .content [] ∨ TagMode st1.mode) := by
  obtain ⟨stk, root, mode⟩ := st
  have keep : ∀ m : Mode, TagMode m → m ≠ .lt → Sim ⟨stk, root, m⟩ ⟨stk, root, m⟩ ∧ m ≠ .lt ∧ (m = .content [] ∨ TagMode m) :=
    fun m h h' => ⟨.same _ h, h', .inr h⟩
  have opn : ∀ {n as}, openEl stk root n as = some st1 → Sim st1 st1 ∧ st1.mode ≠ .lt ∧ (st1.mode = .content [] ∨ TagMode st1.mode) := by
    intro n as h
    obtain ⟨h1, h2⟩ := openEl_sim h
    exact ⟨h1, (by rw [h2]; intro h; cases h), .inl h2⟩
  have cls : ∀ {s r n}, closeEl s r n = some st1 → Sim st1 st1 ∧ st1.mode ≠ .lt ∧ (st1.mode = .content [] ∨ TagMode st1.mode) := by
    intro s r n h
    obtain ⟨h1, h2⟩ := closeEl_sim h
    exact ⟨h1, (by rw [h2]; intro h; cases h), .inl h2⟩
  cases mode with
  | lt =>
    have hl := hl rfl
    have h3 : (c == '!') = false := by simpa using hl.1
    have h4 : (c == '?') = false := by simpa using hl.2
    have e : step nc.plain ⟨stk, root, .lt⟩ c = step nc ⟨stk, root, .lt⟩ c := by simp [step, h3, h4, NameChars.plain]
    refine ⟨e.trans h, ?_⟩
    simp only [step, h3, h4, Bool.and_false, Bool.false_eq_true, if_false] at h
    split at h
    · cases h; exact keep _ trivial (fun h => by cases h)
    · split at h
      · cases h; exact keep _ trivial (fun h => by cases h)
      · cases h
  | name n =>
    refine ⟨h, ?_⟩
    simp only [step] at h
    split at h; · cases h; exact keep _ trivial (fun h => by cases h)
    split at h; · cases h; exact keep _ trivial (fun h => by cases h)
    split at h; · exact opn h
    split at h
    · cases h; exact keep _ trivial (fun h => by cases h)
    · cases h
  | tag n as =>
    refine ⟨h, ?_⟩
    simp only [step] at h
    split at h; · cases h; exact keep _ trivial (fun h => by cases h)
    split at h; · exact opn h
    split at h; · cases h; exact keep _ trivial (fun h => by cases h)
    split at h
    · cases h; exact keep _ trivial (fun h => by cases h)
    · cases h
  | attr n as a =>
    refine ⟨h, ?_⟩
    simp only [step] at h
    split at h; · cases h; exact keep _ trivial (fun h => by cases h)
    split at h; · cases h; exact keep _ trivial (fun h => by cases h)
    split at h
    · cases h; exact keep _ trivial (fun h => by cases h)
    · cases h
  | eq n as a =>
    refine ⟨h, ?_⟩
    simp only [step] at h
    split at h; · cases h; exact keep _ trivial (fun h => by cases h)
    split at h
    · cases h; exact keep _ trivial (fun h => by cases h)
    · cases h
  | quote n as a =>
    refine ⟨h, ?_⟩
    simp only [step] at h
    split at h; · cases h; exact keep _ trivial (fun h => by cases h)
    split at h
    · cases h; exact keep _ trivial (fun h => by cases h)
    · cases h
  | value n as a q raw =>
    refine ⟨h, ?_⟩
    simp only [step] at h
    split at h; · cases h
    split at h
    · split at h
      · cases h
      · obtain ⟨v, hv, rfl⟩ := Option.map_eq_some_iff.1 h
        exact keep _ trivial (fun h => by cases h)
    · cases h; exact keep _ trivial (fun h => by cases h)
  | closed n as =>
    refine ⟨h, ?_⟩
    simp only [step] at h
    split at h; · cases h; exact keep _ trivial (fun h => by cases h)
    split at h; · exact opn h
    split at h
    · cases h; exact keep _ trivial (fun h => by cases h)
    · cases h
  | slash n as =>
    refine ⟨h, ?_⟩
    simp only [step] at h
    split at h
    · obtain ⟨s, _, h⟩ := Option.bind_eq_some_iff.1 h
      exact cls h
    · cases h
  | cname n =>
    refine ⟨h, ?_⟩
    simp only [step] at h
    split at h; · cases h; exact keep _ trivial (fun h => by cases h)
    split at h; · cases h; exact keep _ trivial (fun h => by cases h)
    split at h
    · exact cls h
    · cases h
  | cend n =>
    refine ⟨h, ?_⟩
    simp only [step] at h
    split at h; · cases h; exact keep _ trivial (fun h => by cases h)
    split at h
    · exact cls h
    · cases h
  | _ => exact hm.elim

/-- `<` is not read inside a tag -/
theorem step_lt_tag {nc : NameChars} {st : PState} (hm : TagMode st.mode) : step nc st '<' = none := by
  obtain ⟨stk, root, mode⟩ := st
  have h1 : nc.start '<' = false := by rw [nc.start_ascii _ (by decide)]; decide
  have h2 : nc.char '<' = false := by rw [nc.char_ascii _ (by decide)]; decide
  have h3 : xmlSpace '<' = false := by decide
  cases mode <;> first | exact hm.elim | simp [step, h1, h2, h3]

end Verif.Lemmas
