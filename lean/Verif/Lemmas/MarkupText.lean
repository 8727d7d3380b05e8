import Verif.Lemmas.Markup
import Verif.Lemmas.Regex
/-!
# How texts are written in a file

Escapes, line ends, and the two replacements of `patch_xml`.
-/
namespace Verif.Lemmas
open Verif Verif.Model Verif.Spec

/-! ### Escapes, character by character -/

def escEt (c : Char) : Str :=
  if c = '&' then "&amp;".toList else if c = '<' then "&lt;".toList else if c = '>' then "&gt;".toList else [c]

def escEtA (c : Char) : Str :=
  if c = '&' then "&amp;".toList else if c = '<' then "&lt;".toList else if c = '>' then "&gt;".toList
  else if c = '"' then "&quot;".toList else if c = '\r' then "&#13;".toList else if c = '\n' then "&#10;".toList
  else if c = '\t' then "&#09;".toList else [c]

def escDom (c : Char) : Str :=
  if c = '&' then "&amp;".toList else if c = '<' then "&lt;".toList else if c = '"' then "&quot;".toList
  else if c = '>' then "&gt;".toList else [c]

theorem replaceChar_flatMap (x : Char) (y s : Str) (f : Char → Str) :
    replaceChar x y (s.flatMap f) = s.flatMap fun c => replaceChar x y (f c) := by
  rw [replaceChar, List.flatMap_assoc]
  rfl

theorem replaceChar_one (x : Char) (y s : Str) : replaceChar x y s = s.flatMap fun c => replaceChar x y [c] := by
  simp [replaceChar]

theorem flatMap_ext {s : Str} {f g : Char → Str} (h : ∀ c, f c = g c) : s.flatMap f = s.flatMap g := by
  rw [funext h]

theorem etText_eq (s : Str) : etText s = s.flatMap escEt := by
  unfold etText
  rw [replaceChar_one '&', replaceChar_flatMap, replaceChar_flatMap]
  refine flatMap_ext fun c => ?_
  unfold escEt
  by_cases h1 : c = '&'
  · subst h1; decide
  by_cases h2 : c = '<'
  · subst h2; decide
  by_cases h3 : c = '>'
  · subst h3; decide
  simp [replaceChar, h1, h2, h3]

theorem etAttr_eq (s : Str) : etAttr s = s.flatMap escEtA := by
  unfold etAttr
  rw [replaceChar_one '&']
  simp only [replaceChar_flatMap]
  refine flatMap_ext fun c => ?_
  unfold escEtA
  by_cases h1 : c = '&'
  · subst h1; decide
  by_cases h2 : c = '<'
  · subst h2; decide
  by_cases h3 : c = '>'
  · subst h3; decide
  by_cases h4 : c = '"'
  · subst h4; decide
  by_cases h5 : c = '\r'
  · subst h5; decide
  by_cases h6 : c = '\n'
  · subst h6; decide
  by_cases h7 : c = '\t'
  · subst h7; decide
  simp [replaceChar, h1, h2, h3, h4, h5, h6, h7]

theorem domData_eq (s : Str) : domData s = s.flatMap escDom := by
  unfold domData
  rw [replaceChar_one '&']
  simp only [replaceChar_flatMap]
  refine flatMap_ext fun c => ?_
  unfold escDom
  by_cases h1 : c = '&'
  · subst h1; decide
  by_cases h2 : c = '<'
  · subst h2; decide
  by_cases h3 : c = '"'
  · subst h3; decide
  by_cases h4 : c = '>'
  · subst h4; decide
  simp [replaceChar, h1, h2, h3, h4]

/-! ### Decoding -/

theorem decode_amp (l : Char → Char) (s : Str) : decodeGo l none ("&amp;".toList ++ s) = (decodeGo l none s).map ('&' :: ·) := rfl
theorem decode_lt (l : Char → Char) (s : Str) : decodeGo l none ("&lt;".toList ++ s) = (decodeGo l none s).map ('<' :: ·) := rfl
theorem decode_gt (l : Char → Char) (s : Str) : decodeGo l none ("&gt;".toList ++ s) = (decodeGo l none s).map ('>' :: ·) := rfl
theorem decode_quot (l : Char → Char) (s : Str) : decodeGo l none ("&quot;".toList ++ s) = (decodeGo l none s).map ('"' :: ·) := rfl
theorem decode_cr (l : Char → Char) (s : Str) : decodeGo l none ("&#13;".toList ++ s) = (decodeGo l none s).map ('\r' :: ·) := rfl
theorem decode_nl (l : Char → Char) (s : Str) : decodeGo l none ("&#10;".toList ++ s) = (decodeGo l none s).map ('\n' :: ·) := rfl
theorem decode_tab (l : Char → Char) (s : Str) : decodeGo l none ("&#09;".toList ++ s) = (decodeGo l none s).map ('\t' :: ·) := rfl
theorem decode_char (l : Char → Char) {c : Char} (h : c ≠ '&') (s : Str) : decodeGo l none ([c] ++ s) = (decodeGo l none s).map (l c :: ·) := by
  simp [decodeGo, h]

theorem decode_flatMap {l : Char → Char} {e : Char → Str} {v : Char → Char}
    (h : ∀ c s, decodeGo l none (e c ++ s) = (decodeGo l none s).map (v c :: ·)) (s : Str) :
    decodeGo l none (s.flatMap e) = some (s.map v) := by
  induction s with
  | nil => rfl
  | cons c s ih => rw [List.flatMap_cons, h, ih]; rfl

theorem hasCdataEnd_none {s : Str} (h : '>' ∉ s) : hasCdataEnd s = false := by
  induction s with
  | nil => rfl
  | cons c s ih =>
    simp only [List.mem_cons, not_or] at h
    rw [hasCdataEnd, ih h.2, Bool.or_false]
    by_contra hp
    rw [Bool.not_eq_false, List.isPrefixOf_iff_prefix] at hp
    have := hp.subset (a := '>') (by decide)
    rcases List.mem_cons.1 this with e | e
    · exact h.1 e
    · exact h.2 e

theorem not_mem_flatMap {x : Char} {e : Char → Str} (h : ∀ c, x ∉ e c) (s : Str) : x ∉ s.flatMap e := by
  intro hx
  obtain ⟨c, _, hc⟩ := List.mem_flatMap.1 hx
  exact h c hc

theorem escEt_not (c : Char) : '<' ∉ escEt c ∧ '>' ∉ escEt c := by
  unfold escEt
  by_cases h1 : c = '&'
  · subst h1; decide
  by_cases h2 : c = '<'
  · subst h2; decide
  by_cases h3 : c = '>'
  · subst h3; decide
  simp [h1, h2, h3, Ne.symm h2, Ne.symm h3]

theorem escEtA_not (c : Char) : '<' ∉ escEtA c ∧ '"' ∉ escEtA c ∧ '\r' ∉ escEtA c := by
  unfold escEtA
  by_cases h1 : c = '&'
  · subst h1; decide
  by_cases h2 : c = '<'
  · subst h2; decide
  by_cases h3 : c = '>'
  · subst h3; decide
  by_cases h4 : c = '"'
  · subst h4; decide
  by_cases h5 : c = '\r'
  · subst h5; decide
  by_cases h6 : c = '\n'
  · subst h6; decide
  by_cases h7 : c = '\t'
  · subst h7; decide
  simp [h1, h2, h3, h4, h5, h6, h7, Ne.symm h2, Ne.symm h4, Ne.symm h5]

theorem escDom_not (c : Char) : '<' ∉ escDom c ∧ '>' ∉ escDom c ∧ '"' ∉ escDom c := by
  unfold escDom
  by_cases h1 : c = '&'
  · subst h1; decide
  by_cases h2 : c = '<'
  · subst h2; decide
  by_cases h3 : c = '"'
  · subst h3; decide
  by_cases h4 : c = '>'
  · subst h4; decide
  simp [h1, h2, h3, h4, Ne.symm h2, Ne.symm h3, Ne.symm h4]

theorem decode_escEt (c : Char) (s : Str) : decodeGo id none (escEt c ++ s) = (decodeGo id none s).map (id c :: ·) := by
  unfold escEt
  by_cases h1 : c = '&'
  · subst h1; exact decode_amp _ _
  by_cases h2 : c = '<'
  · subst h2; exact decode_lt _ _
  by_cases h3 : c = '>'
  · subst h3; exact decode_gt _ _
  rw [if_neg h1, if_neg h2, if_neg h3]
  exact decode_char _ h1 _

theorem decode_escEtA (c : Char) (s : Str) : decodeGo toBlank none (escEtA c ++ s) = (decodeGo toBlank none s).map (id c :: ·) := by
  unfold escEtA
  by_cases h1 : c = '&'
  · subst h1; exact decode_amp _ _
  by_cases h2 : c = '<'
  · subst h2; exact decode_lt _ _
  by_cases h3 : c = '>'
  · subst h3; exact decode_gt _ _
  by_cases h4 : c = '"'
  · subst h4; exact decode_quot _ _
  by_cases h5 : c = '\r'
  · subst h5; exact decode_cr _ _
  by_cases h6 : c = '\n'
  · subst h6; exact decode_nl _ _
  by_cases h7 : c = '\t'
  · subst h7; exact decode_tab _ _
  rw [if_neg h1, if_neg h2, if_neg h3, if_neg h4, if_neg h5, if_neg h6, if_neg h7, decode_char _ h1]
  have : toBlank c = c := by
    by_cases h8 : c = ' '
    · subst h8; decide
    · simp [toBlank, xmlSpace, h5, h6, h7, h8]
  rw [this]
  rfl

theorem decode_escDom (l : Char → Char) (hl : l '&' = '&' ∧ l '<' = '<' ∧ l '>' = '>' ∧ l '"' = '"') (c : Char) (s : Str) :
    decodeGo l none (escDom c ++ s) = (decodeGo l none s).map (l c :: ·) := by
  unfold escDom
  by_cases h1 : c = '&'
  · subst h1; rw [hl.1]; exact decode_amp _ _
  by_cases h2 : c = '<'
  · subst h2; rw [hl.2.1]; exact decode_lt _ _
  by_cases h3 : c = '"'
  · subst h3; rw [hl.2.2.2]; exact decode_quot _ _
  by_cases h4 : c = '>'
  · subst h4; rw [hl.2.2.1]; exact decode_gt _ _
  rw [if_neg h1, if_neg h2, if_neg h3, if_neg h4]
  exact decode_char _ h1 _

theorem decodeText_flatMap {e : Char → Str} (h : ∀ c s, decodeGo id none (e c ++ s) = (decodeGo id none s).map (id c :: ·))
    (hn : ∀ c, '>' ∉ e c) (s : Str) : decodeText (s.flatMap e) = some s := by
  unfold decodeText
  rw [hasCdataEnd_none (not_mem_flatMap hn s), decode_flatMap h]
  simp

theorem coding_et : Coding etText etAttr id where
  text s := by
    rw [etText_eq]
    exact ⟨not_mem_flatMap (fun c => (escEt_not c).1) s, decodeText_flatMap decode_escEt (fun c => (escEt_not c).2) s⟩
  attr s := by
    rw [etAttr_eq]
    refine ⟨not_mem_flatMap (fun c => (escEtA_not c).1) s, not_mem_flatMap (fun c => (escEtA_not c).2.1) s, ?_⟩
    rw [decodeAttr, decode_flatMap decode_escEtA]
    simp

theorem domAttr_ok (s : Str) : '<' ∉ domData s ∧ '"' ∉ domData s ∧ decodeAttr (domData s) = some (s.map toBlank) := by
  rw [domData_eq]
  refine ⟨not_mem_flatMap (fun c => (escDom_not c).1) s, not_mem_flatMap (fun c => (escDom_not c).2.2) s, ?_⟩
  rw [decodeAttr, decode_flatMap (decode_escDom _ (by decide))]

theorem coding_dom : Coding domData domData (·.map toBlank) where
  text s := by
    rw [domData_eq]
    refine ⟨not_mem_flatMap (fun c => (escDom_not c).1) s, decodeText_flatMap (decode_escDom _ (by decide)) (fun c => (escDom_not c).2.1) s⟩
  attr := domAttr_ok

/-- with the option `unescape_entities` texts are written as `ElementTree` writes them -/
theorem coding_q : Coding etText domData (·.map toBlank) where
  text := coding_et.text
  attr := domAttr_ok

/-! ### Line ends -/

theorem newlines_cons {c : Char} (h : c ≠ '\r') (s : Str) : newlines (c :: s) = c :: newlines s := by
  rw [newlines]
  · intro _ e; exact fun _ => h e
  · exact fun e => h e

theorem newlines_cr {s : Str} (h : s.head? ≠ some '\n') : newlines ('\r' :: s) = '\n' :: newlines s := by
  cases s with
  | nil => rfl
  | cons c s =>
    rw [newlines]
    intro r e
    cases e
    simp at h

theorem newlines_prefix {u : Str} (h : '\r' ∉ u) (r : Str) : newlines (u ++ r) = u ++ newlines r := by
  induction u with
  | nil => rfl
  | cons c u ih =>
    simp only [List.mem_cons, not_or] at h
    rw [List.cons_append, newlines_cons (Ne.symm h.1), ih h.2]
    rfl

theorem newlines_mid {c : Char} (h1 : c ≠ '\r') (h2 : c ≠ '\n') (a b : Str) :
    newlines (a ++ c :: b) = newlines a ++ c :: newlines b := by
  fun_induction newlines a with
  | case1 => exact newlines_cons h1 b
  | case2 s ih => simp only [List.cons_append, newlines, ih]
  | case3 s hs ih =>
    rw [List.cons_append, newlines_cr, ih]
    · rfl
    · cases s with
      | nil => simpa using h2
      | cons d s => intro e; simp only [List.cons_append, List.head?_cons, Option.some.injEq] at e; subst e; exact hs s rfl
  | case4 d s _ hd ih =>
    rw [List.cons_append, newlines_cons, ih]
    · rfl
    · exact hd

theorem newlines_no_cr (s : Str) : '\r' ∉ newlines s := by
  fun_induction newlines s with
  | case1 => simp
  | case2 s ih => simpa using ih
  | case3 s _ ih => simpa using ih
  | case4 d s _ hd ih =>
    simp only [List.mem_cons, not_or]
    exact ⟨fun e => hd e.symm, ih⟩

theorem newlines_nil {s : Str} : newlines s = [] ↔ s = [] := by
  constructor
  · intro h
    fun_induction newlines s with
    | case1 => rfl
    | case2 s ih => cases h
    | case3 s _ ih => cases h
    | case4 d s _ hd ih => cases h
  · rintro rfl; rfl

theorem newlines_mem {s : Str} {c : Char} (h : c ∈ newlines s) : c = '\n' ∨ c ∈ s := by
  fun_induction newlines s with
  | case1 => cases h
  | case2 s ih =>
    rcases List.mem_cons.1 h with rfl | h
    · exact .inl rfl
    · rcases ih h with h | h
      · exact .inl h
      · exact .inr (by simp [h])
  | case3 s _ ih =>
    rcases List.mem_cons.1 h with rfl | h
    · exact .inl rfl
    · rcases ih h with h | h
      · exact .inl h
      · exact .inr (by simp [h])
  | case4 d s _ hd ih =>
    rcases List.mem_cons.1 h with rfl | h
    · exact .inr (by simp)
    · rcases ih h with h | h
      · exact .inl h
      · exact .inr (by simp [h])

/-- escapes do not touch line ends -/
theorem newlines_flatMap {e : Char → Str} (hr : e '\r' = ['\r']) (hn : e '\n' = ['\n'])
    (h : ∀ c, c ≠ '\r' → c ≠ '\n' → '\r' ∉ e c ∧ (e c).head? ≠ some '\n' ∧ e c ≠ []) (s : Str) :
    newlines (s.flatMap e) = (newlines s).flatMap e := by
  fun_induction newlines s with
  | case1 => rfl
  | case2 s ih => simp only [List.flatMap_cons, hr, hn, List.singleton_append, newlines, ih]
  | case3 s hs ih =>
    rw [List.flatMap_cons, hr, List.singleton_append, newlines_cr, ih, List.flatMap_cons, hn]
    · rfl
    · cases s with
      | nil => simp
      | cons d s =>
        have hd : d ≠ '\n' := by rintro rfl; exact hs s rfl
        rw [List.flatMap_cons]
        by_cases h2 : d = '\r'
        · subst h2; rw [hr]; simp
        · obtain ⟨_, h4, h5⟩ := h d h2 hd
          cases he : e d with
          | nil => exact absurd he h5
          | cons x t => rw [he] at h4; simpa using h4
  | case4 d s _ hd ih =>
    rw [List.flatMap_cons, newlines_prefix, ih, List.flatMap_cons]
    by_cases h2 : d = '\n'
    · subst h2; rw [hn]; decide
    · exact (h d hd h2).1

theorem newlines_etText (s : Str) : newlines (etText s) = etText (newlines s) := by
  rw [etText_eq, etText_eq]
  refine newlines_flatMap (by decide) (by decide) (fun c h1 h2 => ?_) s
  unfold escEt
  by_cases h3 : c = '&'
  · subst h3; decide
  by_cases h4 : c = '<'
  · subst h4; decide
  by_cases h5 : c = '>'
  · subst h5; decide
  simp [h3, h4, h5, h2, Ne.symm h1]

theorem newlines_etAttr (s : Str) : newlines (etAttr s) = etAttr s := by
  rw [etAttr_eq]
  exact newlines_plain (not_mem_flatMap (fun c => (escEtA_not c).2.2) s)

theorem newlines_domData (s : Str) : newlines (domData s) = domData (newlines s) := by
  rw [domData_eq, domData_eq]
  refine newlines_flatMap (by decide) (by decide) (fun c h1 h2 => ?_) s
  unfold escDom
  by_cases h3 : c = '&'
  · subst h3; decide
  by_cases h4 : c = '<'
  · subst h4; decide
  by_cases h5 : c = '"'
  · subst h5; decide
  by_cases h6 : c = '>'
  · subst h6; decide
  simp [h3, h4, h5, h6, h2, Ne.symm h1]

/-! ### `re.sub` and `str.replace` -/

theorem emptyTag_match {py : Py} {m : Str} (hm : m ≠ []) (hw : ∀ c ∈ m, (py.word c || c == '-') = true) (r : Str) :
    emptyTag py ('<' :: (m ++ '/' :: '>' :: r)) = some (m, r) := by
  cases m with
  | nil => exact absurd rfl hm
  | cons c m =>
    have hs : (py.word '/' || '/' == '-') = false := by rw [py.word_ascii _ (by decide)]; decide
    have hd : (m ++ '/' :: '>' :: r).dropWhile (fun c => py.word c || c == '-') = '/' :: '>' :: r := by
      rw [List.dropWhile_append_of_pos (fun x hx => hw x (by simp [hx])), List.dropWhile_cons_of_neg (by show ¬ (py.word '/' || '/' == '-') = true; rw [hs]; decide)]
    have hc : (py.word c || c == '-') = true := hw c (by simp)
    simp only [emptyTag, Re.lit, Re.chr, Re.cap, Re.plus, Re.seq, Re.star, beq_self_eq_true, if_true, List.cons_append, hc]
    rw [Re.starK.eq_def]
    rw [← Re.starK.eq_def, starK_greedy _ _ _ (by rw [hd]; simp), hd]
    simp only [beq_self_eq_true, if_true, Option.some.injEq, Prod.mk.injEq, and_true]
    have : (c :: (m ++ '/' :: '>' :: r)).length - ('/' :: '>' :: r).length = (c :: m).length := by simp; omega
    rw [this, ← List.cons_append, List.take_left]

theorem emptyTag_some {py : Py} {s m r : Str} (h : emptyTag py s = some (m, r)) :
    s = '<' :: (m ++ '/' :: '>' :: r) ∧ m ≠ [] ∧ ∀ c ∈ m, (py.word c || c == '-') = true := by
  have hs : (emptyTag py s).isSome = true := by rw [h]; rfl
  unfold emptyTag at hs
  rw [rel_lit] at hs
  obtain ⟨t, rfl, ht⟩ := hs
  unfold Re.cap at ht
  rw [rel_plus] at ht
  obtain ⟨u, ⟨a, rfl, ha, hw⟩, hu⟩ := ht
  rw [rel_seq (rel_lit '/') (rel_lit '>')] at hu
  obtain ⟨v, ⟨w, rfl, rfl⟩, _⟩ := hu
  rw [emptyTag_match ha hw] at h
  cases h
  exact ⟨rfl, ha, hw⟩

theorem expandGo_stable (py : Py) : ∀ (n m : Nat) (s : Str), s.length ≤ n → s.length ≤ m → expandGo py n s = expandGo py m s := by
  intro n
  induction n with
  | zero =>
    intro m s hn _
    have : s = [] := List.length_eq_zero_iff.1 (by omega)
    subst this
    cases m <;> rfl
  | succ n ih =>
    intro m s hn hm
    cases s with
    | nil => cases m <;> rfl
    | cons c s =>
      cases m with
      | zero => simp at hm
      | succ m =>
        simp only [List.length_cons] at hn hm
        simp only [expandGo]
        cases he : emptyTag py (c :: s) with
        | none => simp only; rw [ih m s (by omega) (by omega)]
        | some p =>
          obtain ⟨k, r⟩ := p
          have hl : r.length ≤ s.length := by
            have := congrArg List.length (emptyTag_some he).1
            simp at this
            omega
          simp only
          rw [ih m r (by omega) (by omega)]

theorem expand_match {py : Py} {m : Str} (hm : m ≠ []) (hw : ∀ c ∈ m, (py.word c || c == '-') = true) (r : Str) :
    expand py ('<' :: (m ++ '/' :: '>' :: r)) = '<' :: m ++ '>' :: '<' :: '/' :: m ++ '>' :: expand py r := by
  unfold expand
  rw [List.length_cons, expandGo, emptyTag_match hm hw]
  simp only
  rw [expandGo_stable py _ r.length r (by simp; omega) (by omega)]

theorem expand_none {py : Py} {c : Char} {s : Str} (h : emptyTag py (c :: s) = none) : expand py (c :: s) = c :: expand py s := by
  unfold expand
  rw [List.length_cons, expandGo, h]

theorem expand_char {py : Py} {c : Char} (h : c ≠ '<') (s : Str) : expand py (c :: s) = c :: expand py s := by
  refine expand_none ?_
  cases he : emptyTag py (c :: s) with
  | none => rfl
  | some p => have := (emptyTag_some (m := p.1) (r := p.2) he).1; cases this; exact absurd rfl h

theorem expand_plain {py : Py} {u : Str} (h : '<' ∉ u) (r : Str) : expand py (u ++ r) = u ++ expand py r := by
  induction u with
  | nil => rfl
  | cons c u ih =>
    simp only [List.mem_cons, not_or] at h
    rw [List.cons_append, expand_char (Ne.symm h.1), ih h.2]
    rfl

theorem replaceGo_stable {x : Str} (hx : x ≠ []) (y : Str) : ∀ (n m : Nat) (s : Str), s.length ≤ n → s.length ≤ m → replaceGo x y n s = replaceGo x y m s := by
  intro n
  induction n with
  | zero =>
    intro m s hn _
    have : s = [] := List.length_eq_zero_iff.1 (by omega)
    subst this
    cases m <;> rfl
  | succ n ih =>
    intro m s hn hm
    cases s with
    | nil => cases m <;> rfl
    | cons c s =>
      cases m with
      | zero => simp at hm
      | succ m =>
        simp only [List.length_cons] at hn hm
        have hl : 0 < x.length := List.length_pos_iff.2 hx
        have hd : ((c :: s).drop x.length).length ≤ s.length := by rw [List.length_drop, List.length_cons]; omega
        simp only [replaceGo]
        rw [ih m s (by omega) (by omega), ih m _ (Nat.le_trans hd (by omega)) (Nat.le_trans hd (by omega))]

theorem replaceAll_match {x : Str} (hx : x ≠ []) (y r : Str) : replaceAll x y (x ++ r) = y ++ replaceAll x y r := by
  cases x with
  | nil => exact absurd rfl hx
  | cons c x =>
    unfold replaceAll
    rw [List.cons_append, List.length_cons, replaceGo, if_pos (by rw [List.isPrefixOf_iff_prefix]; exact ⟨r, rfl⟩)]
    have : (c :: (x ++ r)).drop (c :: x).length = r := by simp
    rw [this, replaceGo_stable hx y _ r.length r (by simp) (by omega)]

theorem replaceAll_none {x y : Str} {c : Char} {s : Str} (h : ¬ x <+: c :: s) : replaceAll x y (c :: s) = c :: replaceAll x y s := by
  unfold replaceAll
  rw [List.length_cons, replaceGo, if_neg (by rw [List.isPrefixOf_iff_prefix]; exact h)]

theorem replaceAll_plain {x y u : Str} {a : Char} (h : a ∉ u) (r : Str) : replaceAll (a :: x) y (u ++ r) = u ++ replaceAll (a :: x) y r := by
  induction u with
  | nil => rfl
  | cons c u ih =>
    simp only [List.mem_cons, not_or] at h
    rw [List.cons_append, replaceAll_none, ih h.2]
    · rfl
    · intro hp
      rw [List.cons_prefix_cons] at hp
      exact h.1 hp.1

/-- an `&` that is followed by something else -/
theorem replaceAll_other {x y u : Str} {a b d : Char} (hb : b ≠ d) (hu : a ∉ d :: u) (r : Str) :
    replaceAll (a :: b :: x) y (a :: d :: u ++ r) = a :: d :: u ++ replaceAll (a :: b :: x) y r := by
  rw [List.cons_append, replaceAll_none, replaceAll_plain hu]
  · rfl
  · intro hp
    rw [List.cons_prefix_cons, List.cons_append, List.cons_prefix_cons] at hp
    exact hb hp.2.1

end Verif.Lemmas
