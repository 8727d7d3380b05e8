import Verif.Model.FileList
import Verif.Spec.FileList
import Verif.Lemmas.Prim
import Verif.Lemmas.Regex
/-!
# Lines, stripping and file names
-/
namespace Verif.Lemmas
open Verif.Model Verif.Spec

theorem lines_flatten (t : List Char) : (lines t).flatten = t := by
  induction t with
  | nil => rfl
  | cons c s ih =>
    simp only [lines]
    split
    · simp [ih]
    · split
      · rename_i h; rw [h] at ih; simp at ih; subst ih; rfl
      · rename_i h; rw [h] at ih; simpa using ih

theorem lines_nil {t : List Char} (h : lines t = []) : t = [] := by rw [← lines_flatten t, h]; rfl

theorem lines_each (t : List Char) : ∀ l ∈ lines t, l ≠ [] ∧ '\n' ∉ l.dropLast := by
  induction t with
  | nil => simp [lines]
  | cons c s ih =>
    simp only [lines]
    split
    · intro l hl
      rcases List.mem_cons.mp hl with rfl | hl
      · simp
      · exact ih l hl
    · rename_i hc
      split
      · intro l hl; simp at hl; subst hl; simp
      · rename_i l0 r h
        rw [h] at ih
        intro l hl
        rcases List.mem_cons.mp hl with rfl | hl
        · obtain ⟨h1, h2⟩ := ih l0 (by simp)
          refine ⟨by simp, ?_⟩
          cases l0 with
          | nil => exact absurd rfl h1
          | cons x l0 => simpa using ⟨Ne.symm hc, h2⟩
        · exact ih l (by simp [hl])

theorem lines_newline (t : List Char) : ∀ l ∈ (lines t).dropLast, l.getLast? = some '\n' := by
  induction t with
  | nil => simp [lines]
  | cons c s ih =>
    simp only [lines]
    split
    · rename_i hc
      intro l hl
      cases hs : lines s with
      | nil => simp [hs] at hl
      | cons l0 r =>
        rw [hs] at hl ih
        simp only [List.dropLast_cons_cons, List.mem_cons] at hl
        rcases hl with rfl | hl
        · simp [hc]
        · exact ih l hl
    · split
      · simp
      · rename_i l0 r h
        intro l hl
        have hne := (lines_each s l0 (by simp [h])).1
        cases r with
        | nil => simp at hl
        | cons l1 r =>
          rw [h] at ih
          simp only [List.dropLast_cons_cons, List.mem_cons] at hl ih
          rcases hl with rfl | hl
          · have := ih l0 (.inl rfl)
            cases l0 with
            | nil => exact absurd rfl hne
            | cons x l0 => simpa [List.getLast?_cons_cons] using this
          · exact ih l (.inr hl)

theorem linesOf_lines (t : List Char) : LinesOf t (lines t) := ⟨lines_flatten t, lines_each t, lines_newline t⟩

theorem linesOf_cons {c : Char} {s : List Char} {ls : List (List Char)} (h : LinesOf (c :: s) ls) :
    (c = '\n' ∧ ∃ r, ls = [c] :: r ∧ LinesOf s r) ∨ (c ≠ '\n' ∧ s = [] ∧ ls = [[c]]) ∨
      (c ≠ '\n' ∧ ∃ l r, ls = (c :: l) :: r ∧ LinesOf s (l :: r)) := by
  obtain ⟨h1, h2, h3⟩ := h
  cases ls with
  | nil => simp at h1
  | cons l r =>
    obtain ⟨hne, hn⟩ := h2 l (by simp)
    cases l with
    | nil => exact absurd rfl hne
    | cons x l =>
      simp only [List.flatten_cons, List.cons_append, List.cons.injEq] at h1
      obtain ⟨rfl, h1⟩ := h1
      have hr : ∀ l ∈ r.dropLast, l.getLast? = some '\n' := by
        intro l' hl'
        cases r with
        | nil => simp at hl'
        | cons r0 r => exact h3 l' (by simp only [List.dropLast_cons_cons, List.mem_cons]; exact .inr hl')
      by_cases hc : x = '\n'
      · left
        cases l with
        | nil => exact ⟨hc, r, rfl, by simpa using h1, fun l' hl' => h2 l' (by simp [hl']), hr⟩
        | cons y l => simp [hc] at hn
      · right
        cases l with
        | nil =>
          left
          cases r with
          | nil => exact ⟨hc, by simpa using h1.symm, rfl⟩
          | cons r0 r =>
            have := h3 [x] (by simp)
            simp at this; exact absurd this hc
        | cons y l =>
          right
          refine ⟨hc, y :: l, r, rfl, by simpa using h1, ?_, ?_⟩
          · intro l' hl'
            rcases List.mem_cons.mp hl' with rfl | hl'
            · exact ⟨by simp, by simp only [List.dropLast_cons_cons, List.mem_cons, not_or] at hn; exact hn.2⟩
            · exact h2 l' (by simp [hl'])
          · intro l' hl'
            cases r with
            | nil => simp at hl'
            | cons r0 r =>
              simp only [List.dropLast_cons_cons, List.mem_cons] at hl'
              rcases hl' with rfl | hl'
              · have := h3 (x :: y :: l) (by simp)
                simpa [List.getLast?_cons_cons] using this
              · exact hr l' (by simpa using hl')

/-- the lines of a text are determined by the text -/
theorem linesOf_unique {t : List Char} {ls : List (List Char)} (h : LinesOf t ls) : ls = lines t := by
  induction t generalizing ls with
  | nil =>
    obtain ⟨h1, h2, _⟩ := h
    cases ls with
    | nil => rfl
    | cons l r =>
      simp only [List.flatten_cons, List.append_eq_nil_iff] at h1
      exact absurd h1.1 (h2 l (by simp)).1
  | cons c s ih =>
    rcases linesOf_cons h with ⟨hc, r, rfl, hr⟩ | ⟨hc, rfl, rfl⟩ | ⟨hc, l, r, rfl, hr⟩
    · simp [lines, hc, ih hr]
    · simp [lines, hc]
    · simp only [lines, if_neg hc, ← ih hr]

theorem newlines_plain {s : List Char} (h : '\r' ∉ s) : newlines s = s := by
  induction s with
  | nil => rfl
  | cons c s ih =>
    simp only [List.mem_cons, not_or] at h
    rw [newlines]
    · rw [ih h.2]
    · intro _ e; exact fun _ => h.1 e.symm
    · exact fun e => h.1 e.symm

theorem newlines_crlf {s : List Char} (h : '\r' ∉ s) :
    newlines (s.flatMap fun c => if c = '\n' then ['\r', '\n'] else [c]) = s := by
  induction s with
  | nil => rfl
  | cons c s ih =>
    simp only [List.mem_cons, not_or] at h
    rw [List.flatMap_cons]
    by_cases hc : c = '\n'
    · subst hc
      simp [newlines, ih h.2]
    · rw [if_neg hc, List.singleton_append, newlines]
      · rw [ih h.2]
      · intro _ e; exact fun _ => h.1 e.symm
      · exact fun e => h.1 e.symm

theorem trimmed_strip (py : Py) (l : List Char) : TrimsTo py l (py.strip l) := by
  obtain ⟨a, b, h, h1, h2, h3, h4⟩ := strip_spec py l
  refine ⟨a, b, h, h1, h2, fun c hc => ?_, fun c hc => ?_⟩
  · cases hs : py.strip l with
    | nil => simp [hs] at hc
    | cons x r => simp [hs] at hc; subst hc; exact h3 x r hs
  · obtain ⟨r, hr⟩ := List.getLast?_eq_some_iff.mp hc
    exact h4 r c hr

theorem trimmed_unique {py : Py} {l p : List Char} (h : TrimsTo py l p) : p = py.strip l := by
  obtain ⟨a, b, rfl, h1, h2, h3, h4⟩ := h
  refine (strip_tight py h1 h2 ⟨fun c r e => h3 c (by simp [e]), fun r c e => h4 c (by simp [e])⟩).symm

theorem strip_nil_iff (py : Py) (l : List Char) : py.strip l = [] ↔ Blank py l := by
  constructor
  · intro h
    obtain ⟨a, b, e, h1, h2, _⟩ := strip_spec py l
    rw [h, List.append_nil] at e
    intro c hc
    rw [e] at hc
    rcases List.mem_append.mp hc with hc | hc
    · exact h1 c hc
    · exact h2 c hc
  · intro h
    have := strip_tight py (pre := l) (s := []) (post := []) h (by simp) ⟨by simp, by simp⟩
    simpa using this

theorem comment_iff (l : List Char) : (l.head? == some '#') = true ↔ Comment l := by
  cases l with
  | nil => simp [Comment]
  | cons c r => simp [Comment]

theorem listed_iff (py : Py) (ls ps : List (List Char)) :
    Listed py ls ps ↔ (((ls.filter fun l => !(l.head? == some '#')).map py.strip).filter fun p => !p.isEmpty) = ps := by
  constructor
  · intro h
    induction h with
    | nil => rfl
    | comment hc _ ih => rw [List.filter_cons_of_neg (by simpa using (comment_iff _).mpr hc)]; exact ih
    | @blank l ls ps hb _ ih =>
      by_cases hc : Comment l
      · rw [List.filter_cons_of_neg (by simpa using (comment_iff _).mpr hc)]; exact ih
      · rw [List.filter_cons_of_pos (by simpa using mt (comment_iff _).mp (by simpa using hc)), List.map_cons,
          (strip_nil_iff py l).mpr hb, List.filter_cons_of_neg (by simp)]
        exact ih
    | @path l ls p ps hc hb ht _ ih =>
      rw [List.filter_cons_of_pos (by simpa using mt (comment_iff _).mp (by simpa using hc)), List.map_cons,
        List.filter_cons_of_pos (by simpa using mt (strip_nil_iff py l).mp hb), ih, trimmed_unique ht]
  · intro h
    subst h
    induction ls with
    | nil => exact .nil
    | cons l ls ih =>
      by_cases hc : Comment l
      · rw [List.filter_cons_of_neg (by simpa using (comment_iff _).mpr hc)]; exact .comment hc ih
      · rw [List.filter_cons_of_pos (by simpa using mt (comment_iff _).mp (by simpa using hc)), List.map_cons]
        by_cases hb : Blank py l
        · rw [(strip_nil_iff py l).mpr hb, List.filter_cons_of_neg (by simp)]; exact .blank hb ih
        · rw [List.filter_cons_of_pos (by simpa using mt (strip_nil_iff py l).mp hb)]
          exact .path hc hb (trimmed_strip py l) ih

theorem arxmlName_iff {f : List Char} (hf : '\n' ∉ f) : arxmlName f = true ↔ ArxmlName f := by
  unfold arxmlName
  dsimp only
  rw [test_iff (rel_seq (rel_star _) (rel_seq (rel_lit _) (rel_seq (rel_chr _) (rel_seq (rel_chr _) (rel_seq (rel_chr _)
    (rel_seq (rel_chr _) (rel_seq (rel_chr _) rel_eol)))))))]
  constructor
  · rintro ⟨s', t, ⟨b, rfl, hb⟩, t1, rfl, t2, ⟨a, rfl, ha⟩, t3, ⟨r, rfl, hr⟩, t4, ⟨x, rfl, hx⟩, t5, ⟨m, rfl, hm⟩, t6,
      ⟨l, rfl, hl⟩, _, h | h⟩
    · subst h
      exact ⟨b, a, r, x, m, l, rfl, by simpa using ha, by simpa using hr, by simpa using hx, by simpa using hm, by simpa using hl⟩
    · subst h; simp at hf
  · rintro ⟨b, a, r, x, m, l, rfl, ha, hr, hx, hm, hl⟩
    refine ⟨[], _, ⟨b, rfl, fun c hc => ?_⟩, _, rfl, _, ⟨a, rfl, by simpa using ha⟩, _, ⟨r, rfl, by simpa using hr⟩, _,
      ⟨x, rfl, by simpa using hx⟩, _, ⟨m, rfl, by simpa using hm⟩, _, ⟨l, rfl, by simpa using hl⟩, rfl, .inl rfl⟩
    have : c ≠ '\n' := fun e => hf (List.mem_append_left _ (e ▸ hc))
    simpa using this

end Verif.Lemmas
