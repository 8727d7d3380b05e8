import Verif.Spec.Format
import Verif.Lemmas.MarkupParsed
/-!
# Formatting: lines
-/
namespace Verif.Lemmas
open Verif Verif.Model Verif.Spec

theorem lineSep_iff (c : Char) : lineSep c = true ↔ c ∈ lineEnds := by
  constructor
  · intro h
    simp only [lineSep, Bool.or_eq_true, Bool.and_eq_true, decide_eq_true_eq, beq_iff_eq] at h
    have hc : c = Char.ofNat c.toNat := by simp
    have : c.toNat = 10 ∨ c.toNat = 11 ∨ c.toNat = 12 ∨ c.toNat = 13 ∨ c.toNat = 28 ∨ c.toNat = 29 ∨ c.toNat = 30 ∨ c.toNat = 0x85 ∨
        c.toNat = 0x2028 ∨ c.toNat = 0x2029 := by omega
    rcases this with h | h | h | h | h | h | h | h | h | h <;> · rw [hc, h]; decide
  · have : ∀ c ∈ lineEnds, lineSep c = true := by decide
    exact this c

theorem lineSep_false {c : Char} (h : c ∉ lineEnds) : lineSep c = false := by
  cases hc : lineSep c with
  | false => rfl
  | true => exact absurd ((lineSep_iff c).1 hc) h

/-! ### The lines of a text -/

theorem linesOf_ne (s : Str) : linesOf s ≠ [] := by
  cases s with
  | nil => simp [linesOf]
  | cons c s =>
    rw [linesOf]
    split
    · simp
    · split <;> simp

theorem linesOf_end {c : Char} (h : c ∈ lineEnds) (s : Str) : linesOf (c :: s) = [] :: linesOf s := by
  rw [linesOf, if_pos h]

theorem linesOf_char {c : Char} (h : c ∉ lineEnds) {s l : Str} {r : List Str} (hs : linesOf s = l :: r) : linesOf (c :: s) = (c :: l) :: r := by
  rw [linesOf, if_neg h, hs]

/-- a prefix without line ends -/
theorem linesOf_prefix {u : Str} (hu : ∀ c ∈ u, c ∉ lineEnds) {s l : Str} {r : List Str} (hs : linesOf s = l :: r) : linesOf (u ++ s) = (u ++ l) :: r := by
  induction u with
  | nil => exact hs
  | cons c u ih => exact linesOf_char (hu c (by simp)) (ih fun x hx => hu x (by simp [hx]))

theorem linesOf_plain {u : Str} (hu : ∀ c ∈ u, c ∉ lineEnds) : linesOf u = [u] := by
  have := linesOf_prefix hu (s := []) (l := []) (r := []) rfl
  simpa using this

theorem linesOf_append (a b : Str) : linesOf (a ++ '\n' :: b) = linesOf a ++ linesOf b := by
  induction a with
  | nil => simp [linesOf, lineEnds]
  | cons c a ih =>
    by_cases hc : c ∈ lineEnds
    · rw [List.cons_append, linesOf_end hc, linesOf_end hc, ih]; rfl
    · cases hl : linesOf a with
      | nil => exact absurd hl (linesOf_ne a)
      | cons l r =>
        rw [hl, List.cons_append] at ih
        rw [List.cons_append, linesOf_char hc ih, linesOf_char hc hl]
        rfl

theorem linesOf_no (s : Str) : ∀ l ∈ linesOf s, ∀ c ∈ l, c ∉ lineEnds := by
  induction s with
  | nil => intro l hl; simp only [linesOf, List.mem_singleton] at hl; subst hl; intro c hc; cases hc
  | cons c s ih =>
    by_cases hc : c ∈ lineEnds
    · rw [linesOf_end hc]
      intro l hl
      rcases List.mem_cons.1 hl with rfl | hl
      · intro c hc; cases hc
      · exact ih l hl
    · cases hl : linesOf s with
      | nil => exact absurd hl (linesOf_ne s)
      | cons l r =>
        rw [linesOf_char hc hl]
        rw [hl] at ih
        intro x hx
        rcases List.mem_cons.1 hx with rfl | hx
        · intro y hy
          rcases List.mem_cons.1 hy with rfl | hy
          · exact hc
          · exact ih l (by simp) y hy
        · exact ih x (by simp [hx])

theorem joined_cons (l : Str) {r : List Str} (h : r ≠ []) : joined (l :: r) = l ++ '\n' :: joined r := by
  cases r with
  | nil => exact absurd rfl h
  | cons a r => rfl

theorem linesOf_joined {ls : List Str} (hn : ls ≠ []) (h : ∀ l ∈ ls, ∀ c ∈ l, c ∉ lineEnds) : linesOf (joined ls) = ls := by
  induction ls with
  | nil => exact absurd rfl hn
  | cons l r ih =>
    cases r with
    | nil => exact linesOf_plain (h l (by simp))
    | cons a r =>
      rw [joined_cons l (by simp), linesOf_append, linesOf_plain (h l (by simp)), ih (by simp) (fun x hx => h x (by simp [hx]))]
      rfl

/-! ### The text that is left -/

/-- the lines that are kept of a text inside an element -/
def keptLines (py : Py) : List Str → List Str
  | [] => []
  | l :: r => l :: (r.dropLast.filter (seen py) ++ r.getLast?.toList)

theorem squeezed_eq (py : Py) (s : Str) : squeezed py s = joined (keptLines py (linesOf s)) := by
  unfold squeezed
  cases h : linesOf s with
  | nil => rfl
  | cons l r => rfl

theorem keptLines_ne (py : Py) {ls : List Str} (h : ls ≠ []) : keptLines py ls ≠ [] := by
  cases ls with
  | nil => exact absurd rfl h
  | cons l r => simp [keptLines]

theorem keptLines_sub (py : Py) {ls : List Str} {l : Str} (h : l ∈ keptLines py ls) : l ∈ ls := by
  cases ls with
  | nil => cases h
  | cons a r =>
    simp only [keptLines, List.mem_cons, List.mem_append, List.mem_filter, Option.mem_toList] at h
    rcases h with rfl | ⟨h, _⟩ | h
    · simp
    · exact List.mem_cons_of_mem _ (List.dropLast_subset _ h)
    · exact List.mem_cons_of_mem _ (List.mem_of_getLast? h)

theorem linesOf_squeezed (py : Py) (s : Str) : linesOf (squeezed py s) = keptLines py (linesOf s) := by
  rw [squeezed_eq]
  exact linesOf_joined (keptLines_ne py (linesOf_ne s)) fun l hl => linesOf_no s l (keptLines_sub py hl)

/-- the lines of an element with something before and after them -/
theorem keptLines_around (py : Py) (l z : Str) (m : List Str) : keptLines py (l :: (m ++ [z])) = l :: (m.filter (seen py) ++ [z]) := by
  simp [keptLines]

theorem keptLines_idem (py : Py) (ls : List Str) : keptLines py (keptLines py ls) = keptLines py ls := by
  cases ls with
  | nil => rfl
  | cons l r =>
    rcases List.eq_nil_or_concat r with rfl | ⟨m, z, rfl⟩
    · rfl
    · rw [List.concat_eq_append, keptLines_around, keptLines_around, List.filter_filter]
      simp

theorem squeezed_idem (py : Py) (s : Str) : squeezed py (squeezed py s) = squeezed py s := by
  rw [squeezed_eq py (squeezed py s), linesOf_squeezed, keptLines_idem, ← squeezed_eq]

theorem squeezed_nil_iff (py : Py) (s : Str) : squeezed py s = [] ↔ s = [] := by
  constructor
  · intro h
    cases s with
    | nil => rfl
    | cons c s =>
      exfalso
      have hl := linesOf_squeezed py (c :: s)
      rw [h] at hl
      by_cases hc : c ∈ lineEnds
      · rw [linesOf_end hc] at hl
        rcases List.eq_nil_or_concat (linesOf s) with hn | ⟨m, z, hz⟩
        · exact linesOf_ne s hn
        · rw [hz, List.concat_eq_append, keptLines_around] at hl
          simp [linesOf] at hl
      · cases hs : linesOf s with
        | nil => exact linesOf_ne s hs
        | cons l r =>
          rw [linesOf_char hc hs, keptLines] at hl
          simp [linesOf] at hl
  · rintro rfl; rfl

theorem squeezed_ends (py : Py) (s : Str) : ∀ c ∈ squeezed py s, c ∈ lineEnds → c = '\n' := by
  have key : ∀ ls : List Str, (∀ l ∈ ls, ∀ c ∈ l, c ∉ lineEnds) → ∀ c ∈ joined ls, c ∈ lineEnds → c = '\n' := by
    intro ls
    induction ls with
    | nil => intro _ c hc; cases hc
    | cons l r ih =>
      intro h c hc he
      cases r with
      | nil => exact absurd he (h l (by simp) c hc)
      | cons a r =>
        rw [joined_cons l (by simp)] at hc
        rcases List.mem_append.1 hc with hc | hc
        · exact absurd he (h l (by simp) c hc)
        · rcases List.mem_cons.1 hc with rfl | hc
          · rfl
          · exact ih (fun x hx => h x (by simp [hx])) c hc he
  rw [squeezed_eq]
  exact key _ fun l hl => linesOf_no s l (keptLines_sub py hl)

theorem squeezed_mem (py : Py) {s : Str} {c : Char} (h : c ∈ squeezed py s) : c = '\n' ∨ c ∈ s := by
  have h1 : ∀ (ls : List Str) (c : Char), c ∈ joined ls → c = '\n' ∨ ∃ l ∈ ls, c ∈ l := by
    intro ls
    induction ls with
    | nil => intro c hc; cases hc
    | cons l r ih =>
      intro c hc
      cases r with
      | nil => exact .inr ⟨l, by simp, hc⟩
      | cons a r =>
        rw [joined_cons l (by simp)] at hc
        rcases List.mem_append.1 hc with hc | hc
        · exact .inr ⟨l, by simp, hc⟩
        · rcases List.mem_cons.1 hc with rfl | hc
          · exact .inl rfl
          · rcases ih c hc with h | ⟨x, hx, h⟩
            · exact .inl h
            · exact .inr ⟨x, by simp [hx], h⟩
  have h2 : ∀ (s : Str), ∀ l ∈ linesOf s, ∀ c ∈ l, c ∈ s := by
    intro s
    induction s with
    | nil => intro l hl; simp only [linesOf, List.mem_singleton] at hl; subst hl; intro c hc; cases hc
    | cons c s ih =>
      by_cases hc : c ∈ lineEnds
      · rw [linesOf_end hc]
        intro l hl
        rcases List.mem_cons.1 hl with rfl | hl
        · intro c hc; cases hc
        · exact fun x hx => List.mem_cons_of_mem _ (ih l hl x hx)
      · cases hl : linesOf s with
        | nil => exact absurd hl (linesOf_ne s)
        | cons l r =>
          rw [linesOf_char hc hl]
          rw [hl] at ih
          intro x hx
          rcases List.mem_cons.1 hx with rfl | hx
          · intro y hy
            rcases List.mem_cons.1 hy with rfl | hy
            · simp
            · exact List.mem_cons_of_mem _ (ih l (by simp) y hy)
          · exact fun y hy => List.mem_cons_of_mem _ (ih x (by simp [hx]) y hy)
  rw [squeezed_eq] at h
  rcases h1 _ c h with h | ⟨l, hl, hc⟩
  · exact .inl h
  · exact .inr (h2 s l (keptLines_sub py hl) c hc)

theorem squeezed_oneLine (py : Py) {s : Str} (h : ∀ c ∈ s, c ∉ lineEnds) : squeezed py s = s := by
  rw [squeezed_eq, linesOf_plain h]
  rfl

theorem squeezed_chars (py : Py) (s : Str) (h : ∀ c ∈ s, xmlChar c = true) : ∀ c ∈ squeezed py s, xmlChar c = true := by
  intro c hc
  rcases squeezed_mem py hc with rfl | hc
  · decide
  · exact h c hc

/-! ### What there is to see -/

theorem visible_lines (py : Py) (ls : List Str) : (ls.map py.strip).filter (· != []) = (ls.filter (seen py)).map py.strip := by
  induction ls with
  | nil => rfl
  | cons l r ih =>
    by_cases h : py.strip l = []
    · have hs : seen py l = false := by simp [seen, h]
      rw [List.map_cons, List.filter_cons, List.filter_cons, hs, ih]
      simp [h]
    · have hs : seen py l = true := by simp [seen, h]
      rw [List.map_cons, List.filter_cons, List.filter_cons, hs, ih]
      simp [h]

theorem visible_eq (py : Py) (s : Str) : visible py s = ((linesOf s).filter (seen py)).map py.strip := visible_lines py _

theorem visible_nil_iff (py : Py) (s : Str) : visible py s = [] ↔ (linesOf s).filter (seen py) = [] := by
  rw [visible_eq]
  simp

theorem seen_blank {py : Py} {l : Str} (h : Blank py l) : seen py l = false := by
  unfold seen
  rw [(strip_nil_iff py l).2 h]
  rfl

theorem seen_false {py : Py} {l : Str} (h : seen py l = false) : Blank py l := by
  rw [← strip_nil_iff]
  simpa [seen] using h

theorem filter_kept (py : Py) (ls : List Str) : (keptLines py ls).filter (seen py) = ls.filter (seen py) := by
  cases ls with
  | nil => rfl
  | cons l r =>
    rcases List.eq_nil_or_concat r with rfl | ⟨m, z, rfl⟩
    · rfl
    · rw [List.concat_eq_append, keptLines_around, List.filter_cons, List.filter_cons, List.filter_append, List.filter_append, List.filter_filter]
      simp

theorem visible_squeezed (py : Py) (s : Str) : visible py (squeezed py s) = visible py s := by
  rw [visible_eq, visible_eq, linesOf_squeezed, filter_kept]

theorem space_blank (py : Py) : py.space ' ' = true := by rw [py.space_ascii _ (by decide)]; decide

theorem blanks_blank {py : Py} {ind : Str} (h : ∀ c ∈ ind, c = ' ') : Blank py ind := fun c hc => by rw [h c hc]; exact space_blank py

theorem blanks_ends {ind : Str} (h : ∀ c ∈ ind, c = ' ') : ∀ c ∈ ind, c ∉ lineEnds := fun c hc => by rw [h c hc]; decide

theorem strip_indent (py : Py) {ind : Str} (h : Blank py ind) (l : Str) : py.strip (ind ++ l) = py.strip l := by
  unfold Py.strip
  congr 3
  induction ind with
  | nil => rfl
  | cons c ind ih =>
    rw [List.cons_append, List.dropWhile_cons, if_pos (h c (by simp))]
    exact ih fun x hx => h x (by simp [hx])

theorem visible_indent (py : Py) {ind : Str} (h : ∀ c ∈ ind, c = ' ') (s : Str) : visible py (ind ++ s) = visible py s := by
  unfold visible
  cases hs : linesOf s with
  | nil => exact absurd hs (linesOf_ne s)
  | cons l r =>
    rw [linesOf_prefix (blanks_ends h) hs, List.map_cons, List.map_cons, strip_indent py (blanks_blank h)]

/-- the lines around and between the children -/
theorem linesOf_around (py : Py) {ind out : Str} (hi : ∀ c ∈ ind, c = ' ') (ho : ∀ c ∈ out, c = ' ') (t : Str) :
    keptLines py (linesOf ('\n' :: textPart ind t ++ out)) = [] :: ((linesOf (ind ++ t)).filter (seen py) ++ [out]) := by
  have hnl : '\n' ∈ lineEnds := by decide
  unfold textPart
  by_cases ht : t = []
  · subst ht
    rw [if_pos rfl, List.append_nil, linesOf_plain (blanks_ends hi), List.cons_append, linesOf_end hnl, List.nil_append, linesOf_plain (blanks_ends ho)]
    have := seen_blank (blanks_blank (py := py) hi)
    simp [keptLines, this]
  · rw [if_neg ht]
    have e : '\n' :: (ind ++ t ++ ['\n']) ++ out = '\n' :: ((ind ++ t) ++ '\n' :: out) := by simp
    rw [e, linesOf_end hnl, linesOf_append, linesOf_plain (blanks_ends ho), keptLines_around]

theorem visible_around (py : Py) {ind out : Str} (hi : ∀ c ∈ ind, c = ' ') (ho : ∀ c ∈ out, c = ' ') (t : Str) :
    visible py (squeezed py ('\n' :: textPart ind t ++ out)) = visible py t := by
  rw [← visible_indent py hi t, visible_eq, linesOf_squeezed, linesOf_around py hi ho, visible_eq]
  have h1 : seen py [] = false := seen_blank (by intro c hc; cases hc)
  have h2 := seen_blank (blanks_blank (py := py) ho)
  simp [h1, h2, List.filter_append, List.filter_filter]

theorem around_blank (py : Py) {ind out : Str} (hi : ∀ c ∈ ind, c = ' ') (ho : ∀ c ∈ out, c = ' ') {t : Str} (ht : visible py t = []) :
    squeezed py ('\n' :: textPart ind t ++ out) = '\n' :: out := by
  rw [squeezed_eq, linesOf_around py hi ho, (visible_nil_iff py _).1 (by rw [visible_indent py hi]; exact ht)]
  rfl

theorem around_again (py : Py) {ind out : Str} (hi : ∀ c ∈ ind, c = ' ') (ho : ∀ c ∈ out, c = ' ') (t : Str) :
    squeezed py ('\n' :: textPart ind (squeezed py ('\n' :: textPart ind t ++ out)) ++ out) = squeezed py ('\n' :: textPart ind t ++ out) := by
  rw [squeezed_eq, linesOf_around py hi ho, squeezed_eq py ('\n' :: textPart ind t ++ out), linesOf_around py hi ho]
  congr 2
  rw [joined_cons [] (by simp), List.nil_append, linesOf_append, linesOf_plain (blanks_ends hi), linesOf_joined (by simp)]
  · have h1 := seen_blank (blanks_blank (py := py) hi)
    have h2 := seen_blank (blanks_blank (py := py) ho)
    simp [h1, h2, List.filter_append, List.filter_filter]
  · intro l hl
    rcases List.mem_append.1 hl with hl | hl
    · exact linesOf_no _ l (List.mem_of_mem_filter hl)
    · rw [List.mem_singleton] at hl
      rw [hl]; exact blanks_ends ho

/-! ### Even texts -/

theorem joined_linesOf {s : Str} (h : ∀ c ∈ s, c ∈ lineEnds → c = '\n') : joined (linesOf s) = s := by
  induction s with
  | nil => rfl
  | cons c s ih =>
    have ih := ih fun x hx => h x (by simp [hx])
    by_cases hc : c ∈ lineEnds
    · rw [linesOf_end hc, joined_cons _ (linesOf_ne s), ih, h c (by simp) hc]; rfl
    · cases hs : linesOf s with
      | nil => exact absurd hs (linesOf_ne s)
      | cons l r =>
        rw [linesOf_char hc hs]
        rw [hs] at ih
        cases r with
        | nil => exact congrArg _ ih
        | cons a r =>
          rw [joined_cons _ (by simp)] at ih ⊢
          exact congrArg _ ih

theorem even_iff (py : Py) (s : Str) : squeezed py s = s ↔ Even py s := by
  constructor
  · intro h
    refine ⟨fun c hc => ?_, ?_⟩
    · rw [← h] at hc; exact squeezed_ends py s c hc
    · rintro ⟨a, w, b, rfl, hw⟩
      have hl := linesOf_squeezed py (a ++ '\n' :: w ++ '\n' :: b)
      rw [h] at hl
      have e : linesOf (a ++ '\n' :: w ++ '\n' :: b) = linesOf a ++ (linesOf w ++ linesOf b) := by
        have : a ++ '\n' :: w ++ '\n' :: b = a ++ '\n' :: (w ++ '\n' :: b) := by simp
        rw [this, linesOf_append, linesOf_append]
      rw [e] at hl
      -- a blank line is dropped, so there are fewer lines
      have hw' : ∀ x ∈ linesOf w, seen py x = false := by
        have : ∀ (w : Str), Blank py w → ∀ x ∈ linesOf w, Blank py x := by
          intro w
          induction w with
          | nil => intro _ x hx; simp only [linesOf, List.mem_singleton] at hx; subst hx; intro c hc; cases hc
          | cons c w ih =>
            intro hb
            have ih := ih fun x hx => hb x (by simp [hx])
            by_cases hc : c ∈ lineEnds
            · rw [linesOf_end hc]
              intro x hx
              rcases List.mem_cons.1 hx with rfl | hx
              · intro c hc; cases hc
              · exact ih x hx
            · cases hs : linesOf w with
              | nil => exact absurd hs (linesOf_ne w)
              | cons l r =>
                rw [hs] at ih
                rw [linesOf_char hc hs]
                intro x hx
                rcases List.mem_cons.1 hx with rfl | hx
                · intro y hy
                  rcases List.mem_cons.1 hy with rfl | hy
                  · exact hb y (by simp)
                  · exact ih l (by simp) y hy
                · exact ih x (by simp [hx])
        exact fun x hx => seen_blank (this w hw x hx)
      cases ha : linesOf a with
      | nil => exact linesOf_ne a ha
      | cons l r =>
        rcases List.eq_nil_or_concat (linesOf b) with hb | ⟨m, z, hb⟩
        · exact linesOf_ne b hb
        · rw [ha, hb, List.concat_eq_append] at hl
          have e2 : l :: r ++ (linesOf w ++ (m ++ [z])) = l :: ((r ++ (linesOf w ++ m)) ++ [z]) := by simp
          rw [e2, keptLines_around] at hl
          simp only [List.cons.injEq, true_and, List.append_cancel_right_eq] at hl
          rw [eq_comm, List.filter_eq_self] at hl
          cases hw2 : linesOf w with
          | nil => exact linesOf_ne w hw2
          | cons x q =>
            have h1 := hl x (by simp [hw2])
            rw [hw' x (by simp [hw2])] at h1
            cases h1
  · rintro ⟨h1, h2⟩
    rw [squeezed_eq]
    suffices h : keptLines py (linesOf s) = linesOf s by rw [h]; exact joined_linesOf h1
    cases hs : linesOf s with
    | nil => rfl
    | cons l r =>
      rcases List.eq_nil_or_concat r with rfl | ⟨m, z, rfl⟩
      · rfl
      · rw [List.concat_eq_append, keptLines_around, List.filter_eq_self.2]
        intro x hx
        cases hb : seen py x with
        | true => rfl
        | false =>
          exfalso
          obtain ⟨m1, m2, rfl⟩ := List.append_of_mem hx
          apply h2
          refine ⟨joined (l :: m1), x, joined (m2 ++ [z]), ?_, seen_false hb⟩
          rw [List.concat_eq_append] at hs
          have e := joined_linesOf h1
          rw [hs] at e
          rw [← e]
          have app : ∀ (p q : List Str), p ≠ [] → q ≠ [] → joined (p ++ q) = joined p ++ '\n' :: joined q := by
            intro p q hp hq
            induction p with
            | nil => exact absurd rfl hp
            | cons a p ih =>
              cases p with
              | nil => rw [List.singleton_append, joined_cons a hq]; rfl
              | cons b p =>
                rw [List.cons_append, joined_cons a (by simp), ih (by simp), joined_cons a (by simp)]
                simp
          have e3 : l :: (m1 ++ x :: m2 ++ [z]) = (l :: m1) ++ (x :: (m2 ++ [z])) := by simp
          rw [e3, app _ _ (by simp) (by simp), joined_cons x (by simp)]
          simp

end Verif.Lemmas
