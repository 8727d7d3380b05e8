import Verif.Lemmas.Format
/-!
# Formatting: the file that is written
-/
namespace Verif.Lemmas
open Verif Verif.Model Verif.Spec

/-- The lines that are written, character by character: `none` when the current line has something to see (and everything
before was written), otherwise the blanks at its beginning. -/
def trim (py : Py) : Option Str → Str → Str
  | none, [] => ['\n']
  | some _, [] => []
  | none, c :: s => if lineSep c then '\n' :: trim py (some []) s else c :: trim py none s
  | some p, c :: s =>
    if lineSep c then trim py (some []) s
    else if py.space c then trim py (some (p ++ [c])) s
    else p ++ c :: trim py none s

theorem strip_snoc_space {py : Py} {p : Str} {c : Char} (hp : Blank py p) (hc : py.space c = true) : Blank py (p ++ [c]) := by
  intro x hx
  rcases List.mem_append.1 hx with hx | hx
  · exact hp x hx
  · rw [List.mem_singleton] at hx; rw [hx]; exact hc

theorem lines_trim (py : Py) (s : Str) : ∀ (cr : Bool) (cur : Str), (cr = true → cur = []) →
    ((splitlinesGo cr cur s).filter fun l => py.strip l != []).flatMap (fun l => l ++ ['\n']) =
      if seen py cur then cur ++ trim py none s else trim py (some cur) s := by
  induction s with
  | nil =>
    intro cr cur _
    rw [splitlinesGo]
    by_cases hc : cur = []
    · subst hc
      have : seen py [] = false := seen_blank (by intro c hc; cases hc)
      rw [this]
      rfl
    · rw [if_neg hc]
      cases hs : seen py cur with
      | true =>
        have : (py.strip cur != []) = true := hs
        simp [this, trim]
      | false =>
        have : (py.strip cur != []) = false := hs
        simp [this, trim]
  | cons c s ih =>
    intro cr cur hcr
    have h0 : seen py [] = false := seen_blank (by intro c hc; cases hc)
    have hnil : ∀ b : Bool, ((splitlinesGo b [] s).filter fun l => py.strip l != []).flatMap (fun l => l ++ ['\n']) = trim py (some []) s := by
      intro b
      rw [ih b [] (fun _ => rfl), h0]
      rfl
    rw [splitlinesGo]
    by_cases h1 : (cr && c == '\n') = true
    · rw [if_pos h1, hnil]
      simp only [Bool.and_eq_true, beq_iff_eq] at h1
      obtain ⟨hc, rfl⟩ := h1
      rw [hcr hc, h0, if_neg (by simp), trim, if_pos (by decide)]
    rw [if_neg h1]
    by_cases h2 : lineSep c = true
    · rw [if_pos h2]
      cases hs : seen py cur with
      | true =>
        have : (py.strip cur != []) = true := hs
        rw [List.filter_cons, if_pos this, List.flatMap_cons, hnil, if_pos rfl, trim, if_pos h2]
        simp
      | false =>
        have : (py.strip cur != []) = false := hs
        rw [List.filter_cons, this]
        simp only [Bool.false_eq_true, if_false]
        rw [hnil, trim, if_pos h2]
    · rw [if_neg h2, ih false _ (fun h => by cases h)]
      cases hs : seen py cur with
      | true =>
        have h3 : seen py (cur ++ [c]) = true := by
          cases h : seen py (cur ++ [c]) with
          | true => rfl
          | false =>
            have hb := seen_false h
            rw [seen_blank (fun x hx => hb x (by simp [hx]))] at hs
            cases hs
        rw [h3, if_pos rfl, if_pos rfl, trim, if_neg h2]
        simp
      | false =>
        have hb := seen_false hs
        rw [if_neg (by simp : ¬ (false = true)), trim, if_neg h2]
        by_cases h4 : py.space c = true
        · rw [if_pos h4, seen_blank (strip_snoc_space hb h4)]
          rfl
        · rw [if_neg h4]
          have h3 : seen py (cur ++ [c]) = true := by
            cases h : seen py (cur ++ [c]) with
            | true => rfl
            | false => exact absurd (seen_false h c (by simp)) h4
          rw [h3, if_pos rfl]
          simp

theorem written_trim (py : Py) (s : Str) : writtenLines py s = trim py (some []) s := by
  have h := lines_trim py s false [] (fun h => by cases h)
  have h0 : seen py [] = false := seen_blank (by intro c hc; cases hc)
  rw [h0] at h
  exact h

/-- a piece without line ends in a line that is written -/
theorem trim_plain {py : Py} {u : Str} (hu : ∀ c ∈ u, c ∉ lineEnds) (r : Str) : trim py none (u ++ r) = u ++ trim py none r := by
  induction u with
  | nil => rfl
  | cons c u ih =>
    rw [List.cons_append, trim, lineSep_false (hu c (by simp)), ih fun x hx => hu x (by simp [hx])]
    rfl

theorem trim_char {py : Py} {c : Char} (hc : c ∉ lineEnds) (r : Str) : trim py none (c :: r) = c :: trim py none r :=
  trim_plain (u := [c]) (by simpa using hc) r

theorem trim_first {py : Py} {c : Char} (hc : c ∉ lineEnds) (hs : py.space c = false) (p r : Str) :
    trim py (some p) (c :: r) = p ++ c :: trim py none r := by
  rw [trim, lineSep_false hc, hs]
  rfl

/-- the part of a text that is written -/
def sq (py : Py) : Option Str → Str → Str
  | none, [] => []
  | some p, [] => p
  | none, c :: s => if lineSep c then '\n' :: sq py (some []) s else c :: sq py none s
  | some p, c :: s =>
    if lineSep c then sq py (some []) s
    else if py.space c then sq py (some (p ++ [c])) s
    else p ++ c :: sq py none s

theorem trim_sq {py : Py} {c : Char} (hc : c ∉ lineEnds) (hs : py.space c = false) (r : Str) (u : Str) : ∀ st : Option Str,
    trim py st (u ++ c :: r) = sq py st u ++ c :: trim py none r := by
  induction u with
  | nil =>
    intro st
    cases st with
    | none => exact trim_char hc r
    | some p => exact trim_first hc hs p r
  | cons x u ih =>
    intro st
    cases st with
    | none =>
      rw [List.cons_append, trim, sq]
      split
      · rw [ih]; rfl
      · rw [ih]; rfl
    | some p =>
      rw [List.cons_append, trim, sq]
      split
      · exact ih _
      · split
        · exact ih _
        · rw [ih]; simp

/-- what is left of the lines after the first -/
def restLines (py : Py) : List Str → Str
  | [] => []
  | [z] => z
  | l :: r => if seen py l then l ++ '\n' :: restLines py r else restLines py r

theorem rest_cons (py : Py) (l : Str) {r : List Str} (h : r ≠ []) : restLines py (l :: r) = if seen py l then l ++ '\n' :: restLines py r else restLines py r := by
  cases r with
  | nil => exact absurd rfl h
  | cons a r => rfl

theorem sq_lines (py : Py) (u : Str) : ∀ (l : Str) (r : List Str), linesOf u = l :: r →
    sq py none u = (if r = [] then l else l ++ '\n' :: restLines py r) ∧ ∀ p, Blank py p → sq py (some p) u = restLines py ((p ++ l) :: r) := by
  induction u with
  | nil =>
    intro l r h
    simp only [linesOf, List.cons.injEq] at h
    obtain ⟨rfl, rfl⟩ := h
    simp [sq, restLines]
  | cons c u ih =>
    intro l r h
    cases hu : linesOf u with
    | nil => exact absurd hu (linesOf_ne u)
    | cons l' r' =>
    obtain ⟨ih1, ih2⟩ := ih l' r' hu
    have h0 : seen py [] = false := seen_blank (by intro c hc; cases hc)
    by_cases hc : c ∈ lineEnds
    · rw [linesOf_end hc, hu] at h
      obtain ⟨rfl, rfl⟩ := List.cons.inj h
      have hb : Blank py [] := by intro c hc; cases hc
      constructor
      · rw [sq, if_pos ((lineSep_iff c).2 hc), ih2 [] hb]
        simp
      · intro p hp
        rw [sq, if_pos ((lineSep_iff c).2 hc), ih2 [] hb, List.append_nil, rest_cons py p (by simp), seen_blank hp]
        rfl
    · rw [linesOf_char hc hu] at h
      obtain ⟨rfl, rfl⟩ := List.cons.inj h
      constructor
      · rw [sq, lineSep_false hc, ih1]
        simp only [Bool.false_eq_true, if_false]
        split <;> rfl
      · intro p hp
        rw [sq, lineSep_false hc]
        simp only [Bool.false_eq_true, if_false]
        by_cases hs : py.space c = true
        · rw [if_pos hs, ih2 _ (strip_snoc_space hp hs)]
          simp
        · rw [if_neg hs, ih1]
          by_cases hr : r' = []
          · subst hr; rfl
          · rw [if_neg hr, rest_cons py _ hr]
            have h3 : seen py (p ++ c :: l') = true := by
              cases h : seen py (p ++ c :: l') with
              | true => rfl
              | false => exact absurd (seen_false h c (by simp)) hs
            rw [h3]
            simp

theorem rest_joined (py : Py) (m : List Str) (z : Str) : restLines py (m ++ [z]) = joined (m.filter (seen py) ++ [z]) := by
  induction m with
  | nil => rfl
  | cons l m ih =>
    rw [List.cons_append, rest_cons py l (by simp), ih, List.filter_cons]
    split
    · rw [List.cons_append, joined_cons l (by simp)]
    · rfl

theorem sq_squeezed (py : Py) (u : Str) : sq py none u = squeezed py u := by
  cases hu : linesOf u with
  | nil => exact absurd hu (linesOf_ne u)
  | cons l r =>
    rw [(sq_lines py u l r hu).1, squeezed_eq, hu]
    rcases List.eq_nil_or_concat r with rfl | ⟨m, z, rfl⟩
    · rfl
    · rw [List.concat_eq_append, if_neg (by simp), rest_joined, keptLines_around, joined_cons l (by simp)]

/-! ### Escaped texts -/

theorem sq_word {py : Py} {w : Str} (hn : w ≠ []) (h : ∀ c ∈ w, c ∉ lineEnds ∧ py.space c = false) (r : Str) (st : Option Str) :
    sq py st (w ++ r) = st.getD [] ++ w ++ sq py none r := by
  have plain : ∀ w : Str, (∀ c ∈ w, c ∉ lineEnds ∧ py.space c = false) → sq py none (w ++ r) = w ++ sq py none r := by
    intro w
    induction w with
    | nil => intro _; rfl
    | cons c w ih =>
      intro h
      rw [List.cons_append, sq, lineSep_false (h c (by simp)).1, ih fun x hx => h x (by simp [hx])]
      rfl
  cases st with
  | none => simpa using plain w h
  | some p =>
    cases w with
    | nil => exact absurd rfl hn
    | cons c w =>
      rw [List.cons_append, sq, lineSep_false (h c (by simp)).1, (h c (by simp)).2, plain w fun x hx => h x (by simp [hx])]
      simp

theorem escDom_cases (c : Char) : (c ∈ ['&', '<', '"', '>'] ∧ escDom c ≠ [] ∧ ∀ x ∈ escDom c, x ∈ "&amplt;quog".toList) ∨ escDom c = [c] := by
  unfold escDom
  by_cases h1 : c = '&'
  · left; subst h1; decide
  by_cases h2 : c = '<'
  · left; subst h2; decide
  by_cases h3 : c = '"'
  · left; subst h3; decide
  by_cases h4 : c = '>'
  · left; subst h4; decide
  right
  simp [h1, h2, h3, h4]

theorem visible_chars (py : Py) {c : Char} (h : c ∈ "&amplt;quog<>\"/".toList) : c ∉ lineEnds ∧ py.space c = false := by
  have h1 : ∀ c ∈ "&amplt;quog<>\"/".toList, c ∉ lineEnds ∧ c.toNat < 128 ∧ asciiSpace c = false := by decide
  obtain ⟨a, b, d⟩ := h1 c h
  exact ⟨a, by rw [py.space_ascii c b]; exact d⟩

theorem domData_spaces {py : Py} {p : Str} (h : Blank py p) : domData p = p := by
  rw [domData_eq]
  induction p with
  | nil => rfl
  | cons c p ih =>
    rw [List.flatMap_cons, ih fun x hx => h x (by simp [hx])]
    rcases escDom_cases c with ⟨hc, _, _⟩ | hc
    · exfalso
      have h2 := (visible_chars py (c := c) (by revert hc; simp; tauto)).2
      rw [h c (by simp)] at h2
      cases h2
    · rw [hc]; rfl

theorem sq_domData (py : Py) (u : Str) : ∀ st : Option Str, (∀ p, st = some p → Blank py p) → sq py st (domData u) = domData (sq py st u) := by
  induction u with
  | nil =>
    intro st h
    cases st with
    | none => rfl
    | some p => exact (domData_spaces (h p rfl)).symm
  | cons c u ih =>
    intro st h
    have hcons : ∀ (c : Char) (u : Str), domData (c :: u) = escDom c ++ domData u := by
      intro c u; rw [domData_eq, domData_eq, List.flatMap_cons]
    have hnil : ∀ p, (some [] : Option Str) = some p → Blank py p := by intro p hp; cases hp; intro c hc; cases hc
    have hnone : ∀ p, (none : Option Str) = some p → Blank py p := by intro p hp; cases hp
    rw [hcons]
    rcases escDom_cases c with ⟨hc, hne, hw⟩ | hc
    · have hv : c ∉ lineEnds ∧ py.space c = false := visible_chars py (by revert hc; simp; tauto)
      rw [sq_word hne (fun x hx => visible_chars py (by have := hw x hx; revert this; simp; tauto)), ih none hnone]
      cases st with
      | none => rw [sq, lineSep_false hv.1, if_neg (by simp), hcons]; rfl
      | some p =>
        rw [sq, lineSep_false hv.1, if_neg (by simp), hv.2, if_neg (by simp), domData_append, hcons, domData_spaces (h p rfl)]
        simp
    · rw [hc, List.singleton_append]
      cases st with
      | none =>
        rw [sq, sq]
        split
        · rw [ih _ hnil, hcons]; rfl
        · rw [ih _ hnone, hcons, hc]; rfl
      | some p =>
        rw [sq, sq]
        split
        · exact ih _ hnil
        · split
          · rename_i hs
            refine ih _ ?_
            intro q hq
            cases hq
            exact strip_snoc_space (h p rfl) hs
          · rw [ih _ hnone, domData_append, hcons, hc, domData_spaces (h p rfl)]; rfl

/-- a text before a tag, or an attribute value before its quotation mark -/
theorem trim_text (py : Py) {c : Char} (hc : c ∈ ['<', '"']) (u r : Str) : trim py none (domData u ++ c :: r) = domData (squeezed py u) ++ c :: trim py none r := by
  obtain ⟨h1, h2⟩ := visible_chars py (c := c) (by revert hc; simp; tauto)
  rw [trim_sq h1 h2, sq_domData py u none (fun p hp => by cases hp), sq_squeezed]

/-! ### The whole file -/

theorem trim_attrText {py : Py} {nc : NameChars} (hnc : OneLineNames nc) (as : List (Str × Str)) (ha : ∀ a ∈ as, XmlName nc a.1) (r : Str) :
    trim py none (attrText domData as ++ r) = attrText domData (as.map fun a => (a.1, squeezed py a.2)) ++ trim py none r := by
  induction as with
  | nil => rfl
  | cons a as ih =>
    have e : ∀ (v : Str × Str) (l : List (Str × Str)) r, attrText domData (v :: l) ++ r = (' ' :: v.1 ++ ['=', '"']) ++ (domData v.2 ++ '"' :: (attrText domData l ++ r)) := by
      intro v l r; simp [attrText]
    have h1 : ∀ c ∈ ' ' :: a.1 ++ ['=', '"'], c ∉ lineEnds := by
      intro c hc
      simp only [List.cons_append, List.mem_cons, List.mem_append, List.not_mem_nil, or_false] at hc
      rcases hc with rfl | hc | rfl | rfl
      · decide
      · exact hnc c ((ha a (by simp)).chars c hc)
      · decide
      · decide
    rw [e, trim_plain h1, trim_text py (by simp), ih fun b hb => ha b (by simp [hb]), List.map_cons, e]

theorem flat_open (eT eA : Str → Str) (sc : Str → Bool → Bool) (e : El) : ∃ X, flat eT eA sc e = '<' :: X := by
  obtain ⟨n, as, tx, kids, tl⟩ := e
  rw [flat]
  exact ⟨_, rfl⟩

mutual
theorem trim_flat {py : Py} {nc : NameChars} (hnc : OneLineNames nc) (sc : Str → Bool → Bool) : (e : El) → Named nc e → (r : Str) →
    trim py none (flat domData domData sc e ++ r) = flat domData domData sc (El.map (squeezed py) (squeezed py) e) ++ trim py none r
  | .mk n as tx kids tl, hN, r => by
    cases hN with
    | mk _ _ _ _ _ hn ha hd hk _ _ _ =>
    have hnn : ∀ c ∈ n, c ∉ lineEnds := fun c hc => hnc c (hn.chars c hc)
    have hsc' : (sc n (as.map fun a => (a.1, squeezed py a.2)).isEmpty && (squeezed py tx).isEmpty && (El.maps (squeezed py) (squeezed py) kids).isEmpty) =
        (sc n as.isEmpty && tx.isEmpty && kids.isEmpty) := by
      rw [maps_isEmpty]
      congr 2
      · congr 1; cases as <;> rfl
      · rw [Bool.eq_iff_iff, List.isEmpty_iff, List.isEmpty_iff]; exact squeezed_nil_iff py tx
    have h1 : ∀ c ∈ '<' :: n, c ∉ lineEnds := by
      intro c hc
      rcases List.mem_cons.1 hc with rfl | hc
      · decide
      · exact hnn c hc
    cases hsc : (sc n as.isEmpty && tx.isEmpty && kids.isEmpty) with
    | true =>
      have e : flat domData domData sc (.mk n as tx kids tl) ++ r = ('<' :: n) ++ (attrText domData as ++ (['/', '>'] ++ r)) := by
        rw [flat, if_pos hsc]; simp
      rw [e, trim_plain h1, trim_attrText hnc as ha, trim_plain (by decide), El.map, flat, hsc', if_pos hsc]
      simp
    | false =>
      have e : flat domData domData sc (.mk n as tx kids tl) ++ r =
          ('<' :: n) ++ (attrText domData as ++ (['>'] ++ (domData tx ++ (flats domData domData sc kids ++ '<' :: (('/' :: n ++ ['>']) ++ r))))) := by
        rw [flat, hsc]; simp
      have h2 : ∀ c ∈ '/' :: n ++ ['>'], c ∉ lineEnds := by
        intro c hc
        simp only [List.cons_append, List.mem_cons, List.mem_append, List.not_mem_nil, or_false] at hc
        rcases hc with rfl | hc | rfl
        · decide
        · exact hnn c hc
        · decide
      rw [e, trim_plain h1, trim_attrText hnc as ha, trim_plain (by decide), trim_flats hnc sc kids hk, trim_plain h2, El.map, flat, hsc', hsc]
      simp
theorem trim_flats {py : Py} {nc : NameChars} (hnc : OneLineNames nc) (sc : Str → Bool → Bool) : (l : List El) → (∀ e ∈ l, Named nc e) → (t r : Str) →
    trim py none (domData t ++ (flats domData domData sc l ++ '<' :: r)) =
      domData (squeezed py t) ++ (flats domData domData sc (El.maps (squeezed py) (squeezed py) l) ++ '<' :: trim py none r)
  | [], _, t, r => by
    rw [flats, List.nil_append, trim_text py (by simp), El.maps, flats]
    rfl
  | e :: l, h, t, r => by
    have hd := trim_flat (py := py) hnc sc e (h e (by simp)) (domData e.tail ++ (flats domData domData sc l ++ '<' :: r))
    have hl := trim_flats (py := py) hnc sc l (fun x hx => h x (by simp [hx])) e.tail r
    obtain ⟨X, hX⟩ := flat_open domData domData sc e
    have e1 : flats domData domData sc (e :: l) ++ '<' :: r = flat domData domData sc e ++ (domData e.tail ++ (flats domData domData sc l ++ '<' :: r)) := by
      rw [flats]; simp
    rw [e1]
    rw [hX, List.cons_append] at hd ⊢
    rw [trim_text py (by simp)]
    rw [trim_char (by decide)] at hd
    rw [hd, hl, El.maps, flats, El.map_tail]
    simp
end

theorem trim_file {py : Py} {nc : NameChars} (hnc : OneLineNames nc) (sc : Str → Bool → Bool) (e : El) (he : Named nc e) :
    writtenLines py (domHead ++ (flat domData domData sc e ++ ['\n'])) =
      domHead ++ (flat domData domData sc (El.map (squeezed py) (squeezed py) e) ++ ['\n']) := by
  have hd := trim_flat (py := py) hnc sc e he ['\n']
  obtain ⟨X, hX⟩ := flat_open domData domData sc e
  have e1 : ∀ r, domHead ++ r = '<' :: ("?xml version=\"1.0\" encoding=\"UTF-8\"?>".toList ++ '\n' :: r) := fun r => rfl
  have hlt := visible_chars py (c := '<') (by decide)
  rw [hX, List.cons_append, trim_char hlt.1] at hd
  rw [written_trim, hX, List.cons_append, e1, trim_first hlt.1 hlt.2, trim_plain (by decide), trim, if_pos (by decide), trim_first hlt.1 hlt.2, List.nil_append, List.nil_append, hd, e1]
  rfl

end Verif.Lemmas
