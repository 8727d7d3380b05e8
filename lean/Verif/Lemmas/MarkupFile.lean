import Verif.Lemmas.MarkupText
import Mathlib.Data.Nat.Digits.Lemmas
/-!
# The file `saveToFile` writes, and the tree that is read from it
-/
namespace Verif.Lemmas
open Verif Verif.Model Verif.Spec

/-! ### Line ends of a whole file -/

theorem newlines_attrText {eA fA : Str → Str} (hA : ∀ s, newlines (eA s) = eA (fA s)) {nc : NameChars} (as : List (Str × Str))
    (ha : ∀ a ∈ as, XmlName nc a.1) {c : Char} (h1 : c ≠ '\r') (h2 : c ≠ '\n') (rest : Str) :
    newlines (attrText eA as ++ c :: rest) = attrText eA (as.map fun a => (a.1, fA a.2)) ++ c :: newlines rest := by
  induction as generalizing c rest with
  | nil => exact newlines_cons h1 rest
  | cons a as ih =>
    have e : attrText eA (a :: as) ++ c :: rest = (' ' :: a.1 ++ ['=', '"']) ++ (eA a.2 ++ '"' :: (attrText eA as ++ c :: rest)) := by simp [attrText]
    have hcr : '\r' ∉ ' ' :: a.1 ++ ['=', '"'] := by
      have := (ha a (by simp)).not_mem (c := '\r') (by simp)
      simp [this]
    rw [e, newlines_prefix hcr, newlines_mid (by decide) (by decide), hA, ih (fun b hb => ha b (by simp [hb])) h1 h2]
    simp [attrText]

theorem isEmpty_congr {f : Str → Str} (hf : ∀ s, f s = [] ↔ s = []) (s : Str) : (f s).isEmpty = s.isEmpty := by
  rw [Bool.eq_iff_iff, List.isEmpty_iff, List.isEmpty_iff, hf]

theorem maps_isEmpty (f g : Str → Str) (l : List El) : (El.maps f g l).isEmpty = l.isEmpty := by cases l <;> rfl

mutual
theorem newlines_flat {nc : NameChars} {eT eA fT fA : Str → Str} {sc : Str → Bool → Bool} (hT : ∀ s, newlines (eT s) = eT (fT s))
    (hf : ∀ s, fT s = [] ↔ s = []) (hA : ∀ s, newlines (eA s) = eA (fA s)) : (e : El) → Named nc e → (rest : Str) →
    newlines (flat eT eA sc e ++ rest) = flat eT eA sc (El.map fT fA e) ++ newlines rest
  | .mk n as tx kids tl, hN, rest => by
    cases hN with
    | mk _ _ _ _ _ hn ha hd hk _ _ _ =>
    have hcr : '\r' ∉ '<' :: n := by
      have := hn.not_mem (c := '\r') (by simp)
      simp [this]
    cases hsc : (sc n as.isEmpty && tx.isEmpty && kids.isEmpty) with
    | true =>
      have e : flat eT eA sc (.mk n as tx kids tl) ++ rest = ('<' :: n) ++ (attrText eA as ++ '/' :: ('>' :: rest)) := by
        rw [flat, if_pos hsc]; simp
      rw [e, newlines_prefix hcr, newlines_attrText hA as ha (by decide) (by decide), newlines_cons (by decide)]
      rw [El.map, flat, if_pos (by rw [isEmpty_congr hf, maps_isEmpty, List.isEmpty_map]; exact hsc)]
      simp
    | false =>
      have hcr2 : '\r' ∉ '<' :: '/' :: n ++ ['>'] := by
        have := hn.not_mem (c := '\r') (by simp)
        simp [this]
      have e : flat eT eA sc (.mk n as tx kids tl) ++ rest =
          ('<' :: n) ++ (attrText eA as ++ '>' :: (eT tx ++ (flats eT eA sc kids ++ '<' :: ('/' :: n ++ '>' :: rest)))) := by
        rw [flat_decompose _ _ _ _ _ _ hsc]; simp
      have e2 : '/' :: n ++ '>' :: rest = ('/' :: n ++ ['>']) ++ rest := by simp
      rw [e, newlines_prefix hcr, newlines_attrText hA as ha (by decide) (by decide), newlines_flats hT hf hA kids hk, e2,
        newlines_prefix (by simpa using hcr2)]
      rw [El.map, flat, if_neg (by rw [isEmpty_congr hf, maps_isEmpty, List.isEmpty_map, hsc]; simp)]
      simp
theorem newlines_flats {nc : NameChars} {eT eA fT fA : Str → Str} {sc : Str → Bool → Bool} (hT : ∀ s, newlines (eT s) = eT (fT s))
    (hf : ∀ s, fT s = [] ↔ s = []) (hA : ∀ s, newlines (eA s) = eA (fA s)) : (l : List El) → (∀ e ∈ l, Named nc e) → (t rest : Str) →
    newlines (eT t ++ (flats eT eA sc l ++ '<' :: rest)) = eT (fT t) ++ (flats eT eA sc (El.maps fT fA l) ++ '<' :: newlines rest)
  | [], _, t, rest => by
    rw [flats, List.nil_append, newlines_mid (by decide) (by decide), hT]
    rfl
  | .mk n as tx kids tl :: l, h, t, rest => by
    have hhead : ∃ r, flat eT eA sc (.mk n as tx kids tl) = '<' :: r := by
      rw [flat]; exact ⟨_, by simp only [List.cons_append]; rfl⟩
    obtain ⟨r, hr⟩ := hhead
    have e : eT t ++ (flats eT eA sc (.mk n as tx kids tl :: l) ++ '<' :: rest) =
        eT t ++ '<' :: (r ++ (eT tl ++ (flats eT eA sc l ++ '<' :: rest))) := by
      rw [flats, hr]; simp [El.tail]
    have h1 := newlines_flat hT hf hA (.mk n as tx kids tl) (h _ (by simp)) (sc := sc) (eT tl ++ (flats eT eA sc l ++ '<' :: rest))
    rw [hr, List.cons_append, newlines_cons (by decide), newlines_flats hT hf hA l (fun x hx => h x (by simp [hx]))] at h1
    rw [e, newlines_mid (by decide) (by decide), hT, h1, El.maps, flats, El.map_tail]
    simp [El.tail]
end

/-! ### Characters -/

theorem attrText_chars {nc : NameChars} {eA : Str → Str} (hA : ∀ s, (∀ c ∈ s, xmlChar c = true) → ∀ c ∈ eA s, xmlChar c = true)
    (as : List (Str × Str)) (ha : ∀ a ∈ as, XmlName nc a.1) (hv : ∀ a ∈ as, ∀ c ∈ a.2, xmlChar c = true) :
    ∀ c ∈ attrText eA as, xmlChar c = true := by
  intro c hc
  obtain ⟨a, hm, hc⟩ := List.mem_flatMap.1 hc
  have h1 := (ha a hm).chars
  have h2 := hA _ (hv a hm)
  simp only [List.mem_append, List.mem_cons, List.cons_append, List.not_mem_nil, or_false, or_assoc] at hc
  rcases hc with rfl | hc | rfl | rfl | hc | rfl
  · decide
  · exact nc.char_xml _ (h1 c hc)
  · decide
  · decide
  · exact h2 c hc
  · decide

mutual
theorem flat_chars {nc : NameChars} {eT eA : Str → Str} {sc : Str → Bool → Bool} (hT : ∀ s, (∀ c ∈ s, xmlChar c = true) → ∀ c ∈ eT s, xmlChar c = true)
    (hA : ∀ s, (∀ c ∈ s, xmlChar c = true) → ∀ c ∈ eA s, xmlChar c = true) : (e : El) → Named nc e → ∀ c ∈ flat eT eA sc e, xmlChar c = true
  | .mk n as tx kids tl, hN => by
    cases hN with
    | mk _ _ _ _ _ hn ha hd hk hv ht _ =>
    have h1 := attrText_chars (eA := eA) hA as ha hv
    have h2 := flats_chars (sc := sc) hT hA kids hk
    have h3 := hT _ ht
    have h4 := hn.chars
    intro c hc
    rw [flat] at hc
    split at hc
    · simp only [List.mem_append, List.mem_cons, List.cons_append, List.not_mem_nil, or_false, or_assoc] at hc
      rcases hc with rfl | hc | hc | rfl | rfl
      · decide
      · exact nc.char_xml _ (h4 c hc)
      · exact h1 c hc
      all_goals decide
    · simp only [List.mem_append, List.mem_cons, List.cons_append, List.not_mem_nil, or_false, or_assoc] at hc
      rcases hc with rfl | hc | hc | rfl | hc | hc | rfl | rfl | hc | rfl
      · decide
      · exact nc.char_xml _ (h4 c hc)
      · exact h1 c hc
      · decide
      · exact h3 c hc
      · exact h2 c hc
      · decide
      · decide
      · exact nc.char_xml _ (h4 c hc)
      · decide
theorem flats_chars {nc : NameChars} {eT eA : Str → Str} {sc : Str → Bool → Bool} (hT : ∀ s, (∀ c ∈ s, xmlChar c = true) → ∀ c ∈ eT s, xmlChar c = true)
    (hA : ∀ s, (∀ c ∈ s, xmlChar c = true) → ∀ c ∈ eA s, xmlChar c = true) : (l : List El) → (∀ e ∈ l, Named nc e) → ∀ c ∈ flats eT eA sc l, xmlChar c = true
  | [], _ => by intro c hc; cases hc
  | e :: l, h => by
    have h1 := flat_chars (sc := sc) hT hA e (h e (by simp))
    have h2 := flats_chars (sc := sc) hT hA l (fun x hx => h x (by simp [hx]))
    have h3 : ∀ c ∈ eT e.tail, xmlChar c = true := by
      refine hT _ ?_
      cases h e (by simp) with
      | mk _ _ _ _ _ _ _ _ _ _ _ ht => exact ht
    intro c hc
    simp only [flats, List.mem_append] at hc
    rcases hc with (hc | hc) | hc
    · exact h1 c hc
    · exact h3 c hc
    · exact h2 c hc
end

theorem flatMap_chars {e : Char → Str} (h : ∀ c, xmlChar c = true → ∀ x ∈ e c, xmlChar x = true) (s : Str) (hs : ∀ c ∈ s, xmlChar c = true) :
    ∀ c ∈ s.flatMap e, xmlChar c = true := by
  intro x hx
  obtain ⟨c, hc, hx⟩ := List.mem_flatMap.1 hx
  exact h c (hs c hc) x hx

theorem etText_chars (s : Str) (hs : ∀ c ∈ s, xmlChar c = true) : ∀ c ∈ etText s, xmlChar c = true := by
  rw [etText_eq]
  refine flatMap_chars (fun c hc => ?_) s hs
  unfold escEt
  split
  · decide
  split
  · decide
  split
  · decide
  simpa using hc

theorem etAttr_chars (s : Str) (hs : ∀ c ∈ s, xmlChar c = true) : ∀ c ∈ etAttr s, xmlChar c = true := by
  rw [etAttr_eq]
  refine flatMap_chars (fun c hc => ?_) s hs
  unfold escEtA
  repeat (split; decide)
  simpa using hc

theorem domData_chars (s : Str) (hs : ∀ c ∈ s, xmlChar c = true) : ∀ c ∈ domData s, xmlChar c = true := by
  rw [domData_eq]
  refine flatMap_chars (fun c hc => ?_) s hs
  unfold escDom
  repeat (split; decide)
  simpa using hc

theorem newlines_chars (s : Str) (hs : ∀ c ∈ s, xmlChar c = true) : ∀ c ∈ newlines s, xmlChar c = true := by
  intro c hc
  rcases newlines_mem hc with rfl | h
  · decide
  · exact hs c h

mutual
theorem named_map {nc : NameChars} {f g : Str → Str} (hf : ∀ s, (∀ c ∈ s, xmlChar c = true) → ∀ c ∈ f s, xmlChar c = true)
    (hg : ∀ s, (∀ c ∈ s, xmlChar c = true) → ∀ c ∈ g s, xmlChar c = true) : (e : El) → Named nc e → Named nc (El.map f g e)
  | .mk n as tx kids tl, hN => by
    cases hN with
    | mk _ _ _ _ _ hn ha hd hk hv ht hl =>
    rw [El.map]
    refine .mk _ _ _ _ _ hn ?_ ?_ (named_maps hf hg kids hk) ?_ (hf _ ht) (hf _ hl)
    · intro a h
      obtain ⟨b, hb, rfl⟩ := List.mem_map.1 h
      exact ha b hb
    · rw [List.map_map]; exact hd
    · intro a h
      obtain ⟨b, hb, rfl⟩ := List.mem_map.1 h
      exact hg _ (hv b hb)
theorem named_maps {nc : NameChars} {f g : Str → Str} (hf : ∀ s, (∀ c ∈ s, xmlChar c = true) → ∀ c ∈ f s, xmlChar c = true)
    (hg : ∀ s, (∀ c ∈ s, xmlChar c = true) → ∀ c ∈ g s, xmlChar c = true) : (l : List El) → (∀ e ∈ l, Named nc e) → ∀ e ∈ El.maps f g l, Named nc e
  | [], _ => by intro e he; cases he
  | x :: l, h => by
    intro e he
    rcases List.mem_cons.1 he with rfl | he
    · exact named_map hf hg x (h x (by simp))
    · exact named_maps hf hg l (fun y hy => h y (by simp [hy])) e he
end

/-! ### Reading a whole file -/

theorem finish_place {e : El} {t : Str} (ht : ∀ c ∈ t, xmlSpace c = true) {nc : NameChars} :
    (run nc (place e [] none) t).bind finish = some e := by
  have hlt : '<' ∉ t := fun h => by have := ht _ h; revert this; decide
  have h := run_content hlt [] (some e) ([] : Str) [] (nc := nc)
  rw [List.append_nil] at h
  show (run nc ⟨[], some e, .content []⟩ t).bind finish = _
  rw [h, run, Option.bind_some]
  have hall : (t.reverse ++ []).all xmlSpace = true := by
    rw [List.all_eq_true]
    intro c hc
    exact ht c (by simpa using hc)
  simp only [finish, hall, if_true]

theorem parse_flat {nc : NameChars} {eT eA fT fA g : Str → Str} (co : Coding eT eA g) (sc : Str → Bool → Bool)
    (hT : ∀ s, newlines (eT s) = eT (fT s)) (hf : ∀ s, fT s = [] ↔ s = []) (hA : ∀ s, newlines (eA s) = eA (fA s))
    (hcT : ∀ s, (∀ c ∈ s, xmlChar c = true) → ∀ c ∈ eT s, xmlChar c = true)
    (hcA : ∀ s, (∀ c ∈ s, xmlChar c = true) → ∀ c ∈ eA s, xmlChar c = true)
    (hfT : ∀ s, (∀ c ∈ s, xmlChar c = true) → ∀ c ∈ fT s, xmlChar c = true)
    (hfA : ∀ s, (∀ c ∈ s, xmlChar c = true) → ∀ c ∈ fA s, xmlChar c = true)
    {head t : Str} (hh : head = etHead ∨ head = domHead) (ht : t = [] ∨ t = ['\n']) (e : El) (he : Named nc e) :
    parseXml nc (head ++ (flat eT eA sc e ++ t)) = some ((El.map id g (El.map fT fA e)).withTail []) := by
  have hnl : newlines (head ++ (flat eT eA sc e ++ t)) = head ++ (flat eT eA sc (El.map fT fA e) ++ t) := by
    rw [newlines_prefix, newlines_flat hT hf hA e he]
    · rcases ht with rfl | rfl <;> rfl
    · rcases hh with rfl | rfl <;> decide
  have hN := named_map hfT hfA e he
  have hall : (head ++ (flat eT eA sc (El.map fT fA e) ++ t)).all xmlChar = true := by
    rw [List.all_append, List.all_append]
    simp only [Bool.and_eq_true]
    refine ⟨?_, ?_, ?_⟩
    · rcases hh with rfl | rfl <;> decide
    · rw [List.all_eq_true]; exact flat_chars hcT hcA _ hN
    · rcases ht with rfl | rfl <;> decide
  have hsk : skipDecl (head ++ (flat eT eA sc (El.map fT fA e) ++ t)) = some ('\n' :: (flat eT eA sc (El.map fT fA e) ++ t)) := by
    rcases hh with rfl | rfl <;> rfl
  unfold parseXml
  simp only
  rw [hnl, if_pos hall, hsk]
  show (run nc ⟨[], none, .content []⟩ ('\n' :: _)).bind finish = _
  have h1 := run_content (nc := nc) (u := ['\n']) (by decide) [] none [] (flat eT eA sc (El.map fT fA e) ++ t)
  rw [List.singleton_append] at h1
  rw [h1, run_flat co sc _ hN [] [] none _ _ (by rfl) (fun _ => rfl), finish_place]
  rcases ht with rfl | rfl <;> decide

/-! ### `toprettyxml` -/

/-- a text between two children -/
def textPart (ind t : Str) : Str := if t = [] then [] else ind ++ t ++ ['\n']

mutual
/-- the tree with the line breaks and the indentation `toprettyxml` writes -/
def lay (ind : Str) : El → El
  | .mk n as tx [] _ => .mk n as tx [] []
  | .mk n as tx (e :: l) _ =>
    .mk n as ('\n' :: textPart (ind ++ [' ', ' ']) tx ++ (ind ++ [' ', ' '])) (lays (ind ++ [' ', ' ']) ind (e :: l)) []
def lays (ind out : Str) : List El → List El
  | [] => []
  | e :: l => (lay ind e).withTail ('\n' :: textPart ind e.tail ++ (if l.isEmpty then out else ind)) :: lays ind out l
end

theorem domText_eq (ind s : Str) : domText ind s = domData (textPart ind s) := by
  unfold domText textPart
  split <;> rfl

theorem domData_append (a b : Str) : domData (a ++ b) = domData a ++ domData b := by
  simp only [domData_eq, List.flatMap_append]

theorem domData_blank {s : Str} (h : ∀ c ∈ s, c = ' ' ∨ c = '\n') : domData s = s := by
  rw [domData_eq]
  induction s with
  | nil => rfl
  | cons c s ih =>
    rw [List.flatMap_cons, ih (fun x hx => h x (by simp [hx]))]
    rcases h c (by simp) with rfl | rfl <;> rfl

theorem flat_withTail (eT eA : Str → Str) (sc : Str → Bool → Bool) (e : El) (t : Str) : flat eT eA sc (e.withTail t) = flat eT eA sc e := by
  cases e; simp only [El.withTail, flat]

theorem withTail_tail (e : El) (t : Str) : (e.withTail t).tail = t := by cases e; rfl

/-- every empty element is written as one tag -/
def always (_ : Str) (_ : Bool) : Bool := true

mutual
theorem domWrite_eq (ind : Str) (hi : ∀ c ∈ ind, c = ' ') : (e : El) →
    domWrite ind e = ind ++ (flat domData domData always (lay ind e) ++ ['\n'])
  | .mk n as tx [] tl => by
    rw [domWrite, lay, flat]
    by_cases h : tx = []
    · subst h
      simp [always]
    · simp only [h, if_false]
      have : (always n as.isEmpty && List.isEmpty tx && ([] : List El).isEmpty) = false := by
        cases tx with
        | nil => exact absurd rfl h
        | cons _ _ => simp
      rw [this]
      simp [flats]
  | .mk n as tx (e :: l) tl => by
    have hi' : ∀ c ∈ ind ++ [' ', ' '], c = ' ' := by
      intro c hc
      simp only [List.mem_append, List.mem_cons, List.not_mem_nil, or_false, or_self] at hc
      rcases hc with hc | hc
      · exact hi c hc
      · exact hc
    have hb : domData (ind ++ [' ', ' ']) = ind ++ [' ', ' '] := domData_blank fun c hc => .inl (hi' c hc)
    have hn : domData ['\n'] = ['\n'] := rfl
    have hw := domWrites_eq (ind ++ [' ', ' ']) ind hi' hi (e :: l) (by simp)
    have hx : '\n' :: textPart (ind ++ [' ', ' ']) tx ++ (ind ++ [' ', ' ']) = ['\n'] ++ (textPart (ind ++ [' ', ' ']) tx ++ (ind ++ [' ', ' '])) := by simp
    rw [domWrite, lay, flat]
    have : (always n as.isEmpty && List.isEmpty ('\n' :: textPart (ind ++ [' ', ' ']) tx ++ (ind ++ [' ', ' '])) &&
        (lays (ind ++ [' ', ' ']) ind (e :: l)).isEmpty) = false := by simp
    rw [this, hx, domData_append, domData_append, hb, hn, domText_eq]
    simp only [List.append_assoc, List.cons_append, List.nil_append] at hw ⊢
    have hw2 : ∀ r, domWrites (ind ++ ' ' :: [' ']) (e :: l) ++ (ind ++ r) =
        ind ++ ' ' :: ' ' :: (flats domData domData always (lays (ind ++ ' ' :: [' ']) ind (e :: l)) ++ r) := by
      intro r
      rw [← List.append_assoc, hw]
      simp
    rw [hw2]
    simp
theorem domWrites_eq (ind out : Str) (hi : ∀ c ∈ ind, c = ' ') (ho : ∀ c ∈ out, c = ' ') : (l : List El) → l ≠ [] →
    domWrites ind l ++ out = ind ++ flats domData domData always (lays ind out l)
  | [], h => absurd rfl h
  | [e], _ => by
    have hx : '\n' :: textPart ind e.tail ++ out = ['\n'] ++ (textPart ind e.tail ++ out) := by simp
    rw [domWrites, domWrites, domWrite_eq ind hi e, lays, lays, flats, flats, flat_withTail, withTail_tail, domText_eq]
    simp only [List.isEmpty_nil, if_true]
    rw [hx, domData_append, domData_append, domData_blank fun c hc => .inl (ho c hc)]
    simp [show domData ['\n'] = ['\n'] from rfl]
  | e :: e' :: l, _ => by
    have hx : '\n' :: textPart ind e.tail ++ ind = ['\n'] ++ (textPart ind e.tail ++ ind) := by simp
    have ih := domWrites_eq ind out hi ho (e' :: l) (by simp)
    rw [domWrites, domWrite_eq ind hi e, lays, flats, flat_withTail, withTail_tail, domText_eq, if_neg (by simp), hx,
      domData_append, domData_append, domData_blank fun c hc => .inl (hi c hc), List.append_assoc, ih]
    simp [show domData ['\n'] = ['\n'] from rfl]
end

/-! ### `re.sub` on a file -/

/-- which empty elements are still written as one tag afterwards -/
def unpatched (py : Py) (n : Str) (noAttrs : Bool) : Bool := !(noAttrs && n.all fun c => py.word c || c == '-')

theorem emptyTag_other {py : Py} {n X m r : Str} {c : Char} (hn : '/' ∉ n) (hc : (py.word c || c == '-') = false)
    (h : emptyTag py ('<' :: (n ++ c :: X)) = some (m, r)) : c = '/' ∧ n = m ∧ ∀ c ∈ n, (py.word c || c == '-') = true := by
  obtain ⟨h1, _, h2⟩ := emptyTag_some h
  rw [List.cons.injEq] at h1
  rcases List.append_eq_append_iff.1 h1.2 with ⟨a, rfl, ha⟩ | ⟨a, rfl, ha⟩
  · cases a with
    | nil =>
      simp only [List.nil_append, List.cons.injEq] at ha
      exact ⟨ha.1, by simp, fun x hx => h2 x (by simp [hx])⟩
    | cons b a =>
      simp only [List.cons_append, List.cons.injEq] at ha
      rw [← ha.1] at h2
      rw [h2 c (by simp)] at hc
      cases hc
  · cases a with
    | nil =>
      simp only [List.nil_append, List.cons.injEq] at ha
      exact ⟨ha.1.symm, by simp, fun x hx => h2 x (by simpa using hx)⟩
    | cons b a =>
      simp only [List.cons_append, List.cons.injEq] at ha
      rw [← ha.1] at hn
      simp at hn

theorem expand_tag {py : Py} {n X : Str} {c : Char} (hn : '/' ∉ n) (hl : '<' ∉ n) (hc : (py.word c || c == '-') = false)
    (h : c = '/' → ¬ ∀ c ∈ n, (py.word c || c == '-') = true) : expand py ('<' :: (n ++ c :: X)) = '<' :: (n ++ expand py (c :: X)) := by
  rw [expand_none, expand_plain hl]
  cases he : emptyTag py ('<' :: (n ++ c :: X)) with
  | none => rfl
  | some p =>
    obtain ⟨h1, _, h3⟩ := emptyTag_other (m := p.1) (r := p.2) hn hc he
    exact absurd h3 (h h1)

theorem word_special {py : Py} {c : Char} (h : c ∈ [' ', '>', '/']) : (py.word c || c == '-') = false := by
  have h1 : ∀ c ∈ [' ', '>', '/'], c.toNat < 128 := by decide
  have h2 : ∀ c ∈ [' ', '>', '/'], (asciiWord c || c == '-') = false := by decide
  rw [py.word_ascii c (h1 c h), h2 c h]

theorem attrText_lt {nc : NameChars} {eA : Str → Str} (hA : ∀ s, '<' ∉ eA s) (as : List (Str × Str)) (ha : ∀ a ∈ as, XmlName nc a.1) :
    '<' ∉ attrText eA as := by
  intro h
  obtain ⟨a, hm, h⟩ := List.mem_flatMap.1 h
  have h1 := (ha a hm).not_mem (c := '<') (by simp)
  have h2 := hA a.2
  simp [h1, h2] at h

theorem attrText_cons (eA : Str → Str) (as : List (Str × Str)) (h : as ≠ []) : ∃ r, attrText eA as = ' ' :: r := by
  cases as with
  | nil => exact absurd rfl h
  | cons a as => exact ⟨_, by simp only [attrText, List.flatMap_cons, List.cons_append]; rfl⟩

/-- a start tag that is not a single empty tag -/
theorem expand_start {py : Py} {nc : NameChars} {eA : Str → Str} (hA : ∀ s, '<' ∉ eA s) {n : Str} (hn : XmlName nc n) (as : List (Str × Str))
    (ha : ∀ a ∈ as, XmlName nc a.1) {c : Char} (hc : c ∈ [' ', '>', '/'])
    (h : c = '/' → as = [] → ¬ ∀ c ∈ n, (py.word c || c == '-') = true) (X : Str) :
    expand py ('<' :: (n ++ (attrText eA as ++ c :: X))) = '<' :: (n ++ (attrText eA as ++ c :: expand py X)) := by
  have hs := hn.not_mem (c := '/') (by simp)
  have hl := hn.not_mem (c := '<') (by simp)
  have hcl : c ≠ '<' := by intro e; subst e; revert hc; decide
  by_cases he : as = []
  · subst he
    simp only [attrText, List.flatMap_nil, List.nil_append]
    rw [expand_tag hs hl (word_special hc) (fun e => h e rfl), expand_char hcl]
  · obtain ⟨r, hr⟩ := attrText_cons eA as he
    have h2 := attrText_lt hA as ha
    rw [hr] at h2 ⊢
    have h3 := expand_plain (py := py) h2 (c :: X)
    rw [List.cons_append] at h3
    rw [List.cons_append, expand_tag hs hl (word_special (by simp)) (fun e => absurd e (by decide)), h3, expand_char hcl]

theorem expand_end {py : Py} {nc : NameChars} {n : Str} (hn : XmlName nc n) (X : Str) :
    expand py ('<' :: ('/' :: n ++ '>' :: X)) = '<' :: ('/' :: n ++ '>' :: expand py X) := by
  have hl := hn.not_mem (c := '<') (by simp)
  have e : ('<' :: ('/' :: n ++ '>' :: X)) = '<' :: ([] ++ '/' :: (n ++ '>' :: X)) := by simp
  have e2 : '/' :: (n ++ '>' :: X) = ('/' :: n ++ ['>']) ++ X := by simp
  have hn0 : emptyTag py ('<' :: ([] ++ '/' :: (n ++ '>' :: X))) = none := by
    cases hm : emptyTag py ('<' :: ([] ++ '/' :: (n ++ '>' :: X))) with
    | none => rfl
    | some p =>
      obtain ⟨_, h3, _⟩ := emptyTag_other (m := p.1) (r := p.2) (by simp) (word_special (by simp)) hm
      exact absurd h3.symm (emptyTag_some (m := p.1) (r := p.2) hm).2.1
  rw [e, expand_none hn0, List.nil_append, e2, expand_plain (by simp [hl])]
  simp

mutual
theorem expand_flat {py : Py} {nc : NameChars} {eT eA : Str → Str} (h0 : eT [] = []) (hT : ∀ s, '<' ∉ eT s) (hA : ∀ s, '<' ∉ eA s) : (e : El) → Named nc e → (rest : Str) →
    expand py (flat eT eA always e ++ rest) = flat eT eA (unpatched py) e ++ expand py rest
  | .mk n as tx kids tl, hN, rest => by
    cases hN with
    | mk _ _ _ _ _ hn ha hd hk _ _ _ =>
    by_cases hem : tx = [] ∧ kids = []
    · obtain ⟨rfl, rfl⟩ := hem
      have e : flat eT eA always (.mk n as [] [] tl) ++ rest = '<' :: (n ++ (attrText eA as ++ '/' :: ('>' :: rest))) := by
        rw [flat]; simp [always]
      by_cases hw : as = [] ∧ ∀ c ∈ n, (py.word c || c == '-') = true
      · obtain ⟨rfl, hw⟩ := hw
        have hne : n ≠ [] := by obtain ⟨c, r, rfl, _⟩ := hn; simp
        have hu : unpatched py n true = false := by
          simp only [unpatched, Bool.true_and, Bool.not_eq_false', List.all_eq_true]
          exact hw
        rw [e]
        simp only [attrText, List.flatMap_nil, List.nil_append]
        rw [expand_match hne hw, flat]
        simp [hu, h0, flats, attrText]
      · rw [e, expand_start hA hn as ha (by simp) (fun _ h1 h2 => hw ⟨h1, h2⟩), expand_char (by decide), flat, if_pos]
        · simp
        · simp only [unpatched, List.isEmpty_nil, Bool.and_true, Bool.not_eq_true', Bool.and_eq_false_iff]
          by_cases h1 : as = []
          · right
            rw [← Bool.not_eq_true, List.all_eq_true]
            exact fun h2 => hw ⟨h1, h2⟩
          · left
            cases as with
            | nil => exact absurd rfl h1
            | cons _ _ => rfl
    · have hsc : ∀ sc : Str → Bool → Bool, (sc n as.isEmpty && tx.isEmpty && kids.isEmpty) = false := by
        intro sc
        cases tx with
        | cons _ _ => simp
        | nil =>
          cases kids with
          | cons _ _ => simp
          | nil => exact absurd ⟨rfl, rfl⟩ hem
      rw [flat_decompose _ _ _ _ _ _ (hsc always), flat_decompose _ _ _ _ _ _ (hsc (unpatched py)),
        expand_start hA hn as ha (by simp) (fun e => absurd e (by decide)), expand_plain (hT tx), expand_flats h0 hT hA kids hk, expand_end hn]
theorem expand_flats {py : Py} {nc : NameChars} {eT eA : Str → Str} (h0 : eT [] = []) (hT : ∀ s, '<' ∉ eT s) (hA : ∀ s, '<' ∉ eA s) : (l : List El) → (∀ e ∈ l, Named nc e) →
    (rest : Str) → expand py (flats eT eA always l ++ rest) = flats eT eA (unpatched py) l ++ expand py rest
  | [], _, rest => by simp [flats]
  | e :: l, h, rest => by
    have e1 : flats eT eA always (e :: l) ++ rest = flat eT eA always e ++ (eT e.tail ++ (flats eT eA always l ++ rest)) := by rw [flats]; simp
    rw [e1, expand_flat h0 hT hA e (h e (by simp)), expand_plain (hT _), expand_flats h0 hT hA l (fun x hx => h x (by simp [hx])), flats]
    simp
end

end Verif.Lemmas
