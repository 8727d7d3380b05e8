import Verif.Lemmas.MarkupFile
/-!
# Saving a tree and reading the file
-/
namespace Verif.Lemmas
open Verif Verif.Model Verif.Spec

/-! ### `str.replace` on a file -/

/-- the attribute values have a property -/
inductive Valued (P : Str → Prop) : El → Prop
  | mk (n : Str) (as : List (Str × Str)) (tx : Str) (kids : List El) (tl : Str) : (∀ a ∈ as, P a.2) → (∀ k ∈ kids, Valued P k) →
      Valued P (.mk n as tx kids tl)

theorem amp_attrText {nc : NameChars} {R eA : Str → Str} {P : Str → Prop} (hR : ∀ u r, '&' ∉ u → R (u ++ r) = u ++ R r)
    (hA : ∀ s r, P s → R (eA s ++ r) = eA s ++ R r) (as : List (Str × Str)) (ha : ∀ a ∈ as, XmlName nc a.1) (hv : ∀ a ∈ as, P a.2) (r : Str) :
    R (attrText eA as ++ r) = attrText eA as ++ R r := by
  induction as with
  | nil => rfl
  | cons a as ih =>
    have e : ∀ r, attrText eA (a :: as) ++ r = (' ' :: a.1 ++ ['=', '"']) ++ (eA a.2 ++ (['"'] ++ (attrText eA as ++ r))) := by
      intro r; simp [attrText]
    have h1 : '&' ∉ ' ' :: a.1 ++ ['=', '"'] := by
      have := (ha a (by simp)).not_mem (c := '&') (by simp)
      simp [this]
    rw [e, hR _ _ h1, hA _ _ (hv a (by simp)), hR _ _ (by simp), ih (fun b hb => ha b (by simp [hb])) (fun b hb => hv b (by simp [hb])), e]

mutual
theorem amp_flat {nc : NameChars} {R eT eT' eA : Str → Str} {P : Str → Prop} {sc : Str → Bool → Bool} (hR : ∀ u r, '&' ∉ u → R (u ++ r) = u ++ R r)
    (hT : ∀ s r, R (eT s ++ r) = eT' s ++ R r) (hA : ∀ s r, P s → R (eA s ++ r) = eA s ++ R r) : (e : El) → Named nc e → Valued P e →
    (rest : Str) → R (flat eT eA sc e ++ rest) = flat eT' eA sc e ++ R rest
  | .mk n as tx kids tl, hN, hV, rest => by
    cases hN with
    | mk _ _ _ _ _ hn ha hd hk _ _ _ =>
    cases hV with
    | mk _ _ _ _ _ hv hvk =>
    have hamp : '&' ∉ n := hn.not_mem (by simp)
    cases hsc : (sc n as.isEmpty && tx.isEmpty && kids.isEmpty) with
    | true =>
      have e : ∀ eT r, flat eT eA sc (.mk n as tx kids tl) ++ r = ('<' :: n) ++ (attrText eA as ++ (['/', '>'] ++ r)) := by
        intro eT r; rw [flat, if_pos hsc]; simp
      rw [e, hR _ _ (by simp [hamp]), amp_attrText hR hA as ha hv, hR _ _ (by simp), e]
    | false =>
      have e : ∀ eT r, flat eT eA sc (.mk n as tx kids tl) ++ r =
          ('<' :: n) ++ (attrText eA as ++ (['>'] ++ (eT tx ++ (flats eT eA sc kids ++ (('<' :: '/' :: n ++ ['>']) ++ r))))) := by
        intro eT r; rw [flat, hsc]; simp
      rw [e, hR _ _ (by simp [hamp]), amp_attrText hR hA as ha hv, hR _ _ (by simp), hT, amp_flats hR hT hA kids hk hvk,
        hR _ _ (by simp [hamp]), e]
theorem amp_flats {nc : NameChars} {R eT eT' eA : Str → Str} {P : Str → Prop} {sc : Str → Bool → Bool} (hR : ∀ u r, '&' ∉ u → R (u ++ r) = u ++ R r)
    (hT : ∀ s r, R (eT s ++ r) = eT' s ++ R r) (hA : ∀ s r, P s → R (eA s ++ r) = eA s ++ R r) : (l : List El) → (∀ e ∈ l, Named nc e) →
    (∀ e ∈ l, Valued P e) → (rest : Str) → R (flats eT eA sc l ++ rest) = flats eT' eA sc l ++ R rest
  | [], _, _, rest => by simp [flats]
  | e :: l, h, hv, rest => by
    have e1 : ∀ eT r, flats eT eA sc (e :: l) ++ r = flat eT eA sc e ++ (eT e.tail ++ (flats eT eA sc l ++ r)) := by intro eT r; rw [flats]; simp
    rw [e1, amp_flat hR hT hA e (h e (by simp)) (hv e (by simp)), hT,
      amp_flats hR hT hA l (fun x hx => h x (by simp [hx])) (fun x hx => hv x (by simp [hx])), e1]
end

theorem rep_flatMap {R : Str → Str} {e e' : Char → Str} (P : Char → Prop) (h : ∀ c r, P c → R (e c ++ r) = e' c ++ R r) (s r : Str) (hs : ∀ c ∈ s, P c) :
    R (s.flatMap e ++ r) = s.flatMap e' ++ R r := by
  induction s with
  | nil => rfl
  | cons c s ih =>
    rw [List.flatMap_cons, List.append_assoc, h _ _ (hs c (by simp)), ih (fun x hx => hs x (by simp [hx])), List.flatMap_cons, List.append_assoc]

theorem quot_char (c : Char) (r : Str) :
    replaceAll "&quot;".toList ['"'] (escDom c ++ r) = escEt c ++ replaceAll "&quot;".toList ['"'] r := by
  unfold escDom escEt
  by_cases h1 : c = '&'
  · subst h1; exact replaceAll_other (by decide) (by decide) r
  by_cases h2 : c = '<'
  · subst h2; exact replaceAll_other (by decide) (by decide) r
  by_cases h3 : c = '"'
  · subst h3; exact replaceAll_match (by decide) _ r
  by_cases h4 : c = '>'
  · subst h4; exact replaceAll_other (by decide) (by decide) r
  simp only [h1, h2, h3, h4, if_false]
  exact replaceAll_plain (x := "quot;".toList) (a := '&') (u := [c]) (by simpa using Ne.symm h1) r

theorem quot_text (s r : Str) : replaceAll "&quot;".toList ['"'] (domData s ++ r) = etText s ++ replaceAll "&quot;".toList ['"'] r := by
  rw [domData_eq, etText_eq]
  exact rep_flatMap (fun _ => True) (fun c r _ => quot_char c r) s r (fun _ _ => trivial)

theorem quot_attr (s r : Str) (hs : '"' ∉ s) :
    replaceAll "&quot;".toList ['"'] (domData s ++ r) = domData s ++ replaceAll "&quot;".toList ['"'] r := by
  rw [domData_eq]
  refine rep_flatMap (fun c => c ≠ '"') (fun c r hc => ?_) s r (fun c hc e => hs (e ▸ hc))
  rw [quot_char]
  have : escEt c = escDom c := by unfold escDom escEt; rw [if_neg hc]
  rw [this]

theorem apos_char (e : Char → Str) (he : e = escEt ∨ e = escDom) (c : Char) (r : Str) :
    replaceAll "&apos;".toList ['\''] (e c ++ r) = e c ++ replaceAll "&apos;".toList ['\''] r := by
  by_cases h1 : c = '&'
  · subst h1
    have : e '&' = '&' :: 'a' :: 'm' :: "p;".toList := by rcases he with rfl | rfl <;> rfl
    rw [this]
    have hx : ¬ "&apos;".toList <+: '&' :: 'a' :: 'm' :: ("p;".toList ++ r) := by
      intro h
      have h : '&' :: 'a' :: 'p' :: "os;".toList <+: '&' :: 'a' :: 'm' :: ("p;".toList ++ r) := h
      simp only [List.cons_prefix_cons] at h
      exact absurd h.2.2.1 (by decide)
    show replaceAll "&apos;".toList ['\''] ('&' :: 'a' :: 'm' :: ("p;".toList ++ r)) = _
    rw [replaceAll_none hx]
    have := replaceAll_plain (x := "apos;".toList) (y := ['\'']) (a := '&') (u := "amp;".toList) (by decide) r
    exact congrArg _ this
  by_cases h2 : c = '<'
  · subst h2
    have : e '<' = '&' :: 'l' :: "t;".toList := by rcases he with rfl | rfl <;> rfl
    rw [this]; exact replaceAll_other (by decide) (by decide) r
  by_cases h4 : c = '>'
  · subst h4
    have : e '>' = '&' :: 'g' :: "t;".toList := by rcases he with rfl | rfl <;> rfl
    rw [this]; exact replaceAll_other (by decide) (by decide) r
  by_cases h3 : c = '"' ∧ e = escDom
  · obtain ⟨rfl, rfl⟩ := h3
    exact replaceAll_other (b := 'a') (d := 'q') (u := "uot;".toList) (by decide) (by decide) r
  have : e c = [c] := by
    rcases he with rfl | rfl
    · simp [escEt, h1, h2, h4]
    · have : c ≠ '"' := fun h => h3 ⟨h, rfl⟩
      simp [escDom, h1, h2, h4, this]
  rw [this]
  exact replaceAll_plain (x := "apos;".toList) (a := '&') (by simpa using Ne.symm h1) r

theorem apos_text (s r : Str) : replaceAll "&apos;".toList ['\''] (etText s ++ r) = etText s ++ replaceAll "&apos;".toList ['\''] r := by
  rw [etText_eq]
  exact rep_flatMap (fun _ => True) (fun c r _ => apos_char _ (.inl rfl) c r) s r (fun _ _ => trivial)

theorem apos_attr (s r : Str) : replaceAll "&apos;".toList ['\''] (domData s ++ r) = domData s ++ replaceAll "&apos;".toList ['\''] r := by
  rw [domData_eq]
  exact rep_flatMap (fun _ => True) (fun c r _ => apos_char _ (.inr rfl) c r) s r (fun _ _ => trivial)

/-- what `patch_xml` makes of a file -/
theorem patch_flat {py : Py} {nc : NameChars} (unescape : Bool) (e : El) (he : Named nc e) (hq : unescape = true → Valued (fun v => '"' ∉ v) e) :
    patchXml py unescape (domHead ++ (flat domData domData always e ++ ['\n'])) =
      domHead ++ (flat (if unescape then etText else domData) domData (unpatched py) e ++ ['\n']) := by
  have hh : expand py (domHead ++ (flat domData domData always e ++ ['\n'])) = domHead ++ expand py (flat domData domData always e ++ ['\n']) := by
    have e1 : ∀ r, domHead ++ r = '<' :: ([] ++ '?' :: ("xml version=\"1.0\" encoding=\"UTF-8\"?>\n".toList ++ r)) := fun r => rfl
    have e2 : ∀ r, '?' :: ("xml version=\"1.0\" encoding=\"UTF-8\"?>\n".toList ++ r) = "?xml version=\"1.0\" encoding=\"UTF-8\"?>\n".toList ++ r := fun r => rfl
    have hw : (py.word '?' || '?' == '-') = false := by rw [py.word_ascii _ (by decide)]; decide
    rw [e1, expand_tag (by simp) (by simp) hw (fun h => absurd h (by decide)), e2, expand_plain (by decide), e1]
    rfl
  have hx : expand py ['\n'] = ['\n'] := expand_char (by decide) []
  have h1 : expand py (domHead ++ (flat domData domData always e ++ ['\n'])) = domHead ++ (flat domData domData (unpatched py) e ++ ['\n']) := by
    rw [hh, expand_flat rfl (fun s => (domAttr_ok s).1) (fun s => (domAttr_ok s).1) e he, hx]
  unfold patchXml
  simp only
  rw [h1]
  cases unescape with
  | false => simp
  | true =>
    simp only [if_true]
    have hR : ∀ (x y u r : Str), '&' ∉ u → replaceAll ('&' :: x) y (u ++ r) = u ++ replaceAll ('&' :: x) y r := fun x y u r h => replaceAll_plain h r
    have h2 : replaceAll "&quot;".toList ['"'] (domHead ++ (flat domData domData (unpatched py) e ++ ['\n'])) =
        domHead ++ (flat etText domData (unpatched py) e ++ ['\n']) := by
      rw [show "&quot;".toList = '&' :: "quot;".toList from rfl, hR _ _ _ _ (by decide)]
      rw [amp_flat (R := replaceAll ('&' :: "quot;".toList) ['"']) (hR _ _) quot_text (fun s r h => quot_attr s r h) e he (hq rfl)]
      rfl
    have h3 : replaceAll "&apos;".toList ['\''] (domHead ++ (flat etText domData (unpatched py) e ++ ['\n'])) =
        domHead ++ (flat etText domData (unpatched py) e ++ ['\n']) := by
      rw [show "&apos;".toList = '&' :: "apos;".toList from rfl, hR _ _ _ _ (by decide)]
      rw [amp_flat (P := fun v => '"' ∉ v) (R := replaceAll ('&' :: "apos;".toList) ['\'']) (hR _ _) apos_text (fun s r _ => apos_attr s r) e he (hq rfl)]
      rfl
    rw [h2, h3]

/-! ### Names and keys -/

theorem ofNat_toNat_map (l : List Nat) (h : ∀ d ∈ l, d < 256) : (l.map Char.ofNat).map Char.toNat = l := by
  induction l with
  | nil => rfl
  | cons d l ih =>
    rw [List.map_cons, List.map_cons, ih (fun x hx => h x (by simp [hx])), toNat_ofNat d (by have := h d (by simp); omega)]

theorem fold_reverse (b z : Nat) (l : Str) : l.reverse.foldl (fun a c => a * b + c.toNat) z = Nat.ofDigits b (l.map Char.toNat ++ [z]) := by
  induction l with
  | nil => simp
  | cons c l ih =>
    rw [List.reverse_cons, List.foldl_append, ih, List.map_cons, List.cons_append, Nat.ofDigits_cons]
    simp only [List.foldl_cons, List.foldl_nil]
    rw [Nat.add_comm, Nat.mul_comm]

theorem ofDigits_zero_end (b : Nat) (l : List Nat) : Nat.ofDigits b (l ++ [0]) = Nat.ofDigits b l := by
  rw [Nat.ofDigits_append]; simp

theorem keyOf_keyName (k : Key) : keyOf (keyName k) = k := by
  have hd : ∀ d ∈ Nat.digits 256 k, d < 256 := fun d hd => Nat.digits_lt_base (by decide) hd
  have hall : (keyName k).all (fun c => decide (c.toNat < 256)) = true := by
    rw [List.all_eq_true]
    intro c hc
    rw [keyName, List.mem_reverse] at hc
    have h2 := ofNat_toNat_map _ hd
    have : c.toNat ∈ ((Nat.digits 256 k).map Char.ofNat).map Char.toNat := List.mem_map_of_mem hc
    rw [h2] at this
    exact decide_eq_true (hd _ this)
  rw [keyOf, if_pos hall, keyName, fold_reverse, ofDigits_zero_end, ofNat_toNat_map _ hd, Nat.ofDigits_digits]

theorem map_toNat_inj {a b : Str} (h : a.map Char.toNat = b.map Char.toNat) : a = b := by
  refine List.map_injective_iff.2 ?_ h
  intro x y hxy
  exact Char.ext (UInt32.toNat_inj.1 hxy)

theorem fold_wide_inj {s t : Str} (h : s.foldl (fun a c => a * 1114112 + c.toNat) 1 = t.foldl (fun a c => a * 1114112 + c.toNat) 1) : s = t := by
  have key : ∀ l : Str, Nat.digits 1114112 (l.foldl (fun a c => a * 1114112 + c.toNat) 1) = l.reverse.map Char.toNat ++ [1] := by
    intro l
    have e := fold_reverse 1114112 1 l.reverse
    rw [List.reverse_reverse] at e
    rw [e, Nat.digits_ofDigits 1114112 (by decide)]
    · intro d hd
      rcases List.mem_append.1 hd with hd | hd
      · obtain ⟨c, _, rfl⟩ := List.mem_map.1 hd
        have := c.valid
        rcases this with h | h <;> (have h' : c.toNat = c.val.toNat := rfl) <;> omega
      · simp at hd; omega
    · intro hne; simp
  have h1 := key s
  rw [h, key t] at h1
  exact (List.reverse_injective (map_toNat_inj (List.append_cancel_right h1))).symm

theorem digits_narrow {s : Str} (h : s.all (fun c => decide (c.toNat < 256)) = true) (h0 : Char.ofNat 0 ∉ s) :
    Nat.digits 256 (s.foldl (fun a c => a * 256 + c.toNat) 0) = s.reverse.map Char.toNat ∧ (0 : Nat) ∉ s.reverse.map Char.toNat := by
  have hz : (0 : Nat) ∉ s.reverse.map Char.toNat := by
    intro hm
    obtain ⟨c, hc, hc0⟩ := List.mem_map.1 hm
    have : c = Char.ofNat 0 := Char.ext (UInt32.toNat_inj.1 hc0)
    subst this
    exact h0 (List.mem_reverse.1 hc)
  refine ⟨?_, hz⟩
  have e := fold_reverse 256 0 s.reverse
  rw [List.reverse_reverse] at e
  rw [e, ofDigits_zero_end, Nat.digits_ofDigits 256 (by decide)]
  · intro d hd
    obtain ⟨c, hc, rfl⟩ := List.mem_map.1 hd
    exact of_decide_eq_true (List.all_eq_true.1 h c (List.mem_reverse.1 hc))
  · intro hne hl
    exact hz (hl ▸ List.getLast_mem hne)

/-- different names have different keys -/
theorem keyOf_inj {s t : Str} (hs : Char.ofNat 0 ∉ s) (ht : Char.ofNat 0 ∉ t) (h : keyOf s = keyOf t) : s = t := by
  have cross : ∀ {s : Str} (n : Nat), s.all (fun c => decide (c.toNat < 256)) = true → Char.ofNat 0 ∉ s → n ≠ 0 →
      s.foldl (fun a c => a * 256 + c.toNat) 0 ≠ n * 65536 + 1 := by
    intro s n h1 h2 hn he
    obtain ⟨h3, h4⟩ := digits_narrow h1 h2
    rw [he, Nat.digits_def' (by decide) (by omega), Nat.digits_def' (by decide) (by omega)] at h3
    rw [← h3] at h4
    refine h4 ?_
    rw [List.mem_cons, List.mem_cons]
    right; left; omega
  have pos : ∀ s : Str, s.foldl (fun a c => a * 1114112 + c.toNat) 1 ≠ 0 := by
    intro s
    have : ∀ (s : Str) (z : Nat), 0 < z → 0 < s.foldl (fun a c => a * 1114112 + c.toNat) z := by
      intro s
      induction s with
      | nil => exact fun z h => h
      | cons c s ih => intro z hz; exact ih (z * 1114112 + c.toNat) (by omega)
    exact (this s 1 (by decide)).ne'
  unfold keyOf at h
  split at h
  · next h1 =>
    split at h
    · next h2 =>
      have e1 := (digits_narrow h1 hs).1
      rw [h, (digits_narrow h2 ht).1] at e1
      exact (List.reverse_injective (map_toNat_inj e1)).symm
    · exact absurd h (cross _ h1 hs (pos t))
  · split at h
    · next h2 => exact absurd h.symm (cross _ h2 ht (pos s))
    · exact fold_wide_inj (Nat.eq_of_mul_eq_mul_right (by decide : 0 < 65536) (Nat.succ.inj h))

theorem keyName_inj {a b : Key} (h : keyName a = keyName b) : a = b := by
  rw [← keyOf_keyName a, h, keyOf_keyName]

/-! ### Trees -/

theorem xmlChar_iff (c : Char) : XmlChar c → xmlChar c = true := by
  rintro (rfl | rfl | rfl | ⟨h1, h2, h3⟩)
  · decide
  · decide
  · decide
  · have : ' '.toNat = 32 := rfl
    simp only [xmlChar, Bool.or_eq_true, Bool.and_eq_true, decide_eq_true_eq, beq_iff_eq, bne_iff_ne]
    omega

theorem toEls_map (l : List Xml) : Xml.toEls l = l.map Xml.toEl := by
  induction l with
  | nil => rfl
  | cons x l ih => simp [Xml.toEls, ih]

theorem _root_.Verif.Spec.Every.here {P : Xml → Prop} {x : Xml} (h : Every P x) : P x := by cases h; assumption

theorem _root_.Verif.Spec.Every.kid {P : Xml → Prop} {x k : Xml} (h : Every P x) (hk : k ∈ x.kids) : Every P k := by
  cases h with
  | node _ _ _ _ _ h => exact h k hk

theorem _root_.Verif.Spec.Writable.kid {nc : NameChars} {x k : Xml} (h : Writable nc x) (hk : k ∈ x.kids) : Writable nc k :=
  ⟨h.1.kid hk, h.2.kid hk⟩

theorem writable_named {nc : NameChars} {x : Xml} (h : Writable nc x) : Named nc x.toEl := by
  obtain ⟨h, h'⟩ := h
  induction h with
  | node t as s kids hp hk ih =>
    obtain ⟨hn, ha, hd⟩ := hp
    obtain ⟨hv, hs⟩ := h'.here
    rw [Xml.toEl]
    refine .mk _ _ _ _ _ hn ?_ ?_ ?_ ?_ (fun c hc => xmlChar_iff c (hs c hc)) (by simp)
    · intro a h
      obtain ⟨b, hb, rfl⟩ := List.mem_map.1 h
      exact (ha b hb).1
    · rw [List.map_map]
      have : (Prod.fst ∘ fun a : Key × Str => (keyName a.1, a.2)) = keyName ∘ Prod.fst := rfl
      rw [this, ← List.map_map]
      exact hd.map (fun a b h => keyName_inj h)
    · intro k h
      rw [toEls_map] at h
      obtain ⟨y, hy, rfl⟩ := List.mem_map.1 h
      exact ih y hy (h'.kid hy)
    · intro a h c hc
      obtain ⟨b, hb, rfl⟩ := List.mem_map.1 h
      exact xmlChar_iff c (hv b hb c hc)

theorem isXmlns_false {n : Str} (h1 : n ≠ "xmlns".toList) (h2 : ¬ "xmlns:".toList <+: n) : isXmlns n = false := by
  unfold isXmlns
  rw [Bool.or_eq_false_iff]
  refine ⟨beq_eq_false_iff_ne.2 h1, ?_⟩
  rw [← Bool.not_eq_true, List.isPrefixOf_iff_prefix]
  exact h2

theorem named_namespaces {nc : NameChars} {x : Xml} (h : Writable nc x) : Named nc x.toEl.withNamespaces := by
  have hN := writable_named h
  cases x with
  | node t as s kids =>
    have ha := h.1.here.2.1
    rw [Xml.toEl] at hN ⊢
    rw [El.withNamespaces]
    cases hN with
    | mk _ _ _ _ _ gn ga gd gk gv gs gt =>
      have hs2 : ∀ a ∈ namespaces, ∃ c r, a.1 = c :: r ∧ c.toNat < 128 ∧ ((asciiWord c && !asciiDigit c) || c == ':') = true ∧
          ∀ x ∈ r, x.toNat < 128 ∧ (asciiWord x || x == '-' || x == '.' || x == ':') = true := by
        intro a ha
        simp only [namespaces, List.mem_cons, List.not_mem_nil, or_false] at ha
        rcases ha with rfl | rfl
        · exact ⟨'x', "mlns".toList, rfl, by decide, by decide, by decide⟩
        · exact ⟨'x', "mlns:xsi".toList, rfl, by decide, by decide, by decide⟩
      refine .mk _ _ _ _ _ gn ?_ ?_ gk ?_ gs gt
      · intro a h
        rcases List.mem_append.1 h with h | h
        · obtain ⟨c, r, h1, h2, h3, h4⟩ := hs2 a h
          exact ⟨c, r, h1, by rw [nc.start_ascii c h2]; exact h3, fun x hx => by rw [nc.char_ascii x (h4 x hx).1]; exact (h4 x hx).2⟩
        · exact ga a h
      · rw [List.map_append, List.nodup_append]
        refine ⟨by decide, gd, ?_⟩
        intro a h1 b h2 e
        rw [List.map_map] at h2
        obtain ⟨c, hc, rfl⟩ := List.mem_map.1 h2
        have hx := isXmlns_false (ha c hc).2.1 (ha c hc).2.2
        simp only [Function.comp] at e
        rw [← e] at hx
        have : ∀ a ∈ namespaces.map Prod.fst, isXmlns a = true := by decide
        rw [this a h1] at hx
        cases hx
      · intro a h
        rcases List.mem_append.1 h with h | h
        · have : ∀ a ∈ namespaces, ∀ c ∈ a.2, xmlChar c = true := by decide
          exact this a h
        · exact gv a h

/-! ### Laying out -/

theorem textPart_chars {ind t : Str} (hi : ∀ c ∈ ind, c = ' ') (ht : ∀ c ∈ t, xmlChar c = true) : ∀ c ∈ textPart ind t, xmlChar c = true := by
  intro c hc
  unfold textPart at hc
  split at hc
  · cases hc
  · simp only [List.mem_append, List.mem_cons, List.not_mem_nil, or_false, or_assoc] at hc
    rcases hc with hc | hc | rfl
    · rw [hi c hc]; decide
    · exact ht c hc
    · decide

theorem around_chars {ind out t : Str} (hi : ∀ c ∈ ind, c = ' ') (ho : ∀ c ∈ out, c = ' ') (ht : ∀ c ∈ t, xmlChar c = true) :
    ∀ c ∈ '\n' :: textPart ind t ++ out, xmlChar c = true := by
  intro c hc
  simp only [List.cons_append, List.mem_append, List.mem_cons] at hc
  rcases hc with rfl | hc | hc
  · decide
  · exact textPart_chars hi ht c hc
  · rw [ho c hc]; decide

theorem deeper {ind : Str} (hi : ∀ c ∈ ind, c = ' ') : ∀ c ∈ ind ++ [' ', ' '], c = ' ' := by
  intro c hc
  simp only [List.mem_append, List.mem_cons, List.not_mem_nil, or_false, or_self] at hc
  rcases hc with hc | hc
  · exact hi c hc
  · exact hc

theorem named_withTail {nc : NameChars} {e : El} (h : Named nc e) {t : Str} (ht : ∀ c ∈ t, xmlChar c = true) : Named nc (e.withTail t) := by
  cases h with
  | mk n as tx kids tl h1 h2 h3 h4 h5 h6 h7 => exact .mk _ _ _ _ _ h1 h2 h3 h4 h5 h6 ht

mutual
theorem named_lay {nc : NameChars} {ind : Str} (hi : ∀ c ∈ ind, c = ' ') : (e : El) → Named nc e → Named nc (lay ind e)
  | .mk n as tx [] tl, h => by
    rw [lay]
    cases h with
    | mk _ _ _ _ _ h1 h2 h3 h4 h5 h6 h7 => exact .mk _ _ _ _ _ h1 h2 h3 h4 h5 h6 (by simp)
  | .mk n as tx (e :: l) tl, h => by
    rw [lay]
    cases h with
    | mk _ _ _ _ _ h1 h2 h3 h4 h5 h6 h7 =>
      exact .mk _ _ _ _ _ h1 h2 h3 (named_lays (deeper hi) hi (e :: l) h4) h5 (around_chars (deeper hi) (deeper hi) h6) (by simp)
theorem named_lays {nc : NameChars} {ind out : Str} (hi : ∀ c ∈ ind, c = ' ') (ho : ∀ c ∈ out, c = ' ') : (l : List El) → (∀ e ∈ l, Named nc e) →
    ∀ e ∈ lays ind out l, Named nc e
  | [], _ => by intro e he; cases he
  | x :: l, h => by
    intro e he
    rw [lays] at he
    rcases List.mem_cons.1 he with rfl | he
    · refine named_withTail (named_lay hi x (h x (by simp))) ?_
      have ht : ∀ c ∈ x.tail, xmlChar c = true := by
        cases h x (by simp) with
        | mk _ _ _ _ _ _ _ _ _ _ _ ht => exact ht
      split
      · exact around_chars hi ho ht
      · exact around_chars hi hi ht
    · exact named_lays hi ho l (fun y hy => h y (by simp [hy])) e he
end

mutual
theorem valued_lay {P : Str → Prop} {ind : Str} : (e : El) → Valued P e → Valued P (lay ind e)
  | .mk n as tx [] tl, h => by
    rw [lay]
    cases h with
    | mk _ _ _ _ _ h1 h2 => exact .mk _ _ _ _ _ h1 h2
  | .mk n as tx (e :: l) tl, h => by
    rw [lay]
    cases h with
    | mk _ _ _ _ _ h1 h2 => exact .mk _ _ _ _ _ h1 (valued_lays (e :: l) h2)
theorem valued_lays {P : Str → Prop} {ind out : Str} : (l : List El) → (∀ e ∈ l, Valued P e) → ∀ e ∈ lays ind out l, Valued P e
  | [], _ => by intro e he; cases he
  | x :: l, h => by
    intro e he
    rw [lays] at he
    rcases List.mem_cons.1 he with rfl | he
    · have := valued_lay (ind := ind) x (h x (by simp))
      generalize lay ind x = y at this
      cases this with
      | mk _ _ _ _ _ h1 h2 => exact .mk _ _ _ _ _ h1 h2
    · exact valued_lays l (fun y hy => h y (by simp [hy])) e he
end

theorem valued_map {f : Str → Str} {x : Xml} (h : Every Unquoted x) : Valued (fun v => '"' ∉ v) (El.map f id x.toEl) := by
  have maps : ∀ l : List El, El.maps f id l = l.map (El.map f id) := by
    intro l
    induction l with
    | nil => rfl
    | cons e l ih => simp [El.maps, ih]
  induction h with
  | node t as s kids ha _ ih =>
    rw [Xml.toEl, El.map]
    refine .mk _ _ _ _ _ ?_ ?_
    · intro a h
      obtain ⟨b, hb, rfl⟩ := List.mem_map.1 h
      obtain ⟨d, hd, rfl⟩ := List.mem_map.1 hb
      exact ha d hd
    · intro k h
      rw [maps, toEls_map, List.map_map] at h
      obtain ⟨y, hy, rfl⟩ := List.mem_map.1 h
      exact ih y hy

/-! ### The tree that is read -/

theorem flatValue_eq (v : Str) : (newlines v).map toBlank = flatValue v := by
  unfold flatValue
  refine List.map_congr_left fun c hc => ?_
  have hr : c ≠ '\r' := fun e => newlines_no_cr v (e ▸ hc)
  by_cases h1 : c = ' '
  · subst h1; decide
  · by_cases h2 : c = '\t'
    · subst h2; decide
    · by_cases h3 : c = '\n'
      · subst h3; decide
      · simp [toBlank, xmlSpace, hr, h1, h2, h3]

theorem newlines_idem (s : Str) : newlines (newlines s) = newlines s := newlines_plain (newlines_no_cr s)

theorem toXml_withTail (e : El) (t : Str) : (e.withTail t).toXml = e.toXml := by cases e; rfl

theorem toXml_map_withTail (f g h k : Str → Str) (e : El) (t : Str) :
    (El.map f g (El.map h k (e.withTail t))).toXml = (El.map f g (El.map h k e)).toXml := by
  cases e; simp only [El.withTail, El.map, El.toXml]

/-- the attributes that are read -/
theorem attrs_read {nc : NameChars} {as : List (Key × Str)}
    (ha : ∀ a ∈ as, XmlName nc (keyName a.1) ∧ keyName a.1 ≠ "xmlns".toList ∧ ¬ "xmlns:".toList <+: keyName a.1) :
    (((((as.map fun a => (keyName a.1, a.2)).map fun a => (a.1, id a.2)).map fun a => (a.1, newlines a.2)).map
      fun a => (a.1, a.2.map toBlank)).filter fun a => !isXmlns a.1).map (fun a => (keyOf a.1, a.2)) =
      as.map fun a => (a.1, flatValue a.2) := by
  rw [List.map_map, List.map_map, List.map_map, List.filter_eq_self.2]
  · rw [List.map_map]
    refine List.map_congr_left fun a _ => ?_
    simp only [Function.comp, id, keyOf_keyName, flatValue_eq]
  · intro a h
    obtain ⟨b, hb, rfl⟩ := List.mem_map.1 h
    simp only [Function.comp]
    rw [isXmlns_false (ha b hb).2.1 (ha b hb).2.2]
    rfl

theorem lineBreak_eq (d : Nat) : '\n' :: (List.replicate (2 * d) ' ' ++ [' ', ' ']) = lineBreak d := by
  unfold lineBreak
  have : 2 * (d + 1) = 2 * d + 2 := by omega
  rw [this, List.replicate_add]
  rfl

theorem around_eq (d : Nat) (s : Str) :
    newlines ('\n' :: textPart (List.replicate (2 * d) ' ' ++ [' ', ' ']) (newlines s) ++ (List.replicate (2 * d) ' ' ++ [' ', ' '])) =
      lineBreak d ++ if s = [] then [] else newlines s ++ lineBreak d := by
  have hr : '\r' ∉ (List.replicate (2 * d) ' ' ++ [' ', ' '] : Str) := by
    intro h
    rcases List.mem_append.1 h with h | h
    · have := List.eq_of_mem_replicate h; revert this; decide
    · revert h; decide
  rw [newlines_plain]
  · unfold textPart
    by_cases hs : s = []
    · subst hs
      rw [if_pos rfl, if_pos (by rfl), ← lineBreak_eq]
      simp
    · rw [if_neg hs, if_neg (by rw [newlines_nil]; exact hs), ← lineBreak_eq]
      simp
  · intro h
    simp only [List.cons_append, List.mem_cons, List.mem_append] at h
    rcases h with h | h | h
    · revert h; decide
    · unfold textPart at h
      split at h
      · cases h
      · simp only [List.mem_append] at h
        rcases h with (h | h) | h
        · exact hr (List.mem_append.2 h)
        · exact newlines_no_cr s h
        · revert h; decide
    · exact hr (List.mem_append.2 (h.imp id (by simp)))

theorem replicate_deeper (d : Nat) : List.replicate (2 * d) ' ' ++ [' ', ' '] = List.replicate (2 * (d + 1)) ' ' := by
  have : 2 * (d + 1) = 2 * d + 2 := by omega
  rw [this, List.replicate_add]
  rfl

theorem tail_toEl (x : Xml) : x.toEl.tail = [] := by cases x; rfl

mutual
theorem laid_read {nc : NameChars} (d : Nat) : (x : Xml) → Writable nc x →
    (El.map id (·.map toBlank) (El.map newlines newlines (lay (List.replicate (2 * d) ' ') (El.map newlines id x.toEl)))).toXml = laid d x
  | .node t as s [], h => by
      have ha := h.1.here.2.1
      simp only [Xml.toEl, Xml.toEls, El.map, El.maps, lay, El.toXml, El.toXmls, laid, keyOf_keyName, newlines_idem, id]
      rw [← attrs_read (as := as) ha]
      rfl
  | .node t as s (x :: l), h => by
      have ha := h.1.here.2.1
      have hk : ∀ k ∈ x :: l, Writable nc k := fun k hk => h.kid hk
      have h1 := laids_read (d + 1) (List.replicate (2 * d) ' ') (x :: l) hk
      rw [← replicate_deeper] at h1
      rw [laid, ← h1, ← attrs_read (as := as) ha, ← around_eq]
      simp only [Xml.toEl, Xml.toEls, El.map, El.maps, lay, El.toXml, keyOf_keyName, id]
theorem laids_read {nc : NameChars} (d : Nat) (out : Str) : (l : List Xml) → (∀ x ∈ l, Writable nc x) →
    El.toXmls (El.maps id (·.map toBlank) (El.maps newlines newlines (lays (List.replicate (2 * d) ' ') out (El.maps newlines id (Xml.toEls l))))) = laidAll d l
  | [], _ => rfl
  | x :: l, h => by
    rw [Xml.toEls, El.maps, lays, El.maps, El.maps, El.toXmls, laidAll, toXml_map_withTail, laid_read d x (h x (by simp)),
      laids_read d out l (fun y hy => h y (by simp [hy]))]
end

theorem etWrite_eq : ∀ e : El, etWrite e = flat etText etAttr (fun _ _ => false) e ++ etText e.tail := by
  intro e
  refine El.rec (motive_1 := fun e => etWrite e = flat etText etAttr (fun _ _ => false) e ++ etText e.tail)
    (motive_2 := fun l => etWrites l = flats etText etAttr (fun _ _ => false) l) ?_ ?_ ?_ e
  · intro n as tx kids tl ih
    rw [etWrite, flat, ih]
    simp [El.tail]
  · rfl
  · intro e l h1 h2
    rw [etWrites, flats, h1, h2]

/-- the DOM -/
theorem dom_read {nc : NameChars} {x : Xml} (h : Writable nc x) :
    parseXml nc (etHead ++ etWrite x.toEl.withNamespaces) = some (El.map newlines id x.toEl.withNamespaces) := by
  have ht : x.toEl.withNamespaces.tail = [] := by cases x; rfl
  have he : etText [] = [] := rfl
  rw [etWrite_eq, ht, he, parse_flat coding_et _ newlines_etText (fun s => newlines_nil) newlines_etAttr etText_chars etAttr_chars newlines_chars
    (fA := id) (fun s hs => hs) (.inl rfl) (.inl rfl) _ (named_namespaces h)]
  congr 1
  have hid : ∀ e : El, El.map id id e = e := by
    intro e
    refine El.rec (motive_1 := fun e => El.map id id e = e) (motive_2 := fun l => El.maps id id l = l) ?_ ?_ ?_ e
    · intro n as tx kids tl ih
      rw [El.map, ih]
      simp
    · rfl
    · intro e l h1 h2
      rw [El.maps, h1, h2]
  rw [hid]
  cases x
  rfl

/-- the element that is read from the file of a tree -/
def savedEl (x : Xml) : El := (El.map id (·.map toBlank) (El.map newlines newlines (lay [] (El.map newlines id x.toEl.withNamespaces)))).withTail []

theorem file_el {py : Py} {nc : NameChars} (unescape : Bool) {x : Xml} (h : Writable nc x) (hq : unescape = true → Every Unquoted x) :
    (saveToFile py nc unescape x).bind (parseXml nc) = some (savedEl x) := by
  have hN := named_map (g := id) newlines_chars (fun s hs => hs) _ (named_namespaces h)
  have hL := named_lay (ind := []) (by simp) _ hN
  have hV : unescape = true → Valued (fun v => '"' ∉ v) (lay [] (El.map newlines id x.toEl.withNamespaces)) := by
    intro hu
    refine valued_lay _ ?_
    have := valued_map (f := newlines) (hq hu)
    cases x with
    | node t as s kids =>
      simp only [Xml.toEl, El.withNamespaces, El.map] at this ⊢
      cases this with
      | mk _ _ _ _ _ h1 h2 =>
        refine .mk _ _ _ _ _ ?_ h2
        intro a ha
        rw [List.map_append] at ha
        rcases List.mem_append.1 ha with ha | ha
        · have : ∀ a ∈ namespaces.map (fun a => (a.1, id a.2)), '"' ∉ a.2 := by decide
          exact this a ha
        · exact h1 a ha
  have hw := domWrite_eq [] (by simp) (El.map newlines id x.toEl.withNamespaces)
  unfold saveToFile
  rw [dom_read h, Option.map_some, Option.bind_some, hw, List.nil_append, patch_flat unescape _ hL hV]
  have key : ∀ eT, (eT = domData ∨ eT = etText) →
      parseXml nc (domHead ++ (flat eT domData (unpatched py) (lay [] (El.map newlines id x.toEl.withNamespaces)) ++ ['\n'])) =
        some ((El.map id (·.map toBlank) (El.map newlines newlines (lay [] (El.map newlines id x.toEl.withNamespaces)))).withTail []) := by
    rintro eT (rfl | rfl)
    · exact parse_flat coding_dom _ newlines_domData (fun s => newlines_nil) newlines_domData domData_chars domData_chars newlines_chars newlines_chars
        (.inr rfl) (.inr rfl) _ hL
    · exact parse_flat coding_q _ newlines_etText (fun s => newlines_nil) newlines_domData etText_chars domData_chars newlines_chars newlines_chars
        (.inr rfl) (.inr rfl) _ hL
  rw [key _ (by cases unescape <;> simp)]
  rfl

/-- **Saving and reading.**  What is read from the file of a tree. -/
theorem file_read {py : Py} {nc : NameChars} (unescape : Bool) {x : Xml} (h : Writable nc x) (hq : unescape = true → Every Unquoted x) :
    (saveToFile py nc unescape x).bind (parseFile nc) = some (laid 0 x) := by
  have hf : (saveToFile py nc unescape x).bind (parseFile nc) = ((saveToFile py nc unescape x).bind (parseXml nc)).map El.toXml := by
    cases saveToFile py nc unescape x <;> rfl
  rw [hf, file_el unescape h hq, Option.map_some, savedEl, toXml_withTail]
  congr 1
  rw [← laid_read 0 x h]
  have hns : ∀ (as : List (Str × Str)) (g : Str × Str → Str × Str), (∀ a, (g a).1 = a.1) →
      ((namespaces ++ as).map g).filter (fun a => !isXmlns a.1) = (as.map g).filter (fun a => !isXmlns a.1) := by
    intro as g hg
    rw [List.map_append, List.filter_append, List.filter_eq_nil_iff.2, List.nil_append]
    intro a ha
    obtain ⟨b, hb, rfl⟩ := List.mem_map.1 ha
    rw [hg]
    have : ∀ b ∈ namespaces, ¬ (!isXmlns b.1) = true := by decide
    exact this b hb
  cases x with
  | node t as s kids =>
    cases kids with
    | nil =>
      simp only [Xml.toEl, Xml.toEls, El.withNamespaces, El.map, El.maps, lay, El.toXml, List.map_map]
      rw [hns _ ((fun a => (a.1, List.map toBlank a.2)) ∘ (fun a => (a.1, newlines a.2)) ∘ fun a => (a.1, id a.2)) (fun a => rfl), List.map_map]
      rfl
    | cons y l =>
      simp only [Xml.toEl, Xml.toEls, El.withNamespaces, El.map, El.maps, lay, El.toXml, List.map_map]
      rw [hns _ ((fun a => (a.1, List.map toBlank a.2)) ∘ (fun a => (a.1, newlines a.2)) ∘ fun a => (a.1, id a.2)) (fun a => rfl), List.map_map]
      rfl

end Verif.Lemmas
