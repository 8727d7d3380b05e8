import Verif.Lemmas.Namespace
import Verif.Lemmas.Names
/-!
# Files with the usual namespaces
-/
namespace Verif.Lemmas
open Verif Verif.Model Verif.Spec

/-- the usual prefixes are in scope -/
structure Common (p : Str) (sc : Scope) : Prop where
  ar : uriOf sc p = some arUri
  xsi : uriOf sc "xsi".toList = some xsiUri
  xml : uriOf sc "xml".toList = some xmlUri

/-- what a usual attribute stands for -/
def usualName (a : Str) : Str × Str :=
  if a = "xml:space".toList then (xmlUri, "space".toList) else if a = "xsi:schemaLocation".toList then (xsiUri, "schemaLocation".toList) else ([], a)

theorem usual_undeclared {a : Str} (h : UsualAttr a) : declared a = none := by
  cases hd : declared a with
  | none => rfl
  | some p =>
    exfalso
    obtain rfl := (declared_iff _ _).1 hd
    unfold declOf at h
    split at h
    · rcases h with ⟨_, h⟩ | h | h
      · exact h rfl
      · revert h; decide
      · revert h; decide
    · rcases h with ⟨h, _⟩ | h | h
      · exact h (List.mem_append_left _ (by decide))
      · have := congrArg (List.take 4) h
        rw [List.take_append_of_le_length (by decide)] at this
        revert this; decide
      · have := congrArg (List.take 4) h
        rw [List.take_append_of_le_length (by decide)] at this
        revert this; decide

theorem bindAll_none {sc : Scope} {as : List (Str × Str)} (h : ∀ a ∈ as, declared a.1 = none) : bindAll sc as = some sc := by
  induction as with
  | nil => rfl
  | cons a as ih =>
    rw [bindAll, h a (by simp)]
    exact ih fun b hb => h b (by simp [hb])

theorem split_none {nc : NameChars} {n : Str} (h : ':' ∉ n) : splitName nc n = some ([], n) := by
  unfold splitName; rw [span_of_notMem h]

theorem usual_resolve (nc : NameChars) {p : Str} {sc : Scope} (hc : Common p sc) {a : Str} (h : UsualAttr a) : resolveAttr nc sc a = some (usualName a) := by
  rcases h with ⟨h, _⟩ | rfl | rfl
  · unfold resolveAttr usualName
    rw [split_none h, if_neg, if_neg]
    · rfl
    · rintro rfl; exact h (by decide)
    · rintro rfl; exact h (by decide)
  · have hs : splitName nc "xml:space".toList = some ("xml".toList, "space".toList) := by
      have : splitName nc "xml:space".toList = if nc.start 's' && !("space".toList).contains ':' then some ("xml".toList, "space".toList) else none := rfl
      rw [this, nc.start_ascii _ (by decide)]; rfl
    unfold resolveAttr
    rw [hs, Option.bind_some]
    simp only
    rw [if_neg (by decide), hc.xml]
    rfl
  · have hs : splitName nc "xsi:schemaLocation".toList = some ("xsi".toList, "schemaLocation".toList) := by
      have : splitName nc "xsi:schemaLocation".toList =
          if nc.start 's' && !("schemaLocation".toList).contains ':' then some ("xsi".toList, "schemaLocation".toList) else none := rfl
      rw [this, nc.start_ascii _ (by decide)]; rfl
    have h1 : resolveAttr nc sc "xsi:schemaLocation".toList = (uriOf sc "xsi".toList).map fun u => (u, "schemaLocation".toList) := by
      unfold resolveAttr
      rw [hs, Option.bind_some]
      exact if_neg (show ¬ ("xsi".toList : Str) = [] by decide)
    rw [h1, hc.xsi]
    rfl

theorem usualName_key {a : Str} : attrKey (usualName a).1 (usualName a).2 = keyOf a := by
  unfold usualName
  split
  · next h => subst h; rfl
  · split
    · next h => subst h; rfl
    · unfold attrKey etTag
      have h1 : ([] : Str) ≠ xsiUri := by decide
      have h2 : ([] : Str) ≠ xmlUri := by decide
      rw [if_neg h1, if_neg h2, if_pos rfl]

theorem usualName_inj {a b : Str} (h : usualName a = usualName b) : a = b := by
  have h1 : (xmlUri = []) = False := by decide
  have h2 : (xsiUri = []) = False := by decide
  have h3 : (xmlUri = xsiUri) = False := by decide
  unfold usualName at h
  split at h <;> split at h
  all_goals first
    | (subst_vars; rfl)
    | skip
  all_goals try split at h
  all_goals try split at h
  all_goals first
    | (subst_vars; rfl)
    | (have h4 := congrArg Prod.fst h; have h5 := congrArg Prod.snd h; simp_all)

/-- the attributes that are not declarations -/
def kept (as : List (Str × Str)) : List (Str × Str) := as.filter fun a => !isXmlns a.1

theorem isXmlns_declared (a : Str) (h : isXmlns a = false) : declared a = none := by
  unfold isXmlns at h
  rw [Bool.or_eq_false_iff] at h
  unfold declared
  rw [if_neg (by simpa using h.1), h.2]
  rfl

theorem usual_isXmlns {a : Str} (h : UsualAttr a) : isXmlns a = false := by
  rcases h with ⟨h, h'⟩ | rfl | rfl
  · unfold isXmlns
    rw [Bool.or_eq_false_iff]
    refine ⟨by simpa using h', ?_⟩
    cases hp : "xmlns:".toList.isPrefixOf a with
    | false => rfl
    | true =>
      rw [List.isPrefixOf_iff_prefix] at hp
      obtain ⟨r, rfl⟩ := hp
      exact absurd (List.mem_append_left _ (by decide)) h
  · decide
  · decide

/-- the attributes of a usual element -/
theorem usual_attrs (nc : NameChars) {p : Str} {sc : Scope} (hc : Common p sc) {as : List (Str × Str)}
    (h : ∀ a ∈ as, UsualAttr a.1 ∨ isXmlns a.1 = true ∧ (declared a.1).isSome = true ∧ (splitName nc a.1).isSome = true) :
    resolveAttrs nc sc as = some ((kept as).map fun a => (usualName a.1, a.2)) := by
  induction as with
  | nil => rfl
  | cons a as ih =>
    have ih := ih fun b hb => h b (by simp [hb])
    obtain ⟨a, v⟩ := a
    rw [resolveAttrs]
    rcases h (a, v) (by simp) with ha | ⟨h1, h2, h3⟩
    · rw [usual_undeclared ha, usual_resolve nc hc ha, ih]
      simp [kept, usual_isXmlns ha]
    · obtain ⟨p, hp⟩ := Option.isSome_iff_exists.1 h2
      obtain ⟨q, hq⟩ := Option.isSome_iff_exists.1 h3
      simp only at h1
      rw [hp, hq, Option.bind_some, ih]
      simp [kept, h1]

theorem kept_nodup {as : List (Str × Str)} (h : (as.map Prod.fst).Nodup) : (((kept as).map fun a => (usualName a.1, a.2)).map Prod.fst).Nodup := by
  rw [List.map_map]
  have h1 : ((kept as).map Prod.fst).Nodup := ((List.filter_sublist (p := fun a : Str × Str => !isXmlns a.1)).map Prod.fst).nodup h
  have h2 : (Prod.fst ∘ fun a : Str × Str => (usualName a.1, a.2)) = usualName ∘ Prod.fst := rfl
  rw [h2, ← List.map_map]
  exact List.Nodup.map (fun _ _ => usualName_inj) h1

theorem kept_keys (as : List (Str × Str)) :
    (((kept as).map fun a => (usualName a.1, a.2)).map fun a => (attrKey a.1.1 a.1.2, a.2)) = (kept as).map fun a => (keyOf a.1, a.2) := by
  rw [List.map_map]
  refine List.map_congr_left fun a _ => ?_
  simp only [Function.comp, usualName_key]

theorem common_tag (nc : NameChars) {p : Str} {sc : Scope} (hp : p = [] ∨ FreePrefix nc p) (hc : Common p sc) {n : Str} (hn : XmlName nc n) (h : ':' ∉ n) :
    resolveTag nc sc (tagWith p n) = some (arUri, n) := by
  have hs : splitName nc (tagWith p n) = some (p, n) := by
    unfold tagWith
    rcases hp with rfl | hp
    · rw [if_pos rfl, split_none h]
    · obtain ⟨⟨a, b, rfl, h1, h2⟩, h3, _⟩ := hp
      rw [if_neg (by simp)]
      unfold splitName
      rw [span_of_colon h3]
      obtain ⟨c, r, rfl, h4, _⟩ := hn
      simp only
      rw [if_pos]
      simp only [Bool.and_eq_true, Bool.not_eq_true', List.contains_eq_mem, decide_eq_false_iff_not]
      exact ⟨h4, h⟩
  unfold resolveTag
  rw [hs, Option.bind_some, hc.ar]
  rfl

theorem usual_tagKey (n : Str) : tagKey arUri n = keyOf n := by
  unfold tagKey; rw [if_pos rfl]

mutual
theorem usual_el {nc : NameChars} {p : Str} {sc : Scope} (hp : p = [] ∨ FreePrefix nc p) (hc : Common p sc) : (e : El) → Tidy nc e → Usual e →
    ∃ x, resolveEl nc sc (prefixed p e) = some x ∧ x.toXml = e.toXml
  | .mk n as s kids tail, ht, hu => by
    cases ht with
    | mk h1 _ h3 h4 =>
    cases hu with
    | mk g1 g2 g3 =>
    obtain ⟨ks, q1, q2⟩ := usual_els hp hc kids h4 g3
    refine ⟨.mk arUri n ((kept as).map fun a => (usualName a.1, a.2)) s ks, ?_, ?_⟩
    · rw [prefixed, resolveEl, bindAll_none (fun a ha => usual_undeclared (g2 a ha)), Option.bind_some, common_tag nc hp hc h1 g1, Option.bind_some,
        usual_attrs nc hc (fun a ha => .inl (g2 a ha)), Option.bind_some, if_pos (kept_nodup h3), q1]
      rfl
    · rw [NsEl.toXml, El.toXml, kept_keys, q2, usual_tagKey]
      rfl
theorem usual_els {nc : NameChars} {p : Str} {sc : Scope} (hp : p = [] ∨ FreePrefix nc p) (hc : Common p sc) : (l : List El) → (∀ e ∈ l, Tidy nc e) →
    (∀ e ∈ l, Usual e) → ∃ xs, resolveEls nc sc (prefixeds p l) = some xs ∧ NsEl.toXmls xs = El.toXmls l
  | [], _, _ => ⟨[], rfl, rfl⟩
  | e :: l, ht, hu => by
    obtain ⟨x, h1, h2⟩ := usual_el hp hc e (ht e (by simp)) (hu e (by simp))
    obtain ⟨xs, h3, h4⟩ := usual_els hp hc l (fun k hk => ht k (by simp [hk])) (fun k hk => hu k (by simp [hk]))
    refine ⟨x :: xs, ?_, ?_⟩
    · rw [prefixeds, resolveEls, h1, Option.bind_some, h3]; rfl
    · rw [NsEl.toXmls, El.toXmls, h2, h4]
end

/-! ### The name of the root -/

theorem pureTag_id (py : Py) (n : Nat) {s : Str} (h : '{' ∉ s) : pureTag py n s = s := by
  induction n generalizing s with
  | zero => rfl
  | succ n ih =>
    cases s with
    | nil => rfl
    | cons c s =>
      rw [List.mem_cons, not_or] at h
      rw [pureTag, if_neg (Ne.symm h.1), ih h.2]

theorem nsChar_brace (py : Py) : nsChar py '}' = false := by
  unfold nsChar
  rw [py.word_ascii _ (by decide)]
  rfl

theorem span_append_stop {p : Char → Bool} {a : Str} {c : Char} {b : Str} (ha : ∀ x ∈ a, p x = true) (hc : p c = false) : (a ++ c :: b).span p = (a, c :: b) := by
  rw [List.span_eq_takeWhile_dropWhile, List.takeWhile_append_of_pos ha, List.dropWhile_append_of_pos ha]
  simp [hc]

theorem span_sound {p : Char → Bool} {s a b : Str} (h : s.span p = (a, b)) : s = a ++ b ∧ (∀ x ∈ a, p x = true) ∧ ∀ c r, b = c :: r → p c = false := by
  rw [List.span_eq_takeWhile_dropWhile] at h
  obtain ⟨rfl, rfl⟩ := Prod.mk.inj h
  refine ⟨List.takeWhile_append_dropWhile.symm, fun x hx => (List.all_eq_true.1 (List.all_takeWhile (l := s) (p := p)) x hx), ?_⟩
  intro c r hr
  have := List.head?_dropWhile_not p s
  rw [hr] at this
  simpa using this

/-- which root is taken for `AUTOSAR` -/
theorem pureTag_iff (py : Py) (n : Nat) {u l : Str} (hu : '}' ∉ u) (hl : '{' ∉ l) :
    pureTag py (n + 1) (etTag u l) = "AUTOSAR".toList ↔ l = "AUTOSAR".toList ∧ ∀ c ∈ u, nsChar py c = true := by
  by_cases h0 : u = []
  · subst h0
    rw [etTag, if_pos rfl, pureTag_id py _ hl]
    simp
  · rw [etTag, if_neg h0, List.cons_append, pureTag, if_pos rfl]
    have hbad : ∀ r, ('{' :: r = "AUTOSAR".toList) = False := by
      intro r; rw [eq_iff_iff, iff_false]; intro h; injection h with h _; revert h; decide
    by_cases hall : ∀ c ∈ u, nsChar py c = true
    · rw [span_append_stop hall (nsChar_brace py)]
      obtain ⟨c, u', rfl⟩ := List.exists_cons_of_ne_nil h0
      simp only
      cases hs : l.span py.word with
      | mk a b =>
        obtain ⟨rfl, h2, h3⟩ := span_sound hs
        cases a with
        | nil =>
          simp only [hbad, false_iff, not_and]
          intro h
          exfalso
          have := h3 'A' "UTOSAR".toList (by simpa using h)
          rw [py.word_ascii _ (by decide)] at this
          revert this; decide
        | cons w ws =>
          simp only
          rw [pureTag_id py n (fun h => hl (List.mem_append_right _ h))]
          constructor
          · intro h; exact ⟨h, hall⟩
          · intro h; exact h.1
    · have : ∀ x, (u ++ '}' :: l).span (nsChar py) ≠ (x, '}' :: ((u ++ '}' :: l).span (nsChar py)).2.tail) := by
        intro x hx
        obtain ⟨h1, h2, _⟩ := span_sound hx
        refine hall ?_
        generalize ((u ++ '}' :: l).span (nsChar py)).2.tail = r at h1
        intro c hc
        rcases List.append_eq_append_iff.1 h1 with ⟨a, h4, h5⟩ | ⟨a, h4, h5⟩
        · exact h2 c (by rw [h4]; exact List.mem_append_left _ hc)
        · cases a with
          | nil => rw [List.append_nil] at h4; exact h2 c (h4 ▸ hc)
          | cons d a =>
            injection h5 with h5 _
            subst h5
            exact absurd (by rw [h4]; simp) hu
      simp only [hall, and_false, iff_false]
      split
      · next a b c hspan => exact absurd hspan (by rw [hspan] at this; exact absurd rfl (this _))
      · rw [hbad]; exact id

theorem etTag_length (u l : Str) (hl : l ≠ []) : ∃ n, (etTag u l).length = n + 1 := by
  unfold etTag
  split
  · obtain ⟨c, r, rfl⟩ := List.exists_cons_of_ne_nil hl; exact ⟨_, rfl⟩
  · exact ⟨_, rfl⟩

theorem root_iff (py : Py) {u l : Str} (hu : '}' ∉ u) (hl : '{' ∉ l) (hne : l ≠ []) :
    pureTag py (etTag u l).length (etTag u l) = "AUTOSAR".toList ↔ l = "AUTOSAR".toList ∧ ∀ c ∈ u, nsChar py c = true := by
  obtain ⟨n, hn⟩ := etTag_length u l hne
  rw [hn]
  exact pureTag_iff py n hu hl

theorem arUri_chars (py : Py) : ∀ c ∈ arUri, nsChar py c = true := by
  have : ∀ c ∈ arUri, c.toNat < 128 ∧ (asciiWord c || c == ':' || c == '/' || c == '.') = true := by decide +kernel
  intro c hc
  unfold nsChar
  rw [py.word_ascii _ (this c hc).1]
  exact (this c hc).2

/-! ### A whole file -/

/-- declare another prefix instead of the default namespace -/
def redeclare (p : Str) (a : Str × Str) : Str × Str := if a.1 = "xmlns".toList then (declOf p, a.2) else a

theorem isXmlns_declOf (p : Str) : isXmlns (declOf p) = true := by
  unfold isXmlns declOf
  split
  · rfl
  · rw [Bool.or_eq_true, List.isPrefixOf_iff_prefix]; exact .inr ⟨p, rfl⟩

theorem kept_redeclare (p : Str) (as : List (Str × Str)) : kept (as.map (redeclare p)) = kept as := by
  induction as with
  | nil => rfl
  | cons a as ih =>
    unfold kept at ih ⊢
    rw [List.map_cons, List.filter_cons, List.filter_cons, ih]
    by_cases h : a.1 = "xmlns".toList
    · have h1 : isXmlns (redeclare p a).1 = true := by rw [redeclare, if_pos h]; exact isXmlns_declOf p
      have h2 : isXmlns a.1 = true := by rw [h]; rfl
      rw [h1, h2]
      rfl
    · rw [redeclare, if_neg h]

theorem usual_root {py : Py} {nc : NameChars} {p : Str} (hp : p = [] ∨ FreePrefix nc p) {e : El} (ht : Tidy nc e) (hu : UsualRoot e) :
    ∃ x, resolveEl nc scope₀ (prefixRoot p e) = some x ∧ x.rootXml py = e.toXml ∧ x.uri = arUri := by
  cases hu with
  | @mk s tail as kids h1 h2 h3 h4 =>
  cases ht with
  | mk g1 g2 g3 g4 =>
  have hpx : declOf p ≠ "xmlns:xsi".toList ∧ declOf p ≠ declOf "xml".toList ∧ MayDeclare p arUri := by
    rcases hp with rfl | ⟨_, _, hp⟩
    · exact ⟨by decide, by decide, by unfold MayDeclare; decide⟩
    · simp only [List.mem_cons, List.not_mem_nil, or_false, not_or] at hp
      refine ⟨fun h => hp.2.2 (declOf_inj (q := "xsi".toList) h), fun h => hp.1 (declOf_inj h), ⟨fun _ => by decide, hp.2.1, ?_, by decide, by decide⟩⟩
      exact ⟨fun h => absurd h hp.1, fun h => absurd h (by decide)⟩
  have hud : ∀ q a, UsualAttr a → a ≠ declOf q := by
    rintro q a h rfl
    have := usual_undeclared h
    rw [(declared_iff _ _).2 rfl] at this
    cases this
  -- the attributes with the other declaration
  have hm : ∀ a ∈ as, redeclare p a ∈ as.map (redeclare p) := fun a ha => List.mem_map_of_mem ha
  have k1 : (declOf p, arUri) ∈ as.map (redeclare p) := hm _ h1
  have k2 : (declOf "xsi".toList, xsiUri) ∈ as.map (redeclare p) := hm _ h2
  have k3 : ∀ a ∈ as.map (redeclare p), a.1 = declOf p ∨ a.1 = "xmlns:xsi".toList ∨ UsualAttr a.1 := by
    intro a ha
    obtain ⟨b, hb, rfl⟩ := List.mem_map.1 ha
    unfold redeclare
    split
    · exact .inl rfl
    · next hn =>
      rcases h3 b hb with h | h | h
      · exact absurd h hn
      · exact .inr (.inl h)
      · exact .inr (.inr h)
  have k4 : ((as.map (redeclare p)).map Prod.fst).Nodup := by
    rw [List.map_map]
    refine (List.nodup_map_iff_inj_on (List.Nodup.of_map _ g3)).2 ?_
    intro a ha b hb hab
    refine List.inj_on_of_nodup_map g3 ha hb ?_
    simp only [Function.comp, redeclare] at hab
    split at hab <;> split at hab
    · next ha' hb' => rw [ha', hb']
    · next ha' hb' =>
      exfalso
      rcases h3 b hb with h | h | h
      · exact hb' h
      · exact hpx.1 (hab.trans h)
      · exact hud p _ h hab.symm
    · next ha' hb' =>
      exfalso
      rcases h3 a ha with h | h | h
      · exact ha' h
      · exact hpx.1 (hab.symm.trans h)
      · exact hud p _ h hab
    · exact hab
  generalize hbs : as.map (redeclare p) = bs at k1 k2 k3 k4
  have val : ∀ q v w, (declOf q, v) ∈ bs → (declOf q, w) ∈ bs → v = w := by
    intro q v w hv hw
    exact (Prod.mk.inj (List.inj_on_of_nodup_map k4 hv hw rfl)).2
  have hd : ∀ q v, (declOf q, v) ∈ bs → MayDeclare q v := by
    intro q v hqv
    rcases k3 _ hqv with h | h | h
    · obtain rfl : q = p := declOf_inj h
      rw [val q v _ hqv k1]
      exact hpx.2.2
    · have hp : q = "xsi".toList := declOf_inj (q := "xsi".toList) h
      subst hp
      rw [val "xsi".toList v _ hqv k2]
      unfold MayDeclare
      decide
    · exact absurd rfl (hud q _ h)
  obtain ⟨sc, hsc⟩ := (bindAll_some scope₀ bs).2 hd
  have hc : Common p sc := by
    refine ⟨(bindAll_uri hsc k4 _ _).2 (.inl k1), (bindAll_uri hsc k4 _ _).2 (.inl k2), (bindAll_uri hsc k4 _ _).2 (.inr ⟨?_, rfl⟩)⟩
    intro hm
    obtain ⟨⟨a, v⟩, hav, ha⟩ := List.mem_map.1 hm
    simp only at ha
    subst ha
    rcases k3 _ hav with h | h | h
    · exact hpx.2.1 h.symm
    · exact absurd (show declOf "xml".toList = "xmlns:xsi".toList from h) (by decide)
    · exact hud "xml".toList _ h rfl
  obtain ⟨ks, q1, q2⟩ := usual_els hp hc kids g4 h4
  have hA : ':' ∉ "AUTOSAR".toList := by decide
  have hk : kept bs = kept as := by rw [← hbs, kept_redeclare]
  refine ⟨.mk arUri "AUTOSAR".toList ((kept as).map fun a => (usualName a.1, a.2)) s ks, ?_, ?_, rfl⟩
  · rw [prefixRoot]
    have hbs' : (as.map fun a => if a.1 = "xmlns".toList then (declOf p, a.2) else a) = bs := hbs
    rw [hbs', resolveEl, hsc, Option.bind_some, common_tag nc hp hc g1 hA, Option.bind_some, usual_attrs nc hc, Option.bind_some, hk,
      if_pos (kept_nodup g3), q1]
    · rfl
    · intro a ha
      rcases k3 a ha with h | h | h
      · rw [h]
        refine .inr ⟨isXmlns_declOf p, by rw [(declared_iff _ _).2 rfl]; rfl, ?_⟩
        rcases hp with rfl | ⟨⟨c, r, rfl, hc1, hc2⟩, hp2, _⟩
        · rw [split_none (by decide)]; rfl
        · have : splitName nc (declOf (c :: r)) = if nc.start c && !(c :: r).contains ':' then some ("xmlns".toList, c :: r) else none := by
            have e : declOf (c :: r) = "xmlns".toList ++ ':' :: (c :: r) := rfl
            unfold splitName
            rw [e, span_of_colon (by decide)]
            rfl
          rw [this, if_pos]
          · rfl
          · simp only [Bool.and_eq_true, Bool.not_eq_true', List.contains_eq_mem, decide_eq_false_iff_not]
            exact ⟨hc1, hp2⟩
      · rw [h]
        refine .inr ⟨by decide, by decide, ?_⟩
        have : splitName nc "xmlns:xsi".toList = if nc.start 'x' && !("xsi".toList).contains ':' then some ("xmlns".toList, "xsi".toList) else none := rfl
        rw [this, nc.start_ascii _ (by decide)]; rfl
      · exact .inl h
  · rw [NsEl.rootXml, El.toXml, kept_keys, q2, if_pos ((root_iff py (by decide) (by decide) (by decide)).2 ⟨rfl, arUri_chars py⟩)]
    rfl

mutual
theorem prefixed_nil : (e : El) → prefixed [] e = e
  | .mk n as s kids tail => by rw [prefixed, prefixeds_nil kids]; rfl
theorem prefixeds_nil : (l : List El) → prefixeds [] l = l
  | [] => rfl
  | e :: l => by rw [prefixeds, prefixed_nil e, prefixeds_nil l]
end

theorem prefixRoot_nil (e : El) : prefixRoot [] e = e := by
  cases e with
  | mk n as s kids tail =>
    have : (as.map fun a => if a.1 = "xmlns".toList then (declOf [], a.2) else a) = as := by
      conv => rhs; rw [← List.map_id as]
      refine List.map_congr_left fun a _ => ?_
      split
      · next h => exact Prod.ext h.symm rfl
      · rfl
    rw [prefixRoot, prefixeds_nil, this]
    rfl

/-! ### Saved files -/

theorem usual_withTail {e : El} (h : Usual e) (t : Str) : Usual (e.withTail t) := by
  cases h with
  | mk h1 h2 h3 => exact .mk h1 h2 h3

theorem maps_list (f g : Str → Str) (l : List El) : El.maps f g l = l.map (El.map f g) := by
  induction l with
  | nil => rfl
  | cons e l ih => rw [El.maps, ih]; rfl

theorem usual_map (f g : Str → Str) {e : El} (h : Usual e) : Usual (El.map f g e) := by
  induction h with
  | mk h1 h2 _ ih =>
    rw [El.map]
    refine .mk h1 ?_ ?_
    · intro a ha
      obtain ⟨b, hb, rfl⟩ := List.mem_map.1 ha
      exact h2 b hb
    · intro k hk
      rw [maps_list] at hk
      obtain ⟨y, hy, rfl⟩ := List.mem_map.1 hk
      exact ih y hy

mutual
theorem usual_lay (ind : Str) : (e : El) → Usual e → Usual (lay ind e)
  | .mk n as tx [] tl, h => by
    rw [lay]
    cases h with
    | mk h1 h2 h3 => exact .mk h1 h2 h3
  | .mk n as tx (e :: l) tl, h => by
    rw [lay]
    cases h with
    | mk h1 h2 h3 => exact .mk h1 h2 (usual_lays _ _ (e :: l) h3)
theorem usual_lays (ind out : Str) : (l : List El) → (∀ e ∈ l, Usual e) → ∀ e ∈ lays ind out l, Usual e
  | [], _ => by intro e he; cases he
  | x :: l, h => by
    intro e he
    rw [lays] at he
    rcases List.mem_cons.1 he with rfl | he
    · exact usual_withTail (usual_lay ind x (h x (by simp))) _
    · exact usual_lays ind out l (fun y hy => h y (by simp [hy])) e he
end

theorem keyName_space : keyName k!"xml:space" = "xml:space".toList := by decide +kernel

theorem keyName_schema : keyName k!"xsi:schemaLocation" = "xsi:schemaLocation".toList := by decide +kernel

theorem usual_key {nc : NameChars} {x : Xml} (h : NamedX nc x) : ∀ a ∈ x.attrs, UsualAttr (keyName a.1) := by
  intro a ha
  rcases h.2.2 a ha with h1 | h1 | h1
  · exact .inl ⟨h1, (h.1.2.1 a ha).2.1⟩
  · exact .inr (.inl (by rw [h1, keyName_space]))
  · exact .inr (.inr (by rw [h1, keyName_schema]))

theorem toEls_map' (l : List Xml) : Xml.toEls l = l.map Xml.toEl := by
  induction l with
  | nil => rfl
  | cons x l ih => rw [Xml.toEls, ih]; rfl

theorem usual_toEl {nc : NameChars} {x : Xml} (h : Every (NamedX nc) x) : Usual x.toEl := by
  induction h with
  | node t as s kids h1 _ ih =>
    rw [Xml.toEl]
    refine .mk h1.2.1 ?_ ?_
    · intro a ha
      obtain ⟨b, hb, rfl⟩ := List.mem_map.1 ha
      exact usual_key h1 b hb
    · intro k hk
      rw [toEls_map'] at hk
      obtain ⟨y, hy, rfl⟩ := List.mem_map.1 hk
      exact ih y hy

theorem namespaced_root {nc : NameChars} {x : Xml} (h : Every (NamedX nc) x) (ht : x.tag = k!"AUTOSAR") : UsualRoot x.toEl.withNamespaces := by
  have hk := usual_toEl h
  cases h with
  | node t as s kids h1 _ =>
    obtain rfl : t = k!"AUTOSAR" := ht
    rw [Xml.toEl] at hk ⊢
    cases hk with
    | mk g1 g2 g3 =>
      rw [El.withNamespaces]
      have hn : keyName k!"AUTOSAR" = "AUTOSAR".toList := by decide +kernel
      rw [hn]
      refine .mk (List.mem_append_left _ (by simp [namespaces])) (List.mem_append_left _ (by simp [namespaces])) ?_ g3
      intro a ha
      rcases List.mem_append.1 ha with ha | ha
      · rcases List.mem_cons.1 ha with rfl | ha
        · exact .inl rfl
        · rcases List.mem_cons.1 ha with rfl | ha
          · exact .inr (.inl rfl)
          · cases ha
      · exact .inr (.inr (g2 a ha))

theorem usualRoot_map {f g : Str → Str} (h1 : g "http://autosar.org/schema/r4.0".toList = "http://autosar.org/schema/r4.0".toList)
    (h2 : g "http://www.w3.org/2001/XMLSchema-instance".toList = "http://www.w3.org/2001/XMLSchema-instance".toList) {e : El} (h : UsualRoot e) :
    UsualRoot (El.map f g e) := by
  cases h with
  | mk g1 g2 g3 g4 =>
    rw [El.map]
    refine .mk (List.mem_map.2 ⟨_, g1, by rw [h1]⟩) (List.mem_map.2 ⟨_, g2, by rw [h2]⟩) ?_ ?_
    · intro a ha
      obtain ⟨b, hb, rfl⟩ := List.mem_map.1 ha
      exact g3 b hb
    · intro k hk
      rw [maps_list] at hk
      obtain ⟨y, hy, rfl⟩ := List.mem_map.1 hk
      exact usual_map f g (g4 y hy)

theorem usualRoot_lay {e : El} (h : UsualRoot e) : UsualRoot (lay [] e) := by
  cases h with
  | @mk s tail as kids g1 g2 g3 g4 =>
    cases kids with
    | nil => rw [lay]; exact .mk g1 g2 g3 g4
    | cons y l => rw [lay]; exact .mk g1 g2 g3 (usual_lays _ _ (y :: l) g4)

theorem saved_usual {nc : NameChars} {x : Xml} (h : Every (NamedX nc) x) (ht : x.tag = k!"AUTOSAR") : UsualRoot (savedEl x) := by
  have h1 := usualRoot_lay (usualRoot_map (f := newlines) (g := id) rfl rfl (namespaced_root h ht))
  have h2 := usualRoot_map (f := newlines) (g := newlines) (by decide +kernel) (by decide +kernel) h1
  have h3 := usualRoot_map (f := id) (g := (·.map toBlank)) (by decide +kernel) (by decide +kernel) h2
  unfold savedEl
  generalize El.map id (·.map toBlank) (El.map newlines newlines (lay [] (El.map newlines id x.toEl.withNamespaces))) = e at h3 ⊢
  cases h3 with
  | mk g1 g2 g3 g4 => exact .mk g1 g2 g3 g4

end Verif.Lemmas
