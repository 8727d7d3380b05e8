import Verif.Lemmas.Prim
import Verif.Model.Codec
import Verif.Spec.Scalar
/-!
# Lemmas about paths and scalar accessors
-/
namespace Verif.Lemmas
open Verif Verif.Model Verif.Spec Re

theorem strip_idem (py : Py) (s : Str) : py.strip (py.strip s) = py.strip s := by
  obtain ⟨_, _, _, _, _, h4⟩ := strip_spec py s
  have := strip_tight py (pre := []) (post := []) (by simp) (by simp) h4
  simpa using this

theorem parseNum_text {py : Py} {c : PObj.Cls} {s : Str} {o : PObj py.F} (h : parseNum py c s = .ok o) : o.text = some s := by
  simp only [parseNum, PObj.setValue, PObj.assign] at h
  cases hc : convert py s with
  | error e => rw [hc] at h; simp at h
  | ok n =>
    rw [hc] at h
    simp only [Except.ok.injEq] at h
    rw [← h]

theorem boolConvert_nil (py : Py) : ∃ e, PBool.convert py [] = .error e := by
  refine ⟨.valueError, ?_⟩
  have h : PBool.lower py [] = [] := rfl
  simp [PBool.convert, h, pyInt, Py.strip, takeSign, underscored]

theorem boolean_text {py : Py} {s : Str} {o : PBool.BObj} (h : PBool.setValue py PBool.new (.str s) = (o, none)) :
    o.text = some (py.strip s) ∧ py.strip s ≠ [] ∧ PBool.setValue py PBool.new (.str (py.strip s)) = (o, none) := by
  simp only [PBool.setValue, PBool.assign] at h ⊢
  rw [strip_idem]
  cases hc : PBool.convert py (py.strip s) with
  | error e => rw [hc] at h; simp at h
  | ok b =>
    rw [hc] at h
    simp only [Prod.mk.injEq, and_true] at h
    subst h
    refine ⟨rfl, ?_, rfl⟩
    intro h0
    obtain ⟨e, he⟩ := boolConvert_nil py
    rw [h0, he] at hc
    cases hc

theorem lookup_optAttr (k : Key) (o : Option Str) : (optAttr k o).lookup k = o := by
  cases o <;> simp [optAttr]

theorem lookup_optAttr_ne {k k' : Key} (h : k' ≠ k) (o : Option Str) (l : List (Key × Str)) :
    (optAttr k o ++ l).lookup k' = l.lookup k' := by
  cases o with
  | none => rfl
  | some v =>
    show List.lookup k' ((k, v) :: l) = _
    rw [List.lookup_cons, beq_eq_false_iff_ne.mpr h]

theorem attr_meta (tag : Key) (t u : Option Str) (l : List (Key × Str)) (s : Str) :
    (Xml.leaf tag (metaAttrs t u ++ l) s).attr k!"T" = (match t with | some v => some v | none => l.lookup k!"T") ∧
    (Xml.leaf tag (metaAttrs t u ++ l) s).attr k!"UUID" = (match u with | some v => some v | none => l.lookup k!"UUID") ∧
    ∀ k, k ≠ k!"T" → k ≠ k!"UUID" → (Xml.leaf tag (metaAttrs t u ++ l) s).attr k = l.lookup k := by
  refine ⟨?_, ?_, ?_⟩
  · cases t <;> cases u <;> simp [Xml.attr, Xml.leaf, Xml.attrs, metaAttrs, optAttr, List.lookup_cons]
  · cases t <;> cases u <;> simp [Xml.attr, Xml.leaf, Xml.attrs, metaAttrs, optAttr, List.lookup_cons]
  · intro k h1 h2
    show (metaAttrs t u ++ l).lookup k = l.lookup k
    rw [metaAttrs, List.append_assoc, lookup_optAttr_ne h1, lookup_optAttr_ne h2]

theorem attr_T (tag : Key) (t u : Option Str) (l : List (Key × Str)) (s : Str) (h : l.lookup k!"T" = none) :
    (Xml.leaf tag (metaAttrs t u ++ l) s).attr k!"T" = t := by
  rw [(attr_meta tag t u l s).1]; cases t <;> simp [h]

theorem attr_UUID (tag : Key) (t u : Option Str) (l : List (Key × Str)) (s : Str) (h : l.lookup k!"UUID" = none) :
    (Xml.leaf tag (metaAttrs t u ++ l) s).attr k!"UUID" = u := by
  rw [(attr_meta tag t u l s).2.1]; cases u <;> simp [h]

theorem attr_T' (tag : Key) (t u : Option Str) (s : Str) : (Xml.leaf tag (metaAttrs t u) s).attr k!"T" = t := by
  have := attr_T tag t u [] s rfl; rwa [List.append_nil] at this

theorem attr_UUID' (tag : Key) (t u : Option Str) (s : Str) : (Xml.leaf tag (metaAttrs t u) s).attr k!"UUID" = u := by
  have := attr_UUID tag t u [] s rfl; rwa [List.append_nil] at this

theorem leaf_text (tag : Key) (a : List (Key × Str)) (s : Str) : (Xml.leaf tag a s).text = s := rfl

theorem attr_sl (tag : Key) (t u sl : Option Str) (s : Str) (k : Key) (h1 : k ≠ k!"T") (h2 : k ≠ k!"UUID") :
    (Xml.leaf tag (metaAttrs t u ++ optAttr k sl) s).attr k = sl := by
  rw [(attr_meta tag t u _ s).2.2 k h1 h2, lookup_optAttr]

theorem attr_T_sl (tag : Key) (t u sl : Option Str) (s : Str) (k : Key) (h1 : k ≠ k!"T") :
    (Xml.leaf tag (metaAttrs t u ++ optAttr k sl) s).attr k!"T" = t := by
  refine attr_T tag t u _ s ?_
  cases sl with
  | none => rfl
  | some v =>
    simpa [optAttr] using Ne.symm h1

theorem attr_UUID_sl (tag : Key) (t u sl : Option Str) (s : Str) (k : Key) (h1 : k ≠ k!"UUID") :
    (Xml.leaf tag (metaAttrs t u ++ optAttr k sl) s).attr k!"UUID" = u := by
  refine attr_UUID tag t u _ s ?_
  cases sl with
  | none => rfl
  | some v =>
    simpa [optAttr] using Ne.symm h1

/-- a numerical object as the reader makes it: from a text, or new -/
theorem parseNum?_cases {py : Py} {c : PObj.Cls} {s : Str} {o : PObj py.F} (h : parseNum? py c s = .ok o) :
    (s = [] ∧ o = PObj.new) ∨ (s ≠ [] ∧ o.text = some s ∧ parseNum py c s = .ok o) := by
  unfold parseNum? at h
  split at h
  · rename_i h0; cases h; exact .inl ⟨h0, rfl⟩
  · rename_i h0; exact .inr ⟨h0, parseNum_text h, h⟩

/-- writing what was read and reading it again: the element has the tag, no children, and gives the same value -/
theorem kind_rt (py : Py) (repr : py.F → Str) (rk : RKind) (wk : WKind) (hf : rk.fits wk = true) (tag : Key) (x : Xml)
    (s : Scalar py.F) (h : readKind py rk x = .ok (some s)) :
    ∃ y, writeKind py repr wk tag s = .ok y ∧ y.tag = tag ∧ y.kids = [] ∧ readKind py rk y = .ok (some s) := by
  cases rk with
  | lit =>
    cases wk <;> simp only [RKind.fits, Bool.false_eq_true] at hf
    simp only [readKind, Except.ok.injEq, Option.some.injEq] at h
    subst h
    refine ⟨_, rfl, rfl, rfl, ?_⟩
    simp only [readKind, attr_T', attr_UUID', leaf_text]
  | litPlain =>
    simp only [readKind, Except.ok.injEq, Option.some.injEq] at h
    subst h
    cases wk <;> simp only [RKind.fits, Bool.false_eq_true] at hf <;> exact ⟨_, rfl, rfl, rfl, rfl⟩
  | litText =>
    simp only [readKind] at h
    split at h
    · simp at h
    rename_i h0
    simp only [Except.ok.injEq, Option.some.injEq] at h
    subst h
    cases wk <;> simp only [RKind.fits, Bool.false_eq_true] at hf
    refine ⟨_, rfl, rfl, rfl, ?_⟩
    simp only [readKind, leaf_text, h0, if_false]
  | litNonblank =>
    simp only [readKind] at h
    split at h
    · simp at h
    rename_i h0
    simp only [Except.ok.injEq, Option.some.injEq] at h
    subst h
    cases wk <;> simp only [RKind.fits, Bool.false_eq_true] at hf
    refine ⟨_, rfl, rfl, rfl, ?_⟩
    exact if_neg h0
  | revision =>
    simp only [readKind] at h
    split at h
    · simp at h
    rename_i h0
    split at h
    · rename_i h1
      simp only [Except.ok.injEq, Option.some.injEq] at h
      subst h
      cases wk <;> simp only [RKind.fits, Bool.false_eq_true] at hf
      refine ⟨_, rfl, rfl, rfl, ?_⟩
      simp only [readKind, leaf_text, attr_T', attr_UUID', h0, h1, if_true, if_false]
    · cases h
  | float =>
    simp only [readKind] at h
    split at h
    · simp at h
    rename_i h0
    split at h
    · rename_i o ho
      simp only [Except.ok.injEq, Option.some.injEq] at h
      subst h
      cases wk <;> simp only [RKind.fits, Bool.false_eq_true] at hf
      refine ⟨_, rfl, rfl, rfl, ?_⟩
      have ht : o.text' repr = x.text := by simp [PObj.text', parseNum_text ho]
      simp only [readKind, leaf_text, attr_T', attr_UUID', ht, h0, if_false, ho]
    · cases h
  | floats => cases wk <;> simp only [RKind.fits, Bool.false_eq_true] at hf
  | time =>
    simp only [readKind] at h
    split at h
    · simp at h
    rename_i h0
    split at h
    · rename_i o ho
      simp only [Except.ok.injEq, Option.some.injEq] at h
      subst h
      cases wk <;> simp only [RKind.fits, Bool.false_eq_true] at hf
      refine ⟨_, rfl, rfl, rfl, ?_⟩
      have ht : o.text' repr = x.text := by simp [PObj.text', parseNum_text ho]
      simp only [readKind, leaf_text, ht, h0, if_false, ho]
    · cases h
  | boolean =>
    simp only [readKind] at h
    split at h
    · simp at h
    split at h
    · rename_i o ho
      simp only [Except.ok.injEq, Option.some.injEq] at h
      subst h
      obtain ⟨h1, h2, h3⟩ := boolean_text ho
      cases wk <;> simp only [RKind.fits, Bool.false_eq_true] at hf
      refine ⟨_, rfl, rfl, rfl, ?_⟩
      have ht : PBool.text' o = py.strip x.text := by simp [PBool.text', h1]
      simp only [readKind, leaf_text, attr_T', ht, h2, if_false, h3]
    · cases h
  | numerical =>
    simp only [readKind] at h
    split at h
    · rename_i o ho
      simp only [Except.ok.injEq, Option.some.injEq] at h
      subst h
      cases wk <;> simp only [RKind.fits, Bool.false_eq_true] at hf
      refine ⟨_, rfl, rfl, rfl, ?_⟩
      have ht : optText (o.writtenNumerical repr) = x.text := by
        rcases parseNum?_cases ho with ⟨h1, h2⟩ | ⟨_, h2, _⟩
        · rw [h2, h1]; rfl
        · simp [PObj.writtenNumerical, h2, optText]
      simp only [readKind, leaf_text, ht, ho]
      rw [attr_T_sl _ _ _ _ _ _ (by decide), attr_UUID_sl _ _ _ _ _ _ (by decide), attr_sl _ _ _ _ _ _ (by decide) (by decide)]
    · cases h
  | integer =>
    simp only [readKind] at h
    split at h
    · rename_i o ho
      simp only [Except.ok.injEq, Option.some.injEq] at h
      subst h
      cases wk <;> simp only [RKind.fits, Bool.false_eq_true] at hf
      refine ⟨_, rfl, rfl, rfl, ?_⟩
      have ht : optText (o.writtenNumerical repr) = x.text := by
        rcases parseNum?_cases ho with ⟨h1, h2⟩ | ⟨_, h2, _⟩
        · rw [h2, h1]; rfl
        · simp [PObj.writtenNumerical, h2, optText]
      simp only [readKind, leaf_text, ht, ho]
      rw [attr_T_sl _ _ _ _ _ _ (by decide), attr_UUID_sl _ _ _ _ _ _ (by decide)]
    · cases h
  | positive =>
    simp only [readKind] at h
    split at h
    · simp at h
    rename_i h0
    split at h
    · rename_i o ho
      split at h
      · cases h
      rename_i hn
      simp only [Except.ok.injEq, Option.some.injEq] at h
      subst h
      have hn' : negative py o.value = false := by simpa using hn
      have ht : o.text' repr = x.text := by simp [PObj.text', parseNum_text ho]
      have ht' : optText (o.writtenNumerical repr) = x.text := by simp [PObj.writtenNumerical, parseNum_text ho, optText]
      cases wk <;> simp only [RKind.fits, Bool.false_eq_true] at hf
      · refine ⟨_, rfl, rfl, rfl, ?_⟩
        simp only [readKind, leaf_text, attr_T', attr_UUID', ht, h0, if_false, ho, hn', Bool.false_eq_true]
      · refine ⟨_, rfl, rfl, rfl, ?_⟩
        simp only [readKind, leaf_text, ht', h0, if_false, ho, hn', Bool.false_eq_true]
        rw [attr_T_sl _ _ _ _ _ _ (by decide), attr_UUID_sl _ _ _ _ _ _ (by decide)]
    · cases h
  | numericals =>
    simp only [readKind] at h
    split at h
    · rename_i o ho
      simp only [Except.ok.injEq, Option.some.injEq] at h
      subst h
      cases wk <;> simp only [RKind.fits, Bool.false_eq_true] at hf
      refine ⟨_, rfl, rfl, rfl, ?_⟩
      have ht : optText (o.writtenNumerical repr) = x.text := by
        rcases parseNum?_cases ho with ⟨h1, h2⟩ | ⟨_, h2, _⟩
        · rw [h2, h1]; rfl
        · simp [PObj.writtenNumerical, h2, optText]
      simp only [readKind, leaf_text, ht, ho]
    · cases h
  | limit =>
    simp only [readKind, Except.ok.injEq, Option.some.injEq] at h
    subst h
    cases wk <;> simp only [RKind.fits, Bool.false_eq_true] at hf
    refine ⟨_, rfl, rfl, rfl, ?_⟩
    simp only [readKind, leaf_text]
    rw [attr_T_sl _ _ _ _ _ _ (by decide), attr_UUID_sl _ _ _ _ _ _ (by decide), attr_sl _ _ _ _ _ _ (by decide) (by decide)]
  | ref =>
    simp only [readKind, Except.ok.injEq, Option.some.injEq] at h
    subst h
    cases wk <;> simp only [RKind.fits, Bool.false_eq_true] at hf
    refine ⟨_, rfl, rfl, rfl, ?_⟩
    simp only [readKind, leaf_text]
    cases x.attr k!"BASE" <;> cases x.attr k!"DEST" <;> simp [Xml.attr, Xml.leaf, Xml.attrs, optAttr, List.lookup_cons]
  | refTo d =>
    simp only [readKind] at h
    split at h
    · rename_i hd
      simp only [Except.ok.injEq, Option.some.injEq] at h
      subst h
      cases wk <;> simp only [RKind.fits, Bool.false_eq_true] at hf
      refine ⟨_, rfl, rfl, rfl, ?_⟩
      simp only [readKind, leaf_text]
      cases x.attr k!"BASE" <;> simp [Xml.attr, Xml.leaf, Xml.attrs, optAttr, List.lookup_cons]
    · cases h
  | refDest => cases wk <;> simp only [RKind.fits, Bool.false_eq_true] at hf
  | raw =>
    simp only [readKind] at h
    split at h
    · simp at h
    rename_i h0
    simp only [Except.ok.injEq, Option.some.injEq] at h
    subst h
    cases wk <;> simp only [RKind.fits, Bool.false_eq_true] at hf
    refine ⟨_, rfl, rfl, rfl, ?_⟩
    simp only [readKind, leaf_text, h0, if_false]
  | rawNonblank =>
    simp only [readKind] at h
    split at h
    · simp at h
    rename_i h0
    simp only [Except.ok.injEq, Option.some.injEq] at h
    subst h
    cases wk <;> simp only [RKind.fits, Bool.false_eq_true] at hf
    refine ⟨_, rfl, rfl, rfl, ?_⟩
    exact if_neg h0

/-! ## Paths -/

theorem filter_insert_neg {p : Xml → Bool} {z : Xml} (h : p z = false) (pre post : List Xml) :
    (pre ++ z :: post).filter p = (pre ++ post).filter p := by
  rw [List.filter_append, List.filter_append, List.filter_cons_of_neg (by simp [h])]

/-- selecting only looks at the children with the tags a path asks for -/
theorem walk_congr (t : Key) (ts : List Key) (x x' : Xml) (hk : x.kids.filter (tagIs t) = x'.kids.filter (tagIs t)) :
    walk (t :: ts) x = walk (t :: ts) x' := by
  simp only [walk, hk]

theorem pickKid_congr (ts : List Key) (x x' : Xml) (hk : ∀ t ∈ ts, x.kids.filter (tagIs t) = x'.kids.filter (tagIs t)) :
    pickKid ts x = pickKid ts x' := by
  induction ts with
  | nil => rfl
  | cons t ts ih =>
    simp only [pickKid]
    have h : x.kids.find? (tagIs t) = x'.kids.find? (tagIs t) := by
      have := congrArg List.head? (hk t (by simp))
      rwa [List.head?_filter, List.head?_filter] at this
    rw [h, ih (fun t ht => hk t (by simp [ht]))]

theorem select_congr (p : Path) (x x' : Xml) (hk : ∀ t ∈ heads p, x.kids.filter (tagIs t) = x'.kids.filter (tagIs t)) :
    (moves p = false ∧ select p x = [x] ∧ select p x' = [x']) ∨ select p x = select p x' := by
  induction p with
  | nil => exact .inl ⟨rfl, rfl, rfl⟩
  | all t r _ => right; simp only [select, hk t (by simp [heads])]
  | first ts r ih =>
    cases ts with
    | nil =>
      have := ih hk
      simpa only [select, walk, moves] using this
    | cons t ts => right; simp only [select, walk_congr t ts x x' (hk t (by simp [heads]))]
  | pick ts r _ => right; simp only [select, pickKid_congr ts x x' hk]
  | need p r ihp ihr =>
    have e : (select p x).isEmpty = (select p x').isEmpty := by
      rcases ihp (fun t ht => hk t (by simp [heads, ht])) with ⟨_, h1, h2⟩ | h
      · rw [h1, h2]; rfl
      · rw [h]
    simp only [select, e, moves]
    split
    · exact .inr rfl
    · exact ihr (fun t ht => hk t (by simp [heads, ht]))
  | lack p r ihp ihr =>
    have e : (select p x).isEmpty = (select p x').isEmpty := by
      rcases ihp (fun t ht => hk t (by simp [heads, ht])) with ⟨_, h1, h2⟩ | h
      · rw [h1, h2]; rfl
      · rw [h]
    simp only [select, e, moves]
    split
    · exact ihr (fun t ht => hk t (by simp [heads, ht]))
    · exact .inr rfl
  | alt p q ihp ihq =>
    have hp := ihp (fun t ht => hk t (by simp [heads, ht]))
    have hq := ihq (fun t ht => hk t (by simp [heads, ht]))
    have e : (select p x).isEmpty = (select p x').isEmpty := by
      rcases hp with ⟨_, h1, h2⟩ | h
      · rw [h1, h2]; rfl
      · rw [h]
    simp only [select, e, moves]
    split
    · rcases hq with ⟨h0, h1, h2⟩ | h
      · exact .inl ⟨by simp [h0], h1, h2⟩
      · exact .inr h
    · rcases hp with ⟨h0, h1, h2⟩ | h
      · exact .inl ⟨by simp [h0], h1, h2⟩
      · exact .inr h

theorem readKind_congr (py : Py) (k : RKind) (x x' : Xml) (ha : x.attrs = x'.attrs) (hs : x.text = x'.text) :
    readKind py k x = readKind py k x' := by
  have h : ∀ n, x.attr n = x'.attr n := fun n => by simp [Xml.attr, ha]
  cases k <;> simp only [readKind, h, hs]

theorem mapE_congr {α β ε : Type} {f g : α → Except ε β} {l : List α} (h : ∀ x ∈ l, f x = g x) : mapE f l = mapE g l := by
  induction l with
  | nil => rfl
  | cons x l ih => simp only [mapE, h x (by simp), ih fun y hy => h y (by simp [hy])]

/-- a slot only depends on the children it asks for -/
theorem readSlot_congr (py : Py) (strict : Bool) (rd : Key → Xml → Except RErr (MObj py.F)) (s : RSlot) (x x' : Xml)
    (ht : x.tag = x'.tag) (ha : x.attrs = x'.attrs) (hs : x.text = x'.text)
    (hm : deep s.item = true → moves s.path = true)
    (hk : ∀ t ∈ heads s.path, x.kids.filter (tagIs t) = x'.kids.filter (tagIs t)) :
    readSlot py strict rd x s = readSlot py strict rd x' s := by
  have e : mapE (readItem py strict rd s.item) (select s.path x) = mapE (readItem py strict rd s.item) (select s.path x') := by
    rcases select_congr s.path x x' hk with ⟨h0, h1, h2⟩ | h
    · rw [h1, h2]
      have hi : readItem py strict rd s.item x = readItem py strict rd s.item x' := by
        cases hi : s.item with
        | prim k => simp only [readItem, readKind_congr py k x x' ha hs]
        | attr n k => simp only [readItem, Xml.attr, ha]
        | name => simp only [readItem, hs]
        | objs alts => rw [hm (by rw [hi]; rfl)] at h0; cases h0
        | guard tags g => simp only [readItem, ht]
        | want t e => rw [hm (by rw [hi]; rfl)] at h0; cases h0
        | crash e => rfl
      simp only [mapE, hi]
    · rw [h]
  simp only [readSlot, e]

end Verif.Lemmas
