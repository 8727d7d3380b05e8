import Verif.Lemmas.Rows
/-!
# Values: writing and reading one of them
-/
namespace Verif.Lemmas
open Verif Verif.Model Verif.Spec

/-! ## Sorting -/

section
variable {α β : Type}

theorem insertBy_map (key : β → String) (g : α → β) (x : α) (l : List α) :
    insertBy key (g x) (l.map g) = (insertBy (fun a => key (g a)) x l).map g := by
  induction l with
  | nil => rfl
  | cons y l ih =>
    simp only [List.map_cons, insertBy]
    split
    · rfl
    · rw [ih]; rfl

theorem sortBy_map (key : β → String) (g : α → β) (l : List α) :
    sortBy key (l.map g) = (sortBy (fun a => key (g a)) l).map g := by
  induction l with
  | nil => rfl
  | cons x l ih =>
    show insertBy key (g x) (sortBy key (l.map g)) = (insertBy _ x (sortBy _ l)).map g
    rw [ih, insertBy_map]

theorem insertBy_congr {key key' : α → String} (x : α) (l : List α) (h : ∀ a ∈ x :: l, key a = key' a) :
    insertBy key x l = insertBy key' x l := by
  induction l with
  | nil => rfl
  | cons y l ih =>
    simp only [insertBy]
    rw [h x (by simp), h y (by simp), ih fun a ha => h a (by
      rcases List.mem_cons.1 ha with rfl | ha
      · simp
      · simp [ha])]

theorem sortBy_congr {key key' : α → String} (l : List α) (h : ∀ a ∈ l, key a = key' a) : sortBy key l = sortBy key' l := by
  induction l with
  | nil => rfl
  | cons x l ih =>
    show insertBy key x (sortBy key l) = insertBy key' x (sortBy key' l)
    have e := ih fun a ha => h a (by simp [ha])
    rw [e]
    apply insertBy_congr
    intro a ha
    apply h
    rcases List.mem_cons.1 ha with rfl | ha
    · simp
    · simp [(sortBy_perm key' l).mem_iff.1 ha]

theorem sortBy_self {key : α → String} {l : List α} (h : l.Pairwise fun a b => key a ≤ key b) : sortBy key l = l := by
  induction l with
  | nil => rfl
  | cons x l ih =>
    rw [List.pairwise_cons] at h
    show insertBy key x (sortBy key l) = x :: l
    rw [ih h.2]
    cases l with
    | nil => rfl
    | cons y l => simp only [insertBy, h.1 y (by simp), if_true]

theorem sortBy_idem (key : α → String) (l : List α) : sortBy key (sortBy key l) = sortBy key l := sortBy_self (sortBy_sorted key l)
end

/-! ## Attributes and texts -/

section
variable {py : Py} {repr : py.F → Str} {strict : Bool}

theorem amap_rt : ∀ (m : AMap), ∀ e ∈ m.map, m.map.lookup e.1 = some e.2 ∧ m.map.find? (fun e' => e'.2 == e.2) = some e := by
  intro m
  cases m <;> decide

theorem attr_rt {ak : AKind} {wk : WAKind} (hf : ak.fits wk = true) {w : Str} {s : Scalar py.F}
    (h : readAttr py strict ak w = .ok (some s)) :
    ∃ w', writeAttr py strict wk s = .ok (some w') ∧ readAttr py strict ak w' = .ok (some s) := by
  cases ak with
  | raw =>
    cases wk <;> simp only [AKind.fits, Bool.false_eq_true] at hf
    simp only [readAttr, Except.ok.injEq, Option.some.injEq] at h
    subst h
    exact ⟨w, rfl, rfl⟩
  | lit =>
    cases wk <;> simp only [AKind.fits, Bool.false_eq_true] at hf
    simp only [readAttr, Except.ok.injEq, Option.some.injEq] at h
    subst h
    exact ⟨w, rfl, rfl⟩
  | mapped m =>
    cases wk <;> simp only [AKind.fits, Bool.false_eq_true, beq_iff_eq] at hf
    subst hf
    simp only [readAttr] at h
    split at h
    · rename_i e he
      simp only [Except.ok.injEq, Option.some.injEq] at h
      subst h
      obtain ⟨h1, h2⟩ := amap_rt m e (List.mem_of_find?_eq_some he)
      refine ⟨e.2, ?_, ?_⟩
      · simp only [writeAttr, h1]
      · simp only [readAttr, h2]
    · split at h <;> simp at h

theorem text_rt {rk : RKind} {wk : WAKind} (hf : rk.fitsText wk = true) {x : Xml} {s : Scalar py.F}
    (h : readKind py rk x = .ok (some s)) :
    ∃ w, writeAttr py strict wk s = .ok (some w) ∧ ∀ y : Xml, y.text = w → readKind py rk y = .ok (some s) := by
  cases rk <;> cases wk <;> simp only [RKind.fitsText, Bool.false_eq_true] at hf <;> simp only [readKind] at h <;> split at h <;>
    simp only [Except.ok.injEq, reduceCtorEq, Option.some.injEq] at h <;> subst h <;>
    refine ⟨x.text, rfl, fun y hy => ?_⟩ <;> simp only [readKind, hy] <;> exact if_neg ‹_›

theorem text_nil {rk : RKind} {wk : WAKind} (hf : rk.fitsText wk = true) {y : Xml} (h : y.text = []) :
    readKind py rk y = .ok none := by
  cases rk <;> cases wk <;> simp only [RKind.fitsText, Bool.false_eq_true] at hf <;> simp [readKind, h, blank]

end

/-! ## Elements -/

section
variable {py : Py} {repr : py.F → Str} {strict : Bool} {rd : Key → Xml → Except RErr (MObj py.F)} {C : Ctx} {o : MObj py.F}
  {M : Key → MObj py.F → Prop} {rows : List (Row py.F)}

theorem writeAttrOf_eq {n : Key} {k : WAKind} {s : Scalar py.F} {w : Str} (h : writeAttr py strict k s = .ok (some w))
    (vs : List (MObj py.F)) :
    writeAttrOf py strict n k (.scal s :: vs) = .ok { attrs := attrL py strict n k (.scal s :: vs) } := by
  simp [writeAttrOf, attrL, attrV, h, optAttr]

theorem writeTextOf_eq {k : WAKind} {s : Scalar py.F} {w : Str} (h : writeAttr py strict k s = .ok (some w))
    (vs : List (MObj py.F)) :
    writeTextOf py strict k (.scal s :: vs) = .ok { text := textL py strict k (.scal s :: vs) } := by
  simp [writeTextOf, textL, attrV, h, optText]

theorem attrFits_ok {i : Item} {k : WAKind} (hf : Ctx.attrFits i k = true) {v : MObj py.F} (ho : ValueOf M i v) :
    ∃ s w, v = .scal s ∧ writeAttr py strict k s = .ok (some w) := by
  cases i <;> simp only [Ctx.attrFits, Bool.false_eq_true] at hf
  · obtain ⟨x, s, hv, hs⟩ := ho.prim
    obtain ⟨w, hw, _⟩ := text_rt (strict := strict) hf hs
    exact ⟨s, w, hv, hw⟩
  · obtain ⟨w, s, hv, hs⟩ := ho.attr (strict := strict)
    obtain ⟨w', hw, _⟩ := attr_rt hf hs
    exact ⟨s, w', hv, hw⟩

/-- a value that is written and read with fitting accessors -/
theorem prim_rt (hneeds : ∀ n ∈ C.needs, n.ok strict o) {f : Key} {i : Item} {k : WKind} (hf : C.primFits f i k = true) {v : MObj py.F} (hv : v ∈ o.get f)
    (ho : ValueOf M i v) (t : Key) :
    ∃ y, writePrim py repr t k v = .ok y ∧ y.kids = [] ∧ readItem py strict rd i y = .ok [v] := by
  cases i <;> simp only [Ctx.primFits, Bool.false_eq_true] at hf
  · rename_i rk
    obtain ⟨x, s, rfl, hs⟩ := ho.prim
    simp only [Bool.or_eq_true, Bool.and_eq_true, beq_iff_eq, List.contains_iff_mem] at hf
    rcases hf with (hf | ⟨⟨h1, h2⟩, h3⟩) | ⟨⟨h1, h2⟩, h3⟩
    · obtain ⟨y, h1, _, h3, h4⟩ := kind_rt py repr rk k hf t x s hs
      exact ⟨y, h1, h3, by simp only [readItem, h4, scalars]⟩
    · subst h1 h2
      have hn := hneeds _ h3 _ hv
      simp only [readKind] at hs
      split at hs
      · rename_i p hp
        simp only [Except.ok.injEq, Option.some.injEq] at hs
        subst hs
        obtain ⟨w, hw, ht⟩ := hn
        refine ⟨_, rfl, rfl, ?_⟩
        rcases parseNum?_cases hp with ⟨_, h2⟩ | ⟨h1, h2, h3⟩
        · rw [h2] at ht; simp [PObj.new] at ht
        · have : p.text' repr = x.text := by simp [PObj.text', h2]
          simp only [readItem, readKind, leaf_text, this, hp, scalars]
      · cases hs
    · subst h1
      have hn := hneeds _ h3 _ hv
      simp only [readKind, Except.ok.injEq, Option.some.injEq] at hs
      subst hs
      obtain ⟨h4, h5⟩ := hn
      rw [h4, h5]
      rcases h2 with rfl | rfl <;> exact ⟨_, rfl, rfl, rfl⟩
  · rw [beq_iff_eq] at hf
    subst hf
    obtain ⟨w, hw, rfl⟩ := ho.name
    exact ⟨_, rfl, rfl, by simp [readItem, Xml.leaf, Xml.text, hw]⟩

theorem primK_eq {t : Key} {k : WKind} {v : MObj py.F} {y : Xml} (h : writePrim py repr t k v = .ok y) : primK py repr t k v = [y] := by
  simp only [primK, h]

/-- all values of an attribute -/
theorem prims_rt {vs : List (MObj py.F)} {t : Key} {k : WKind} {i : Item}
    (h : ∀ v ∈ vs, ∃ y, writePrim py repr t k v = .ok y ∧ y.kids = [] ∧ readItem py strict rd i y = .ok [v]) :
    mapE (writePrim py repr t k) vs = .ok (vs.flatMap (primK py repr t k)) ∧ (∀ y ∈ vs.flatMap (primK py repr t k), y.kids = []) ∧
      (vs.flatMap (primK py repr t k)).length = vs.length ∧
      mapE (readItem py strict rd i) (vs.flatMap (primK py repr t k)) = .ok (vs.map fun v => [v]) := by
  induction vs with
  | nil => exact ⟨rfl, by simp, rfl, rfl⟩
  | cons v vs ih =>
    obtain ⟨y, h1, h2, h3⟩ := h v (by simp)
    obtain ⟨h4, h5, h6, h7⟩ := ih fun u hu => h u (by simp [hu])
    rw [List.flatMap_cons, primK_eq h1]
    refine ⟨?_, ?_, ?_, ?_⟩
    · simp only [mapE, h1, h4, List.singleton_append]
    · intro z hz
      rcases List.mem_cons.1 hz with rfl | hz
      · exact h2
      · exact h5 z hz
    · simp only [List.singleton_append, List.length_cons, h6]
    · simp only [List.singleton_append, mapE, h3, h7, List.map_cons]

theorem map_single_flatten {α : Type} (l : List α) : (l.map fun v => [v]).flatten = l := by
  induction l with
  | nil => rfl
  | cons a l ih => simp [ih]

theorem ReloadAll_leaves {L L' : List Xml} (h : ReloadAll L L') (hk : ∀ y ∈ L, y.kids = []) : L' = L := by
  induction L generalizing L' with
  | nil => cases h; rfl
  | cons x l ih => cases h with
    | cons _ y _ _ h1 h2 => rw [h1.leaf_eq (hk x (by simp)), ih h2 fun y hy => hk y (by simp [hy])]

end
end Verif.Lemmas
