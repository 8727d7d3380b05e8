import Verif.Lemmas.Locate
import Verif.Spec.Built
/-!
# The attributes of an object that was read
-/
namespace Verif.Lemmas
open Verif Verif.Model Verif.Spec

/-- one slot: the values that were read, the values read after saving, the elements written for them -/
structure Row (F : Type) where
  s : RSlot
  plan : Plan
  vs : List (MObj F)
  vs' : List (MObj F)
  ys : List Xml

section
variable {py : Py} (repr : py.F → Str) (strict : Bool) (rd : Key → Xml → Except RErr (MObj py.F))

/-- the value was made from an element -/
def Origin (i : Item) (v : MObj py.F) : Prop := ∃ y l, readItem py strict rd i y = .ok l ∧ v ∈ l

/-- what is known about an object that fits -/
structure Facts (M : Key → MObj py.F → Prop) (C : Ctx) (o : MObj py.F) (rows : List (Row py.F)) : Prop where
  cls : o.cls = C.cls
  needs : ∀ n ∈ C.needs, n.ok strict o
  fields : o.fields = rows.map fun r => (r.s.key, r.vs)
  slots : C.slots = rows.map Row.s
  org : ∀ r ∈ rows, ∀ v ∈ r.vs, ValueOf M r.s.item v
  one : ∀ r ∈ rows, Ctx.atMost1 r.s = true → r.vs.length ≤ 1
  cl : ∀ k v, M k v → C.cl k = some v.cls
end

/-! ## Values of the items -/

section
variable {py : Py} {repr : py.F → Str} {strict : Bool} {rd : Key → Xml → Except RErr (MObj py.F)} {v : MObj py.F}

theorem scalars_ok {r : Except PyErr (Option (Scalar py.F))} {l : List (MObj py.F)} (h : scalars r = .ok l) (hv : v ∈ l) :
    ∃ s, v = .scal s ∧ r = .ok (some s) ∧ l = [.scal s] := by
  match r, h with
  | .ok (some s), h =>
    cases h
    rw [List.mem_singleton] at hv
    exact ⟨s, hv, rfl, rfl⟩
  | .ok none, h => cases h; cases hv
  | .error _, h => cases h

theorem Origin.prim {k : RKind} (h : Origin strict rd (.prim k) v) : ∃ x s, v = .scal s ∧ readKind py k x = .ok (some s) := by
  obtain ⟨y, l, h, hv⟩ := h
  obtain ⟨s, h1, h2, _⟩ := scalars_ok h hv
  exact ⟨y, s, h1, h2⟩

theorem Origin.attr {n : Key} {k : AKind} (h : Origin strict rd (.attr n k) v) :
    ∃ w s, v = .scal s ∧ readAttr py strict k w = .ok (some s) := by
  obtain ⟨y, l, h, hv⟩ := h
  simp only [readItem] at h
  split at h
  · cases h; cases hv
  · rename_i w _
    obtain ⟨s, h1, h2, _⟩ := scalars_ok h hv
    exact ⟨w, s, h1, h2⟩

theorem Origin.name (h : Origin strict rd .name v) : ∃ w, w ≠ [] ∧ v = .scal (.str w) := by
  obtain ⟨y, l, h, hv⟩ := h
  simp only [readItem] at h
  split at h
  · cases h
  · cases h
    rw [List.mem_singleton] at hv
    exact ⟨y.text, ‹_›, hv⟩

theorem Origin.objs {alts : List (Key × Key)} (h : Origin strict rd (.objs alts) v) :
    ∃ t k y, altOf alts t = some k ∧ rd k y = .ok v := by
  obtain ⟨y, l, h, hv⟩ := h
  simp only [readItem] at h
  split at h
  · cases h; cases hv
  · rename_i k hk
    split at h
    · cases h
    · rename_i o ho
      cases h
      rw [List.mem_singleton] at hv
      subst hv
      exact ⟨_, k, y, hk, ho⟩

theorem altOf_mem {alts : List (Key × Key)} {t k : Key} (h : altOf alts t = some k) : ∃ t', (t', k) ∈ alts := by
  induction alts with
  | nil => cases h
  | cons a alts ih =>
    obtain ⟨t', k'⟩ := a
    simp only [altOf] at h
    split at h
    · cases h; exact ⟨t', by simp⟩
    · obtain ⟨t'', h⟩ := ih h
      exact ⟨t'', by simp [h]⟩

theorem Origin.guard {tags : List Key} {g : GErr} (h : Origin strict rd (.guard tags g) v) : False := by
  obtain ⟨y, l, h, hv⟩ := h
  simp only [readItem] at h
  split at h
  · cases h; cases hv
  · split at h <;> cases h <;> cases hv

theorem Origin.want {t : Key} {e : PyErr} (h : Origin strict rd (.want t e) v) : False := by
  obtain ⟨y, l, h, hv⟩ := h
  simp only [readItem] at h
  split at h <;> cases h
  cases hv

theorem Origin.crash {e : PyErr} (h : Origin strict rd (.crash e) v) : False := by
  obtain ⟨y, l, h, hv⟩ := h
  cases h

/-! ## Values that fit -/

theorem scalarOf_readKind {k : RKind} {s : Scalar py.F} : ScalarOf py k s ↔ ∃ x, readKind py k x = .ok (some s) := by
  constructor
  · intro h
    cases k with
    | lit => obtain ⟨t, u, v, rfl⟩ := h; exact ⟨.leaf 0 (metaAttrs t u) v, by simp only [readKind, attr_T', attr_UUID', leaf_text]⟩
    | litPlain => obtain ⟨v, rfl⟩ := h; exact ⟨.leaf 0 [] v, rfl⟩
    | litText => obtain ⟨v, hv, rfl⟩ := h; exact ⟨.leaf 0 [] v, if_neg hv⟩
    | litNonblank => obtain ⟨v, hv, rfl⟩ := h; exact ⟨.leaf 0 [] v, by simp [readKind, leaf_text, hv]⟩
    | revision =>
      obtain ⟨t, u, v, hv, hr, rfl⟩ := h
      exact ⟨.leaf 0 (metaAttrs t u) v, by simp only [readKind, attr_T', attr_UUID', leaf_text, if_neg hv, hr, if_true]⟩
    | float =>
      obtain ⟨t, u, w, o, hw, hp, rfl⟩ := h
      exact ⟨.leaf 0 (metaAttrs t u) w, by simp only [readKind, attr_T', attr_UUID', leaf_text, if_neg hw, hp]⟩
    | floats => obtain ⟨w, o, hp, rfl⟩ := h; exact ⟨.leaf 0 [] w, by simp only [readKind, leaf_text, hp]⟩
    | time => obtain ⟨w, o, hw, hp, rfl⟩ := h; exact ⟨.leaf 0 [] w, by simp only [readKind, leaf_text, if_neg hw, hp]⟩
    | boolean =>
      obtain ⟨t, w, o, hw, hp, rfl⟩ := h
      exact ⟨.leaf 0 (metaAttrs t none) w, by simp only [readKind, attr_T', leaf_text, if_neg hw, hp]⟩
    | numerical =>
      obtain ⟨t, u, sl, w, o, hp, rfl⟩ := h
      exact ⟨.leaf 0 (metaAttrs t u ++ optAttr k!"SHORT-LABEL" sl) w, by
        simp only [readKind, attr_T_sl 0 t u sl w k!"SHORT-LABEL" (by decide), attr_UUID_sl 0 t u sl w k!"SHORT-LABEL" (by decide),
          attr_sl 0 t u sl w k!"SHORT-LABEL" (by decide) (by decide), leaf_text, hp]⟩
    | integer =>
      obtain ⟨t, u, w, o, hp, rfl⟩ := h
      exact ⟨.leaf 0 (metaAttrs t u) w, by simp only [readKind, attr_T', attr_UUID', leaf_text, hp]⟩
    | positive =>
      obtain ⟨t, u, w, o, hw, hp, hn, rfl⟩ := h
      exact ⟨.leaf 0 (metaAttrs t u) w, by simp only [readKind, attr_T', attr_UUID', leaf_text, if_neg hw, hp, hn, Bool.false_eq_true, if_false]⟩
    | numericals => obtain ⟨w, o, hp, rfl⟩ := h; exact ⟨.leaf 0 [] w, by simp only [readKind, leaf_text, hp]⟩
    | limit =>
      obtain ⟨t, u, iv, v, rfl⟩ := h
      exact ⟨.leaf 0 (metaAttrs t u ++ optAttr k!"INTERVAL-TYPE" iv) v, by
        simp only [readKind, attr_T_sl 0 t u iv v k!"INTERVAL-TYPE" (by decide), attr_UUID_sl 0 t u iv v k!"INTERVAL-TYPE" (by decide),
          attr_sl 0 t u iv v k!"INTERVAL-TYPE" (by decide) (by decide), leaf_text]⟩
    | ref =>
      obtain ⟨b, d, v, rfl⟩ := h
      refine ⟨.leaf 0 (optAttr k!"BASE" b ++ optAttr k!"DEST" d) v, ?_⟩
      cases b <;> cases d <;> rfl
    | refTo d =>
      obtain ⟨b, v, rfl⟩ := h
      refine ⟨.leaf 0 (optAttr k!"BASE" b ++ optAttr k!"DEST" (some d)) v, ?_⟩
      cases b <;> simp [readKind, Xml.attr, Xml.leaf, Xml.attrs, Xml.text, optAttr, List.lookup]
    | refDest =>
      obtain ⟨d, hd, rfl⟩ := h
      cases d with
      | none => exact ⟨.leaf 0 [] [], rfl⟩
      | some v =>
        have hv : (Xml.leaf 0 [] v).text ≠ [] := fun h => hd (congrArg some h)
        exact ⟨.leaf 0 [] v, by simp only [readKind, if_neg hv]; rfl⟩
    | raw => obtain ⟨v, hv, rfl⟩ := h; exact ⟨.leaf 0 [] v, if_neg hv⟩
    | rawNonblank => obtain ⟨v, hv, rfl⟩ := h; exact ⟨.leaf 0 [] v, by simp [readKind, leaf_text, hv]⟩
  · rintro ⟨x, h⟩
    cases k <;> simp only [readKind] at h <;> simp only [ScalarOf]
    case lit => cases h; exact ⟨_, _, _, rfl⟩
    case litPlain => cases h; exact ⟨_, rfl⟩
    case litText => split at h <;> cases h; exact ⟨_, ‹_›, rfl⟩
    case litNonblank =>
      split at h <;> cases h
      rename_i hb
      exact ⟨_, by simpa using hb, rfl⟩
    case revision =>
      split at h
      · cases h
      · split at h <;> cases h
        exact ⟨_, _, _, ‹_›, ‹_›, rfl⟩
    case float =>
      split at h
      · cases h
      · split at h <;> cases h
        exact ⟨_, _, _, _, ‹_›, ‹_›, rfl⟩
    case floats => split at h <;> cases h; exact ⟨_, _, ‹_›, rfl⟩
    case time =>
      split at h
      · cases h
      · split at h <;> cases h
        exact ⟨_, _, ‹_›, ‹_›, rfl⟩
    case boolean =>
      split at h
      · cases h
      · split at h <;> cases h
        exact ⟨_, _, _, ‹_›, ‹_›, rfl⟩
    case numerical => split at h <;> cases h; exact ⟨_, _, _, _, _, ‹_›, rfl⟩
    case integer => split at h <;> cases h; exact ⟨_, _, _, _, ‹_›, rfl⟩
    case positive =>
      split at h
      · cases h
      · split at h
        · split at h <;> cases h
          rename_i hn
          exact ⟨_, _, _, _, ‹_›, ‹_›, by simpa using hn, rfl⟩
        · cases h
    case numericals => split at h <;> cases h; exact ⟨_, _, ‹_›, rfl⟩
    case limit => cases h; exact ⟨_, _, _, _, rfl⟩
    case ref => cases h; exact ⟨_, _, _, rfl⟩
    case refTo => split at h <;> cases h; exact ⟨_, _, rfl⟩
    case refDest =>
      cases h
      refine ⟨_, ?_, rfl⟩
      split
      · simp
      · rename_i hx; simpa using hx
    case raw => split at h <;> cases h; exact ⟨_, ‹_›, rfl⟩
    case rawNonblank =>
      split at h <;> cases h
      rename_i hb
      exact ⟨_, by simpa using hb, rfl⟩

theorem attrOf_readAttr {k : AKind} {s : Scalar py.F} : AttrOf py k s ↔ ∃ w, readAttr py strict k w = .ok (some s) := by
  cases k with
  | raw =>
    constructor
    · rintro ⟨v, rfl⟩; exact ⟨v, rfl⟩
    · rintro ⟨v, h⟩; cases h; exact ⟨v, rfl⟩
  | lit =>
    constructor
    · rintro ⟨v, rfl⟩; exact ⟨v, rfl⟩
    · rintro ⟨v, h⟩; cases h; exact ⟨v, rfl⟩
  | mapped m =>
    constructor
    · rintro ⟨e, he, rfl⟩
      refine ⟨e.2, ?_⟩
      have : m.map.find? (fun a => a.2 == e.2) = some e := by
        revert e
        cases m <;> decide
      simp only [readAttr, this]
    · rintro ⟨v, h⟩
      simp only [readAttr] at h
      split at h
      · rename_i e he
        cases h
        exact ⟨e, List.mem_of_find?_eq_some he, rfl⟩
      · split at h <;> cases h

variable {M : Key → MObj py.F → Prop}

theorem _root_.Verif.Spec.ValueOf.prim {k : RKind} (h : ValueOf M (.prim k) v) : ∃ x s, v = .scal s ∧ readKind py k x = .ok (some s) := by
  obtain ⟨s, hv, hs⟩ := h
  obtain ⟨x, hx⟩ := scalarOf_readKind.1 hs
  exact ⟨x, s, hv, hx⟩

theorem _root_.Verif.Spec.ValueOf.attr {n : Key} {k : AKind} (h : ValueOf M (.attr n k) v) :
    ∃ w s, v = .scal s ∧ readAttr py strict k w = .ok (some s) := by
  obtain ⟨s, hv, hs⟩ := h
  obtain ⟨x, hx⟩ := attrOf_readAttr.1 hs
  exact ⟨x, s, hv, hx⟩

theorem _root_.Verif.Spec.ValueOf.name (h : ValueOf M .name v) : ∃ w, w ≠ [] ∧ v = .scal (.str w) := h

theorem _root_.Verif.Spec.ValueOf.objs {alts : List (Key × Key)} (h : ValueOf M (.objs alts) v) : ∃ t k, altOf alts t = some k ∧ M k v := h

theorem _root_.Verif.Spec.ValueOf.guard {tags : List Key} {g : GErr} (h : ValueOf M (.guard tags g) v) : False := h

theorem _root_.Verif.Spec.ValueOf.want {t : Key} {e : PyErr} (h : ValueOf M (.want t e) v) : False := h

theorem _root_.Verif.Spec.ValueOf.crash {e : PyErr} (h : ValueOf M (.crash e) v) : False := h

/-- what was read fits -/
theorem Origin.value (hM : ∀ k y v, rd k y = .ok v → M k v) {i : Item} (h : Origin strict rd i v) : ValueOf M i v := by
  cases i with
  | prim k => obtain ⟨x, s, hv, hs⟩ := h.prim; exact ⟨s, hv, scalarOf_readKind.2 ⟨x, hs⟩⟩
  | attr n k => obtain ⟨x, s, hv, hs⟩ := h.attr; exact ⟨s, hv, attrOf_readAttr.2 ⟨x, hs⟩⟩
  | name => exact h.name
  | objs alts => obtain ⟨t, k, y, hk, hy⟩ := h.objs; exact ⟨t, k, hk, hM k y v hy⟩
  | guard tags g => exact h.guard.elim
  | want t e => exact h.want.elim
  | crash e => exact h.crash.elim

/-! ## Reading a slot -/

theorem mapE_ok {α β ε : Type} {f : α → Except ε β} {l : List α} {ys : List β} (h : mapE f l = .ok ys) :
    List.Forall₂ (fun a y => f a = .ok y) l ys := by
  induction l generalizing ys with
  | nil => cases h; exact .nil
  | cons a l ih =>
    simp only [mapE] at h
    split at h
    · cases h
    · rename_i y hy
      split at h
      · cases h
      · rename_i ys' hys
        cases h
        exact .cons hy (ih hys)

theorem mapE_of {α β ε : Type} {f : α → Except ε β} {l : List α} {ys : List β} (h : List.Forall₂ (fun a y => f a = .ok y) l ys) :
    mapE f l = .ok ys := by
  induction h with
  | nil => rfl
  | cons h1 _ ih => simp only [mapE, h1, ih]

theorem readItem_length {i : Item} {y : Xml} {l : List (MObj py.F)} (h : readItem py strict rd i y = .ok l) : l.length ≤ 1 := by
  have hs : ∀ r : Except PyErr (Option (Scalar py.F)), scalars r = .ok l → l.length ≤ 1 := by
    intro r h
    match r, h with
    | .ok (some s), h => cases h; simp
    | .ok none, h => cases h; simp
    | .error _, h => cases h
  cases i <;> simp only [readItem] at h
  · exact hs _ h
  · split at h
    · cases h; simp
    · exact hs _ h
  · split at h <;> cases h; simp
  · split at h
    · cases h; simp
    · split at h <;> cases h; simp
  · split at h
    · cases h; simp
    · split at h <;> cases h <;> simp
  · split at h <;> cases h; simp
  · cases h

theorem select_single (p : Path) (hp : p.single = true) (x : Xml) : (select p x).length ≤ 1 := by
  induction p generalizing x with
  | nil => simp [select]
  | all => cases hp
  | first ts r ih =>
    simp only [select]
    split
    · simp
    · exact ih hp _
  | pick ts r ih =>
    simp only [select]
    split
    · simp
    · exact ih hp _
  | need p r _ ih =>
    simp only [select]
    split
    · simp
    · exact ih hp _
  | lack p r _ ih =>
    simp only [select]
    split
    · exact ih hp _
    · simp
  | alt p q ihp ihq =>
    simp only [Path.single, Bool.and_eq_true] at hp
    simp only [select]
    split
    · exact ihq hp.2 _
    · exact ihp hp.1 _

theorem keepLast_mem {α : Type} {l : List α} {a : α} (h : a ∈ keepLast l) : a ∈ l := by
  unfold keepLast at h
  split at h
  · cases h
  · rename_i v hv
    rw [List.mem_singleton] at h
    subst h
    exact List.mem_of_getLast? hv

theorem keepLast_length {α : Type} (l : List α) : (keepLast l).length ≤ 1 := by
  unfold keepLast; split <;> simp

theorem keepLast_one {α : Type} {l : List α} (h : l.length ≤ 1) : keepLast l = l := by
  match l, h with
  | [], _ => rfl
  | [a], _ => rfl

theorem flatten_length {α : Type} {l : List (List α)} (h : ∀ a ∈ l, a.length ≤ 1) : l.flatten.length ≤ l.length := by
  induction l with
  | nil => simp
  | cons a l ih =>
    have := h a (by simp)
    have := ih fun b hb => h b (by simp [hb])
    simp only [List.flatten_cons, List.length_append, List.length_cons]
    omega

/-- what is made of the values of a slot in the end -/
theorem readSlot_req {x : Xml} {s : RSlot} {ls : List (List (MObj py.F))} {vs : List (MObj py.F)}
    (hm : mapE (readItem py strict rd s.item) (select s.path x) = .ok ls) (hv : (if s.last then keepLast ls.flatten else ls.flatten) = vs)
    (hr : vs = [] → s.req ≠ .always ∧ (s.req = .strict → strict = false)) : readSlot py strict rd x s = .ok vs := by
  simp only [readSlot, hm, hv]
  cases vs with
  | cons a vs => cases s.req <;> rfl
  | nil =>
    obtain ⟨h1, h2⟩ := hr rfl
    cases hq : s.req with
    | no => rfl
    | always => exact absurd hq h1
    | strict => simp [h2 hq]

theorem readSlot_ok {x : Xml} {s : RSlot} {vs : List (MObj py.F)} (h : readSlot py strict rd x s = .ok vs) :
    ∃ ls, mapE (readItem py strict rd s.item) (select s.path x) = .ok ls ∧ (if s.last then keepLast ls.flatten else ls.flatten) = vs ∧
      (vs = [] → s.req ≠ .always ∧ (s.req = .strict → strict = false)) := by
  simp only [readSlot] at h
  split at h
  · cases h
  · rename_i ls hls
    refine ⟨ls, hls, ?_⟩
    generalize (if s.last then keepLast ls.flatten else ls.flatten) = us at h
    cases us with
    | cons a us =>
      have : vs = a :: us := by cases hq : s.req <;> simp only [hq] at h <;> cases h <;> rfl
      subst this
      exact ⟨rfl, fun h0 => by cases h0⟩
    | nil =>
      cases hq : s.req with
      | no => simp only [hq] at h; cases h; exact ⟨rfl, fun _ => ⟨by simp, by simp⟩⟩
      | always => simp only [hq] at h; cases h
      | strict =>
        simp only [hq] at h
        split at h
        · cases h
        · rename_i hst
          cases h; exact ⟨rfl, fun _ => ⟨by simp, fun _ => by simpa using hst⟩⟩

theorem readSlot_origin {x : Xml} {s : RSlot} {vs : List (MObj py.F)} (h : readSlot py strict rd x s = .ok vs) :
    ∀ v ∈ vs, Origin strict rd s.item v := by
  obtain ⟨ls, hls, hv, _⟩ := readSlot_ok h
  have hall : ∀ l ∈ ls, ∃ y, readItem py strict rd s.item y = .ok l := by
    have := mapE_ok hls
    clear hls hv
    generalize select s.path x = L at this
    induction this with
    | nil => intro l hl; cases hl
    | cons h1 _ ih =>
      intro l hl
      rcases List.mem_cons.1 hl with rfl | hl
      · exact ⟨_, h1⟩
      · exact ih l hl
  intro v hv'
  have : v ∈ ls.flatten := by
    rw [← hv] at hv'
    split at hv'
    · exact keepLast_mem hv'
    · exact hv'
  obtain ⟨l, hl, hvl⟩ := List.mem_flatten.1 this
  obtain ⟨y, hy⟩ := hall l hl
  exact ⟨y, l, hy, hvl⟩

theorem readSlot_one {x : Xml} {s : RSlot} {vs : List (MObj py.F)} (h : readSlot py strict rd x s = .ok vs)
    (h1 : Ctx.atMost1 s = true) : vs.length ≤ 1 := by
  obtain ⟨ls, hls, hv, hq⟩ := readSlot_ok h
  clear hq h
  subst hv
  split
  · exact keepLast_length _
  · rename_i hl
    simp only [Ctx.atMost1, hl, Bool.or_false] at h1
    have hm := mapE_ok hls
    have hlen : ls.length ≤ 1 := by
      rw [← hm.length_eq]; exact select_single _ h1 _
    have hall : ∀ l ∈ ls, l.length ≤ 1 := by
      clear hls hlen
      generalize select s.path x = L at hm
      induction hm with
      | nil => intro l hl; cases hl
      | cons h1 _ ih =>
        intro l hl
        rcases List.mem_cons.1 hl with rfl | hl
        · exact readItem_length h1
        · exact ih l hl
    exact Nat.le_trans (flatten_length hall) hlen

end

/-! ## What is known about an object -/

section
variable {py : Py} {repr : py.F → Str} {strict : Bool} {M : Key → MObj py.F → Prop} {C : Ctx} {o : MObj py.F}
  {rows : List (Row py.F)}

theorem Facts.get (h : Facts strict M C o rows) (f : Key) :
    o.get f = rows.flatMap fun r => if hits f r.s.key then r.vs else [] := by
  rw [MObj.get, h.fields, List.flatMap_map]

theorem Facts.mem_get (h : Facts strict M C o rows) {r : Row py.F} (hr : r ∈ rows) {f : Key} (hf : hits f r.s.key = true)
    {v : MObj py.F} (hv : v ∈ r.vs) : v ∈ o.get f := by
  rw [h.get]
  exact List.mem_flatMap.2 ⟨r, hr, by simpa [hf] using hv⟩

theorem Facts.of_get (h : Facts strict M C o rows) {f : Key} {v : MObj py.F} (hv : v ∈ o.get f) :
    ∃ r ∈ rows, hits f r.s.key = true ∧ v ∈ r.vs := by
  rw [h.get] at hv
  obtain ⟨r, hr, hv⟩ := List.mem_flatMap.1 hv
  split at hv
  · exact ⟨r, hr, ‹_›, hv⟩
  · cases hv

theorem Facts.gone (h : Facts strict M C o rows) {r : Row py.F} (hr : r ∈ rows) {v : MObj py.F} (hv : v ∈ r.vs) :
    C.gone r.s v.cls = false := by
  rw [Bool.eq_false_iff]
  intro hg
  obtain ⟨n, hn, hg⟩ := List.any_eq_true.1 hg
  cases n with
  | never g d =>
    simp only [Bool.and_eq_true, beq_iff_eq] at hg
    exact h.needs _ hn v (h.mem_get hr hg.2 hv) hg.1.symm
  | _ => simp at hg

/-- an object in an attribute was read with one of the methods of the slot -/
theorem Facts.alt (h : Facts strict M C o rows) {r : Row py.F} (hr : r ∈ rows) {v : MObj py.F} (hv : v ∈ r.vs)
    {alts : List (Key × Key)} (hi : r.s.item = .objs alts) : ∃ t k, (t, k) ∈ alts ∧ M k v ∧ C.cl k = some v.cls := by
  have ho := h.org r hr v hv
  rw [hi] at ho
  obtain ⟨t, k, hk, hy⟩ := ho.objs
  obtain ⟨t', ht'⟩ := altOf_mem hk
  exact ⟨t', k, ht', hy, h.cl k v hy⟩

theorem Facts.feeds (h : Facts strict M C o rows) {r : Row py.F} (hr : r ∈ rows) {f : Key} {w : List Key}
    (hf : hits f r.s.key = true) {v : MObj py.F} (hv : v ∈ r.vs) (hw : inView w v.cls = true) : C.feeds f w r.s = true := by
  simp only [Ctx.feeds, hf, Bool.true_and]
  have ho := h.org r hr v hv
  cases hi : r.s.item with
  | prim k => rfl
  | attr n k => rfl
  | name => rfl
  | guard t g => rw [hi] at ho; exact ho.guard.elim
  | want t e => rw [hi] at ho; exact ho.want.elim
  | crash e => rw [hi] at ho; exact ho.crash.elim
  | objs alts =>
    obtain ⟨t, k, ha, _, hc⟩ := h.alt hr hv hi
    show alts.any (C.shows w r.s) = true
    refine List.any_eq_true.2 ⟨(t, k), ha, ?_⟩
    simp [Ctx.shows, hc, hw, h.gone hr hv]

theorem Facts.dead (h : Facts strict M C o rows) {f : Key} {w : List Key} (hd : C.dead f w = true) : o.view f w = [] := by
  rw [view_eq, List.filter_eq_nil_iff]
  intro v hv hw
  simp only [Ctx.dead, Bool.or_eq_true, Bool.not_eq_true'] at hd
  rcases hd with hd | hd
  · obtain ⟨n, hn, hd⟩ := List.any_eq_true.1 hd
    cases n with
    | empty g =>
      simp only [beq_iff_eq] at hd
      subst hd
      have := h.needs _ hn
      rw [show o.get g = [] from this] at hv
      cases hv
    | _ => simp at hd
  · obtain ⟨r, hr, hf, hv⟩ := h.of_get hv
    rw [List.any_eq_false] at hd
    exact hd r.s (by rw [h.slots]; exact List.mem_map_of_mem hr) (h.feeds hr hf hv hw)

theorem Facts.hollow (h : Facts strict M C o rows) {r : Row py.F} (hr : r ∈ rows) (hd : C.hollow r.s = true) : r.vs = [] := by
  rw [List.eq_nil_iff_forall_not_mem]
  intro v hv
  simp only [Ctx.hollow, Bool.or_eq_true] at hd
  rcases hd with hd | hd
  · obtain ⟨n, hn, hd⟩ := List.any_eq_true.1 hd
    cases n with
    | empty g =>
      have := h.needs _ hn
      have hv := h.mem_get hr hd hv
      rw [show o.get g = [] from this] at hv
      cases hv
    | _ => simp at hd
  · split at hd
    · rename_i alts hi
      obtain ⟨t, k, ha, _, hc⟩ := h.alt hr hv hi
      have := List.all_eq_true.1 hd _ ha
      simp only [hc, h.gone hr hv, Bool.false_eq_true] at this
    · cases hd

/-- everything in the slot is in the view -/
theorem Facts.inView (h : Facts strict M C o rows) {r : Row py.F} (hr : r ∈ rows) {f : Key} {w : List Key}
    (hs : C.sole f w r.s = true) (hw : w = [] ∨ ∃ alts, r.s.item = .objs alts) : ∀ v ∈ r.vs, inView w v.cls = true := by
  intro v hv
  rcases hw with rfl | ⟨alts, hi⟩
  · rfl
  · simp only [Ctx.sole, hi, Bool.and_eq_true] at hs
    obtain ⟨t, k, ha, _, hc⟩ := h.alt hr hv hi
    have := List.all_eq_true.1 hs.2 _ ha
    simpa only [hc, h.gone hr hv, Bool.or_false] using this

theorem Facts.unique (h : Facts strict M C o rows) {r : Row py.F} (hr : r ∈ rows) {f : Key} {w : List Key}
    (hf : C.feeds f w r.s = true) (h1 : (C.slots.filter (C.feeds f w)).length = 1) :
    rows.filter (fun r => C.feeds f w r.s) = [r] := by
  have hlen : (rows.filter fun r => C.feeds f w r.s).length = 1 := by
    rw [h.slots, List.filter_map, List.length_map] at h1
    exact h1
  have hm : r ∈ rows.filter fun r => C.feeds f w r.s := List.mem_filter.2 ⟨hr, hf⟩
  generalize rows.filter (fun r => C.feeds f w r.s) = l at *
  obtain ⟨a, rfl⟩ := List.length_eq_one_iff.1 hlen
  rw [List.mem_singleton] at hm
  rw [hm]

theorem sole_feeds {f : Key} {w : List Key} {s : RSlot} (h : C.sole f w s = true) :
    C.feeds f w s = true ∧ (C.slots.filter (C.feeds f w)).length = 1 := by
  simp only [Ctx.sole, Bool.and_eq_true, beq_iff_eq] at h
  exact h.1

theorem feeds_hits {f : Key} {w : List Key} {s : RSlot} (h : C.feeds f w s = true) : hits f s.key = true := by
  simp only [Ctx.feeds, Bool.and_eq_true] at h
  exact h.1

/-- also for an object with other values of the same classes -/
theorem Facts.sole' (h : Facts strict M C o rows) {o1 : MObj py.F} {g : Row py.F → List (MObj py.F)}
    (h1 : o1.fields = rows.map fun r => (r.s.key, g r)) (hg : ∀ r ∈ rows, ∀ u ∈ g r, ∃ v ∈ r.vs, v.cls = u.cls)
    {r : Row py.F} (hr : r ∈ rows) {f : Key} {w : List Key}
    (hs : C.sole f w r.s = true) (hw : w = [] ∨ ∃ alts, r.s.item = .objs alts) : o1.view f w = g r := by
  obtain ⟨hf, hl⟩ := sole_feeds hs
  have hu := h.unique hr hf hl
  have hin := h.inView hr hs hw
  rw [view_eq, MObj.get, h1, List.flatMap_map, flatMap_filter_out]
  have e : (rows.flatMap fun a => (if hits f a.s.key = true then g a else []).filter fun x => Lemmas.inView w x.cls) =
      (rows.filter fun r => C.feeds f w r.s).flatMap fun a => (if hits f a.s.key = true then g a else []).filter fun x => Lemmas.inView w x.cls := by
    symm
    apply flatMap_filter
    intro a ha hna
    rw [List.filter_eq_nil_iff]
    intro u hu hw
    split at hu
    · rename_i hh
      obtain ⟨v, hv, hc⟩ := hg a ha u hu
      rw [h.feeds ha hh hv (by rw [hc]; exact hw)] at hna
      cases hna
    · cases hu
  rw [e, hu]
  simp only [List.flatMap_cons, List.flatMap_nil, List.append_nil, feeds_hits hf, if_true]
  rw [List.filter_eq_self]
  intro u hu
  obtain ⟨v, hv, hc⟩ := hg r hr u hu
  rw [← hc]
  exact hin v hv

theorem Facts.sole (h : Facts strict M C o rows) {r : Row py.F} (hr : r ∈ rows) {f : Key} {w : List Key}
    (hs : C.sole f w r.s = true) (hw : w = [] ∨ ∃ alts, r.s.item = .objs alts) : o.view f w = r.vs :=
  h.sole' (g := Row.vs) h.fields (fun _ _ v hv => ⟨v, hv, rfl⟩) hr hs hw

theorem Facts.src (h : Facts strict M C o rows) {r : Row py.F} (hr : r ∈ rows) {f : Key} (hs : C.src f r.s = true) :
    o.get f = r.vs := by
  simp only [Ctx.src, Bool.or_eq_true] at hs
  rcases hs with hs | hs
  · exact h.sole hr hs (.inl rfl)
  · obtain ⟨n, hn, hs⟩ := List.any_eq_true.1 hs
    cases n with
    | same f' g =>
      simp only [Bool.and_eq_true, beq_iff_eq] at hs
      have := h.needs _ hn
      rw [← hs.1, show o.get f' = o.get g from this]
      exact h.sole hr hs.2 (.inl rfl)
    | _ => simp at hs

theorem Facts.implied (h : Facts strict M C o rows) {f : Key} {w : List Key} {c : Cond} (hc : C.implied f w c = true)
    (hv : o.view f w ≠ []) : c.holds o = true := by
  cases c with
  | always => rfl
  | cls cs => cases hc
  | notcls cs => cases hc
  | any fs =>
    obtain ⟨g, hg, hc⟩ := List.any_eq_true.1 hc
    show (fs.any fun s => !(o.view s.1 s.2).isEmpty) = true
    refine List.any_eq_true.2 ⟨g, hg, ?_⟩
    simp only [Bool.or_eq_true, beq_iff_eq, Bool.and_eq_true, List.isEmpty_iff] at hc
    rcases hc with rfl | ⟨⟨h1, h2⟩, hc'⟩
    · simpa [List.isEmpty_iff] using hv
    · subst h1
      obtain ⟨n, hn, hc⟩ := List.any_eq_true.1 hc'
      cases n with
      | along f' g' =>
        simp only [Bool.and_eq_true, beq_iff_eq] at hc
        have := h.needs _ hn
        rw [hc.1, hc.2] at this
        simpa [h2, MObj.view, List.isEmpty_iff] using this hv
      | _ => simp at hc
  | none fs =>
    show (fs.all fun s => (o.view s.1 s.2).isEmpty) = true
    refine List.all_eq_true.2 fun g hg => ?_
    have hc := List.all_eq_true.1 hc g hg
    simp only [Bool.and_eq_true, List.isEmpty_iff] at hc
    obtain ⟨⟨h1, h2⟩, hc'⟩ := hc
    subst h1
    obtain ⟨n, hn, hc⟩ := List.any_eq_true.1 hc'
    cases n with
    | notBoth f' g' =>
      simp only [Bool.and_eq_true, Bool.or_eq_true, beq_iff_eq] at hc
      have := h.needs _ hn
      simp only [h2, MObj.view, List.isEmpty_iff]
      rcases hc with ⟨h1, h3⟩ | ⟨h1, h3⟩ <;> rw [h1, h3] at this <;> rcases this with h' | h'
      · exact absurd h' hv
      · exact h'
      · exact h'
      · exact absurd h' hv
    | _ => simp at hc

end
end Verif.Lemmas
