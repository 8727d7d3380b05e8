import Verif.Lemmas.AdminFile
import Verif.Lemmas.Document
import Verif.Lemmas.Needs
/-!
# Loading a document without admin data
-/
namespace Verif.Lemmas
open Verif Verif.Model Verif.Gen Verif.Spec

/-- reading the item does not depend on children with the tags in `B` -/
def itemOff (B : List Key) : Item → Bool
  | .objs _ => false
  | .want t _ => t != 0 && !B.contains t
  | _ => true

/-- The path does not look at children with the tags in `B`; it may end where it starts only if `fin`. -/
def pathOff (B : List Key) (fin : Bool) : Path → Bool
  | .nil => fin
  | .all t _ => t != 0 && !B.contains t
  | .first [] r => pathOff B fin r
  | .first (t :: _) _ => t != 0 && !B.contains t
  | .pick ts _ => ts.all fun t => t != 0 && !B.contains t
  | .need p r => pathOff B true p && pathOff B fin r
  | .lack p r => pathOff B true p && pathOff B fin r
  | .alt p q => pathOff B true p && pathOff B fin p && pathOff B fin q

/-- the slot that reads the admin data -/
def adminSlot (s : RSlot) : Bool :=
  s.key == (k!"adminData", false) && s.path == .first [k!"ADMIN-DATA"] .nil && (match s.item with | .objs _ => true | _ => false) && s.req == .no

/-- a slot that is not touched -/
def slotOff (B : List Key) (s : RSlot) : Bool :=
  s.field != k!"adminData" && pathOff B (itemOff B s.item) s.path

/-- the method for an element of a package -/
def elementReader (k : Key) : Bool := match readers k with
  | none => false
  | some b => b.slots.all (fun s => adminSlot s || slotOff [k!"ADMIN-DATA"] s) &&
      (armodel.sub b.cls k!"Describable" || armodel.sub b.cls k!"Identifiable" || b.slots.all (slotOff [k!"ADMIN-DATA"]))

/-- the methods for the elements of a package -/
def elementAlts : List (Key × Key) := match R.readARPackageElements with
  | s :: _ => match s.item with
    | .objs alts => alts
    | _ => []
  | _ => []

theorem alts_right : elementAlts.all (fun a => elementReader a.2) = true := by decide +kernel

/-! ## trees that agree outside some tags -/

/-- `x'` is `x` except for children with the tags in `B` -/
structure Off (B : List Key) (x x' : Xml) : Prop where
  tag : x'.tag = x.tag
  attrs : x'.attrs = x.attrs
  text : x'.text = x.text
  kids : ∀ t, t ≠ 0 → t ∉ B → x'.kids.filter (tagIs t) = x.kids.filter (tagIs t)

section
variable {B : List Key} {x x' : Xml}

theorem find_filter {α : Type} (p : α → Bool) (l : List α) : l.find? p = (l.filter p).head? := by
  induction l with
  | nil => rfl
  | cons a l ih =>
    by_cases h : p a = true
    · rw [List.find?_cons_of_pos h, List.filter_cons_of_pos h]; rfl
    · rw [List.find?_cons_of_neg h, List.filter_cons_of_neg h, ih]

theorem off_tag {t : Key} (h : (t != 0 && !B.contains t) = true) : t ≠ 0 ∧ t ∉ B := by
  simp only [Bool.and_eq_true, bne_iff_ne] at h
  exact ⟨h.1, contains_false h.2⟩

theorem walk_off (ho : Off B x x') {t : Key} {ts : List Key} (h : (t != 0 && !B.contains t) = true) : walk (t :: ts) x' = walk (t :: ts) x := by
  obtain ⟨h1, h2⟩ := off_tag h
  simp only [walk, ho.kids t h1 h2]

theorem pick_off (ho : Off B x x') {ts : List Key} (h : ts.all (fun t => t != 0 && !B.contains t) = true) : pickKid ts x' = pickKid ts x := by
  induction ts with
  | nil => rfl
  | cons t ts ih =>
    simp only [List.all_cons, Bool.and_eq_true (a := (t != 0 && !B.contains t))] at h
    obtain ⟨h1, h2⟩ := off_tag h.1
    simp only [pickKid, find_filter, ho.kids t h1 h2, ih h.2]

/-- the same elements, or the elements themselves -/
def Ends (fin : Bool) (x x' y y' : Xml) : Prop := y' = y ∨ (fin = true ∧ y = x ∧ y' = x')

theorem ends_refl (fin : Bool) (l : List Xml) : List.Forall₂ (Ends fin x x') l l := by
  induction l with
  | nil => exact .nil
  | cons a l ih => exact .cons (.inl rfl) ih

theorem ends_empty {fin : Bool} {l l' : List Xml} (h : List.Forall₂ (Ends fin x x') l l') : l'.isEmpty = l.isEmpty := by
  cases h <;> rfl

theorem select_off (ho : Off B x x') {p : Path} {fin : Bool} (h : pathOff B fin p = true) :
    List.Forall₂ (Ends fin x x') (select p x) (select p x') := by
  induction p generalizing fin with
  | nil => exact .cons (.inr ⟨h, rfl, rfl⟩) .nil
  | all t r _ =>
    obtain ⟨h1, h2⟩ := off_tag h
    simp only [select, ho.kids t h1 h2]
    exact ends_refl _ _
  | first ts r ih =>
    cases ts with
    | nil => exact ih h
    | cons t ts =>
      simp only [select, walk_off ho (ts := ts) h]
      exact ends_refl _ _
  | pick ts r _ =>
    simp only [select, pick_off ho h]
    exact ends_refl _ _
  | need p r ihp ihr =>
    simp only [pathOff, Bool.and_eq_true] at h
    simp only [select, ends_empty (ihp h.1)]
    split
    · exact .nil
    · exact ihr h.2
  | lack p r ihp ihr =>
    simp only [pathOff, Bool.and_eq_true] at h
    simp only [select, ends_empty (ihp h.1)]
    split
    · exact ihr h.2
    · exact .nil
  | alt p q ihp ihq =>
    simp only [pathOff, Bool.and_eq_true] at h
    simp only [select, ends_empty (ihp h.1.1)]
    split
    · exact ihq h.2
    · exact ihp h.1.2

end

section
variable {py : Py} {strict : Bool} {B : List Key} {x x' : Xml} {rd : Key → Xml → Except RErr (MObj py.F)}

theorem readKind_off (ho : Off B x x') (k : RKind) : readKind py k x' = readKind py k x := by
  obtain ⟨t, as, s, ks⟩ := x
  obtain ⟨t', as', s', ks'⟩ := x'
  have h1 := ho.attrs
  have h2 := ho.text
  simp only [Xml.attrs, Xml.text] at h1 h2
  subst h1; subst h2
  cases k <;> rfl

theorem any_filter {α : Type} (p : α → Bool) (l : List α) : l.any p = !(l.filter p).isEmpty := by
  induction l with
  | nil => rfl
  | cons a l ih => cases h : p a <;> simp [h, ih]

theorem readItem_off (ho : Off B x x') {i : Item} (h : itemOff B i = true) : readItem py strict rd i x' = readItem py strict rd i x := by
  cases i with
  | prim k => simp only [readItem, readKind_off ho]
  | attr n k => simp only [readItem, Xml.attr, ho.attrs]
  | name => simp only [readItem, ho.text]
  | objs alts => cases h
  | guard tags e => simp only [readItem, ho.tag]
  | want t e =>
    obtain ⟨h1, h2⟩ := off_tag h
    simp only [readItem, any_filter, ho.kids t h1 h2]
  | crash e => simp only [readItem]

theorem mapE_ends {fin : Bool} {i : Item} {l l' : List Xml} (h : List.Forall₂ (Ends fin x x') l l')
    (hi : fin = true → readItem py strict rd i x' = readItem py strict rd i x) : mapE (readItem py strict rd i) l' = mapE (readItem py strict rd i) l := by
  induction h with
  | nil => rfl
  | cons h1 _ ih =>
    simp only [mapE, ih]
    rcases h1 with rfl | ⟨h, rfl, rfl⟩
    · rfl
    · rw [hi h]

theorem readSlot_off (ho : Off B x x') {s : RSlot} (h : slotOff B s = true) : readSlot py strict rd x' s = readSlot py strict rd x s := by
  simp only [slotOff, Bool.and_eq_true] at h
  simp only [readSlot, mapE_ends (select_off ho h.2) (readItem_off ho)]

/-! ## one method -/

theorem get_sub {keys : List (Key × Bool)} {vss : List (List (MObj py.F))} {g : (Key × Bool) × List (MObj py.F) → (Key × Bool) × List (MObj py.F)} {f : Key}
    (hk : ∀ e, (g e).1 = e.1) (h : ∀ e ∈ keys.zip vss, ((g e).2.map MObj.name).Sublist (e.2.map MObj.name)) (c : Key) :
    (((MObj.mk c ((keys.zip vss).map g)).get f).map MObj.name).Sublist (((MObj.mk c (keys.zip vss)).get f).map MObj.name) := by
  simp only [MObj.get, MObj.fields]
  generalize keys.zip vss = fs at h
  induction fs with
  | nil => exact .slnil
  | cons e fs ih =>
    rw [List.map_cons, List.flatMap_cons, List.flatMap_cons, List.map_append, List.map_append, hk]
    refine List.Sublist.append ?_ (ih fun e he => h e (by simp [he]))
    split
    · exact h e (by simp)
    · exact .slnil

theorem readBody_map {b : RBody} {o : MObj py.F} {g : (Key × Bool) × List (MObj py.F) → (Key × Bool) × List (MObj py.F)} (hk : ∀ e, (g e).1 = e.1)
    (hs : ∀ s ∈ b.slots, ∀ vs, readSlot py strict rd x s = .ok vs →
      readSlot py strict rd x' s = .ok (g (s.key, vs)).2 ∧ ((g (s.key, vs)).2.map MObj.name).Sublist (vs.map MObj.name))
    (h : readBody py strict rd b x = .ok o) : readBody py strict rd b x' = .ok (.mk o.cls (o.fields.map g)) := by
  simp only [readBody] at h ⊢
  split at h
  · cases h
  rename_i vss hvss
  split at h
  swap
  · cases h
  rename_i hn
  cases h
  have key : ∀ (sl : List RSlot) (vss : List (List (MObj py.F))), (∀ s ∈ sl, s ∈ b.slots) → List.Forall₂ (fun s vs => readSlot py strict rd x s = .ok vs) sl vss →
      (∃ vss', mapE (readSlot py strict rd x') sl = .ok vss' ∧ (sl.map RSlot.key).zip vss' = ((sl.map RSlot.key).zip vss).map g) ∧
      ∀ e ∈ (sl.map RSlot.key).zip vss, ((g e).2.map MObj.name).Sublist (e.2.map MObj.name) := by
    intro sl vss hsl hf
    induction hf with
    | nil => exact ⟨⟨[], rfl, rfl⟩, by intro e he; cases he⟩
    | @cons s vs sl vss h1 _ ih =>
      obtain ⟨⟨vss', h2, h3⟩, h4⟩ := ih fun s hs => hsl s (by simp [hs])
      obtain ⟨h5, h6⟩ := hs s (hsl s (by simp)) vs h1
      refine ⟨⟨(g (s.key, vs)).2 :: vss', ?_, ?_⟩, ?_⟩
      · simp only [mapE, h5, h2]
      · simp only [List.map_cons, List.zip_cons_cons, h3]
        congr 1
        exact Prod.ext (hk (s.key, vs)).symm rfl
      · intro e he
        simp only [List.map_cons, List.zip_cons_cons] at he
        rcases List.mem_cons.1 he with rfl | he
        · exact h6
        · exact h4 e he
  obtain ⟨⟨vss', h2, h3⟩, h4⟩ := key b.slots vss (fun _ h => h) (mapE_ok hvss)
  rw [h2]
  simp only [h3]
  rw [if_pos]
  · rfl
  · simp only [namesOk, List.all_eq_true, Bool.and_eq_true, Bool.or_eq_true, Bool.not_eq_true', decide_eq_true_eq, Nat.ble_eq] at hn ⊢
    intro s hs'
    obtain ⟨h5, h6⟩ := hn s hs'
    refine ⟨?_, ?_⟩
    · rcases h5 with h5 | h5
      · exact .inl h5
      · exact .inr (h5.sublist (get_sub hk h4 _))
    · rcases h6 with h6 | h6
      · exact .inl h6
      · right
        have := (get_sub (f := s.field) hk h4 b.cls).length_le
        simp only [List.length_map] at this
        omega

/-! ## elements -/

theorem dropAdmin_off (x : Xml) : Off [k!"ADMIN-DATA"] x (dropAdmin x) := by
  obtain ⟨t, as, s, kids⟩ := x
  refine ⟨rfl, rfl, rfl, ?_⟩
  intro t ht hB
  simp only [dropAdmin, Xml.kids, List.filter_filter]
  refine List.filter_congr fun y _ => ?_
  have hB' : ¬ t = k!"ADMIN-DATA" := by simpa using hB
  by_cases hy : tagIs t y = true
  · have : y.tag = t := by simpa [tagIs, ht] using hy
    simp [hy, this, hB']
  · simp only [Bool.not_eq_true] at hy
    simp [hy]

theorem adminSlot_none {s : RSlot} (hs : adminSlot s = true) (hx : ∀ y ∈ x'.kids, y.tag ≠ k!"ADMIN-DATA") :
    readSlot py strict rd x' s = .ok [] := by
  simp only [adminSlot, Bool.and_eq_true, beq_iff_eq] at hs
  obtain ⟨⟨⟨_, h2⟩, _⟩, h4⟩ := hs
  have : walk [k!"ADMIN-DATA"] x' = [] := by
    simp only [walk]
    rw [List.filter_eq_nil_iff.2]
    · rfl
    · intro y hy
      have := hx y hy
      simpa [tagIs] using this
  simp only [readSlot, h2, select, this, mapE, h4]
  cases s.last <;> rfl

theorem element_read {n : Nat} {k : Key} (hk : elementReader k = true) {x : Xml} {e : MObj py.F} (h : readObj py strict readers n k x = .ok e) :
    readObj py strict readers n k (dropAdmin x) = .ok (processElement e) := by
  cases n with
  | zero => cases h
  | succ n =>
    have hcls := readObj_cls h
    simp only [readObj] at h ⊢
    cases hb : readers k with
    | none => rw [hb] at h; cases h
    | some b =>
      rw [hb] at h hcls
      have hcls : e.cls = b.cls := (Option.some.inj hcls).symm
      simp only [elementReader, hb, Bool.and_eq_true, List.all_eq_true, Bool.or_eq_true] at hk
      dsimp only at h ⊢
      have rem : readBody py strict (readObj py strict readers n) b (dropAdmin x) = .ok e.removeAdminData := by
        have := readBody_map (x' := dropAdmin x) (g := fun e => if e.1.1 = k!"adminData" then (e.1, []) else e) (fun e => by split <;> rfl) ?_ h
        · rw [this]
          cases e with
          | mk c fs => rfl
          | scal s =>
            simp only [readBody] at h
            split at h
            · cases h
            · split at h <;> cases h
        · intro s hs vs hv
          rcases hk.1 s hs with h1 | h1
          · have hkey : s.key.1 = k!"adminData" := by
              simp only [adminSlot, Bool.and_eq_true, beq_iff_eq] at h1
              rw [h1.1.1.1]
            dsimp only
            rw [if_pos hkey]
            refine ⟨adminSlot_none h1 ?_, by simp⟩
            intro y hy
            obtain ⟨t, as, s', kids⟩ := x
            simp only [dropAdmin, Xml.kids, List.mem_filter, bne_iff_ne] at hy
            exact hy.2
          · have hkey : s.key.1 ≠ k!"adminData" := by
              simp only [slotOff, Bool.and_eq_true, bne_iff_ne] at h1
              exact h1.1
            dsimp only
            rw [if_neg hkey, readSlot_off (dropAdmin_off x) h1]
            exact ⟨hv, List.Sublist.refl _⟩
      unfold processElement
      rw [hcls]
      split
      · exact rem
      · split
        · exact rem
        · rename_i h1 h2
          have hall : ∀ s ∈ b.slots, slotOff [k!"ADMIN-DATA"] s = true := by
            rcases hk.2 with (h3 | h3) | h3
            · exact absurd h3 h1
            · exact absurd h3 h2
            · exact h3
          have := readBody_map (x' := dropAdmin x) (g := id) (fun _ => rfl)
            (fun s hs vs hv => by rw [readSlot_off (dropAdmin_off x) (hall s hs)]; exact ⟨hv, List.Sublist.refl _⟩) h
          rw [this, List.map_id]
          cases e with
          | mk c fs => rfl
          | scal s =>
            simp only [readBody] at h
            split at h
            · cases h
            · split at h <;> cases h

/-! ## packages -/

theorem cleanPkg_tag (x : Xml) : (cleanPkg x).tag = x.tag := by
  obtain ⟨t, as, s, kids⟩ := x
  rw [cleanPkg_node]; rfl

theorem dropAdmin_tag (x : Xml) : (dropAdmin x).tag = x.tag := by cases x; rfl

theorem cleanPkg_kids (x : Xml) : (cleanPkg x).kids = x.kids.flatMap cleanPart := by
  obtain ⟨t, as, s, kids⟩ := x
  rw [cleanPkg_node]; rfl

/-- the children changed -/
def onKids (g : Xml → Xml) : Xml → Xml
  | .node t as s kids => .node t as s (kids.map g)

theorem filter_part (l : List Xml) {t : Key} (h0 : t ≠ 0) {g : Xml → Xml} (hg : ∀ y, y.tag = t → cleanPart y = [g y] ∧ (g y).tag = t) :
    (l.flatMap cleanPart).filter (tagIs t) = (l.filter (tagIs t)).map g := by
  induction l with
  | nil => rfl
  | cons y l ih =>
    rw [List.flatMap_cons, List.filter_append, ih]
    by_cases hy : y.tag = t
    · obtain ⟨h1, h2⟩ := hg y hy
      rw [h1]
      have e1 : tagIs t y = true := by simp [tagIs, hy]
      have e2 : tagIs t (g y) = true := by simp [tagIs, h2]
      simp [e1, e2]
    · have e1 : tagIs t y = false := by simp [tagIs, hy, h0]
      rw [List.filter_cons_of_neg (by simp [e1])]
      have : (cleanPart y).filter (tagIs t) = [] := by
        rw [List.filter_eq_nil_iff]
        intro z hz
        have hzt : z.tag = y.tag := by
          obtain ⟨u, as, s, kids⟩ := y
          simp only [cleanPart] at hz
          split at hz
          · cases hz
          split at hz
          · simp only [List.mem_singleton] at hz; subst hz; rfl
          split at hz
          · simp only [List.mem_singleton] at hz; subst hz; rfl
          · simp only [List.mem_singleton] at hz; subst hz; rfl
        simp [tagIs, hzt, hy, h0]
      rw [this]; rfl

theorem cleanPkg_off (x : Xml) : Off pkgTags x (cleanPkg x) := by
  refine ⟨cleanPkg_tag x, ?_, ?_, ?_⟩
  · obtain ⟨t, as, s, kids⟩ := x
    rw [cleanPkg_node]; rfl
  · obtain ⟨t, as, s, kids⟩ := x
    rw [cleanPkg_node]; rfl
  · intro t h0 hB
    rw [cleanPkg_kids, filter_part (g := id) _ h0, List.map_id]
    intro y hy
    exact ⟨cleanPart_other (by rw [hy]; exact hB), hy⟩

theorem cleanPkg_noAdmin (x : Xml) : ∀ y ∈ (cleanPkg x).kids, y.tag ≠ k!"ADMIN-DATA" := by
  rw [cleanPkg_kids]
  intro y hy
  obtain ⟨z, _, hz⟩ := List.mem_flatMap.1 hy
  obtain ⟨u, as, s, kids⟩ := z
  simp only [cleanPart] at hz
  split at hz
  · cases hz
  rename_i h1
  split at hz
  · simp only [List.mem_singleton] at hz; subst hz; exact h1
  split at hz
  · simp only [List.mem_singleton] at hz; subst hz; exact h1
  · simp only [List.mem_singleton] at hz; subst hz; exact h1

theorem select_elements (x : Xml) : select (.all k!"ELEMENTS" (.all 0 .nil)) (cleanPkg x) = (select (.all k!"ELEMENTS" (.all 0 .nil)) x).map dropAdmin := by
  simp only [select]
  rw [cleanPkg_kids, filter_part (g := onKids dropAdmin) _ (by decide)]
  · generalize x.kids.filter (tagIs k!"ELEMENTS") = l
    induction l with
    | nil => rfl
    | cons y l ih =>
      rw [List.map_cons, List.flatMap_cons, List.flatMap_cons, List.map_append, ih]
      congr 1
      obtain ⟨t, as, s, kids⟩ := y
      have h0 : ∀ l : List Xml, l.filter (tagIs 0) = l := fun l => List.filter_eq_self.2 fun _ _ => rfl
      simp only [onKids, Xml.kids, h0]
      rw [List.flatMap_singleton', List.flatMap_singleton']
  · intro y hy
    obtain ⟨t, as, s, kids⟩ := y
    have hy : t = k!"ELEMENTS" := hy
    subst hy
    exact ⟨rfl, rfl⟩

theorem select_pkgs (x : Xml) (u : Key) : select (.all k!"AR-PACKAGES" (.all u .nil)) (cleanPkg x) = (select (.all k!"AR-PACKAGES" (.all u .nil)) x).map cleanPkg := by
  simp only [select]
  rw [cleanPkg_kids, filter_part (g := onKids cleanPkg) _ (by decide)]
  · generalize x.kids.filter (tagIs k!"AR-PACKAGES") = l
    induction l with
    | nil => rfl
    | cons y l ih =>
      rw [List.map_cons, List.flatMap_cons, List.flatMap_cons, List.map_append, ih]
      congr 1
      obtain ⟨t, as, s, kids⟩ := y
      simp only [onKids, Xml.kids]
      rw [List.flatMap_singleton', List.flatMap_singleton', List.filter_map]
      congr 1
      refine List.filter_congr fun z _ => ?_
      simp only [Function.comp, tagIs, cleanPkg_tag]
  · intro y hy
    obtain ⟨t, as, s, kids⟩ := y
    have hy : t = k!"AR-PACKAGES" := hy
    subst hy
    exact ⟨rfl, rfl⟩

/-- a slot whose values are all changed -/
theorem readSlot_map {s : RSlot} {g : Xml → Xml} {g' : MObj py.F → MObj py.F} (hsel : select s.path x' = (select s.path x).map g)
    (hl : s.last = false) (hq : s.req = .no) (hi : ∀ y vs, readItem py strict rd s.item y = .ok vs → readItem py strict rd s.item (g y) = .ok (vs.map g'))
    {vs : List (MObj py.F)} (h : readSlot py strict rd x s = .ok vs) : readSlot py strict rd x' s = .ok (vs.map g') := by
  simp only [readSlot, hl, hq, hsel] at h ⊢
  split at h
  · cases h
  rename_i l hl'
  rw [mapE_image (g' := List.map g') hl' fun y _ vs => hi y vs]
  simp only [Bool.false_eq_true, if_false] at h ⊢
  cases h
  rw [List.map_flatten]

theorem readItem_objs {alts : List (Key × Key)} {g : Xml → Xml} {g' : MObj py.F → MObj py.F} (ht : ∀ y, (g y).tag = y.tag)
    (hr : ∀ a ∈ alts, ∀ y o, rd a.2 y = .ok o → rd a.2 (g y) = .ok (g' o)) {y : Xml} {vs : List (MObj py.F)}
    (h : readItem py strict rd (.objs alts) y = .ok vs) : readItem py strict rd (.objs alts) (g y) = .ok (vs.map g') := by
  simp only [readItem, ht] at h ⊢
  have hm : ∀ (l : List (Key × Key)) (t k : Key), altOf l t = some k → ∃ a ∈ l, a.2 = k := by
    intro l t k hk
    induction l with
    | nil => cases hk
    | cons a l ih =>
      simp only [altOf] at hk
      split at hk
      · cases hk; exact ⟨a, by simp, rfl⟩
      · obtain ⟨b, hb, e⟩ := ih hk; exact ⟨b, by simp [hb], e⟩
  cases ha : altOf alts y.tag with
  | none => rw [ha] at h; cases h; rfl
  | some k =>
    rw [ha] at h
    dsimp only at h ⊢
    obtain ⟨a, ham, rfl⟩ := hm _ _ _ ha
    split at h
    · cases h
    · rename_i o ho
      cases h
      rw [hr a ham y o ho]
      rfl

theorem readItem_guard {tags : List Key} {e : GErr} {g : Xml → Xml} {g' : MObj py.F → MObj py.F} (ht : ∀ y, (g y).tag = y.tag) {y : Xml} {vs : List (MObj py.F)}
    (h : readItem py strict rd (.guard tags e) y = .ok vs) : readItem py strict rd (.guard tags e) (g y) = .ok (vs.map g') := by
  have hn : vs = [] := by
    simp only [readItem] at h
    split at h
    · cases h; rfl
    · split at h <;> first | cases h; rfl | cases h
  subst hn
  simp only [readItem, ht] at h ⊢
  exact h

theorem removeAdminData_name {F : Type} (e : MObj F) : e.removeAdminData.name = e.name := by
  have : e.removeAdminData.get k!"short_name" = e.get k!"short_name" := by
    cases e with
    | scal s => rfl
    | mk c fs =>
      simp only [MObj.removeAdminData, MObj.get, MObj.fields]
      rw [flatMap_get (h := id), List.map_id]
      · intro e _; split <;> rfl
      · intro e _ hh
        rw [hits_other (by decide), beq_iff_eq] at hh
        rw [if_neg (by rw [hh]; decide), List.map_id]
  unfold MObj.name
  rw [this]

theorem processElement_name {F : Type} (e : MObj F) : (processElement e).name = e.name := by
  unfold processElement
  split
  · exact removeAdminData_name e
  · split
    · exact removeAdminData_name e
    · rfl

theorem map_name_sub {g : MObj py.F → MObj py.F} {vs : List (MObj py.F)} (h : ∀ v ∈ vs, (g v).name = v.name) :
    ((vs.map g).map MObj.name).Sublist (vs.map MObj.name) := by
  rw [List.map_map]
  have : vs.map (MObj.name ∘ g) = vs.map MObj.name := List.map_congr_left h
  rw [this]

/-- how the slots of a package (or the document) are changed -/
inductive PkgSlot (s : RSlot) : Prop
  | admin (h : adminSlot s = true)
  | off (h : slotOff pkgTags s = true) (hf : s.field ≠ k!"arPackages") (he : isMember s.key = false)
  | elems (hp : s.path = .all k!"ELEMENTS" (.all 0 .nil)) (hi : s.item = .objs elementAlts) (hk : s.key = (k!"elements", true)) (hl : s.last = false) (hq : s.req = .no)
  | pkgs (hp : s.path = .all k!"AR-PACKAGES" (.all k!"AR-PACKAGE" .nil)) (hi : s.item = .objs [(k!"AR-PACKAGE", k!"readARPackages_ARPackage")])
      (hk : s.key = (k!"arPackages", false)) (hl : s.last = false) (hq : s.req = .no)
  | guardE (hp : s.path = .all k!"ELEMENTS" (.all 0 .nil)) (hi : ∃ l e, s.item = .guard l e) (hk : s.key = (0, false)) (hl : s.last = false) (hq : s.req = .no)
  | guardP (hp : s.path = .all k!"AR-PACKAGES" (.all 0 .nil)) (hi : ∃ l e, s.item = .guard l e) (hk : s.key = (0, false)) (hl : s.last = false) (hq : s.req = .no)

/-- the test for `PkgSlot` -/
def pkgSlot (s : RSlot) : Bool :=
  adminSlot s || (slotOff pkgTags s && s.field != k!"arPackages" && !isMember s.key) ||
    (!s.last && s.req == .no &&
      ((s.path == .all k!"ELEMENTS" (.all 0 .nil) && s.item == .objs elementAlts && s.key == (k!"elements", true)) ||
       (s.path == .all k!"AR-PACKAGES" (.all k!"AR-PACKAGE" .nil) && s.item == .objs [(k!"AR-PACKAGE", k!"readARPackages_ARPackage")] && s.key == (k!"arPackages", false)) ||
       (s.path == .all k!"ELEMENTS" (.all 0 .nil) && (match s.item with | .guard _ _ => true | _ => false) && s.key == (0, false)) ||
       (s.path == .all k!"AR-PACKAGES" (.all 0 .nil) && (match s.item with | .guard _ _ => true | _ => false) && s.key == (0, false))))

theorem pkgSlot_sound {s : RSlot} (h : pkgSlot s = true) : PkgSlot s := by
  simp only [pkgSlot, Bool.or_eq_true, Bool.and_eq_true, beq_iff_eq, bne_iff_ne, Bool.not_eq_true'] at h
  have hg : (match s.item with | .guard _ _ => true | _ => false) = true → ∃ l e, s.item = .guard l e := by
    intro h
    split at h
    · rename_i l e hi; exact ⟨l, e, hi⟩
    · cases h
  rcases h with (h | ⟨⟨h1, h2⟩, h3⟩) | ⟨⟨hl, hq⟩, ((⟨⟨h1, h2⟩, h3⟩ | ⟨⟨h1, h2⟩, h3⟩) | ⟨⟨h1, h2⟩, h3⟩) | ⟨⟨h1, h2⟩, h3⟩⟩
  · exact .admin h
  · exact .off h1 h2 h3
  · exact .elems h1 h2 h3 hl hq
  · exact .pkgs h1 h2 h3 hl hq
  · exact .guardE h1 (hg h2) h3 hl hq
  · exact .guardP h1 (hg h2) h3 hl hq

theorem pkgBody : readers k!"readARPackages_ARPackage" = some ⟨k!"ARPackage", R.readARPackages_ARPackage⟩ := by
  unfold readers
  rw [if_neg (by decide)]
  rfl

theorem pkg_slots : R.readARPackages_ARPackage.all pkgSlot = true := by decide +kernel

theorem doc_slots : loadBody.slots.all (fun s => pkgSlot s && s.key != (k!"elements", true)) = true := by decide +kernel

/-- the members of a package that was read are in `elements` -/
theorem pkg_members {n : Nat} {x : Xml} {p : MObj py.F} (h : readObj py strict readers n k!"readARPackages_ARPackage" x = .ok p) :
    ∀ f ∈ p.fields, f.1.2 = true → f.1.1 = k!"elements" := by
  obtain ⟨m, b, fs, _, hb, rfl, hf⟩ := read_fields h
  rw [pkgBody] at hb
  cases hb
  intro e he hm
  obtain ⟨s, hs, hk, _⟩ := hf e he
  rw [← hk] at hm ⊢
  cases pkgSlot_sound (List.all_eq_true.1 pkg_slots s hs) with
  | admin h =>
    simp only [adminSlot, Bool.and_eq_true, beq_iff_eq] at h
    rw [h.1.1.1] at hm; cases hm
  | off h hf he => simp [isMember, hm] at he
  | elems hp hi hk hl hq => rw [hk]
  | pkgs hp hi hk hl hq => rw [hk] at hm; cases hm
  | guardE hp hi hk hl hq => rw [hk] at hm; cases hm
  | guardP hp hi hk hl hq => rw [hk] at hm; cases hm

/-- a slot of a package -/
theorem pkgSlot_read {n : Nat} (ih : ∀ y p, readObj py strict readers n k!"readARPackages_ARPackage" y = .ok p →
      readObj py strict readers n k!"readARPackages_ARPackage" (cleanPkg y) = .ok (processPkg p))
    {s : RSlot} (hs : PkgSlot s) {x : Xml} {vs : List (MObj py.F)} (h : readSlot py strict (readObj py strict readers n) x s = .ok vs) :
    readSlot py strict (readObj py strict readers n) (cleanPkg x) s = .ok (onField (s.key, vs)).2 ∧
      ((onField (s.key, vs)).2.map MObj.name).Sublist (vs.map MObj.name) := by
  have guard : (∃ l e, s.item = .guard l e) → s.key = (0, false) → ∀ {u : Path} {g : Xml → Xml}, s.path = u → (∀ y, (g y).tag = y.tag) →
      select u (cleanPkg x) = (select u x).map g → s.last = false → s.req = .no →
      readSlot py strict (readObj py strict readers n) (cleanPkg x) s = .ok (onField (s.key, vs)).2 ∧
      ((onField (s.key, vs)).2.map MObj.name).Sublist (vs.map MObj.name) := by
    rintro ⟨l, e, hi⟩ hk u g hp hg hsel hl hq
    have e1 : (onField (s.key, vs)).2 = vs := by rw [hk]; rfl
    rw [e1]
    refine ⟨?_, List.Sublist.refl _⟩
    have := readSlot_map (g := g) (g' := id) (x' := cleanPkg x) (by rw [hp]; exact hsel) hl hq
      (fun y vs hy => by rw [hi] at hy ⊢; exact readItem_guard hg hy) h
    rw [this, List.map_id]
  cases hs with
  | admin h1 =>
    have hk : s.key = (k!"adminData", false) := by
      simp only [adminSlot, Bool.and_eq_true, beq_iff_eq] at h1
      exact h1.1.1.1
    have e1 : (onField (s.key, vs)).2 = [] := by rw [hk]; rfl
    rw [e1]
    exact ⟨adminSlot_none h1 (cleanPkg_noAdmin x), by simp⟩
  | off h1 h2 h3 =>
    have h4 : s.key.1 ≠ k!"adminData" := by
      simp only [slotOff, Bool.and_eq_true, bne_iff_ne] at h1
      exact h1.1
    have h5 : s.key.1 ≠ k!"arPackages" := h2
    have e1 : (onField (s.key, vs)).2 = vs := by
      simp only [onField]
      rw [if_neg h5, if_neg h4, if_neg (by rw [h3]; decide)]
    rw [e1, readSlot_off (cleanPkg_off x) h1]
    exact ⟨h, List.Sublist.refl _⟩
  | elems hp hi hk hl hq =>
    have e1 : (onField (s.key, vs)).2 = vs.map processElement := by rw [hk]; rfl
    rw [e1]
    refine ⟨?_, map_name_sub fun v _ => processElement_name v⟩
    refine readSlot_map (g := dropAdmin) (by rw [hp]; exact select_elements x) hl hq ?_ h
    intro y vs hy
    rw [hi] at hy ⊢
    exact readItem_objs dropAdmin_tag (fun a ha y o ho => element_read (List.all_eq_true.1 alts_right a ha) ho) hy
  | pkgs hp hi hk hl hq =>
    have e1 : (onField (s.key, vs)).2 = vs.map processPkg := by rw [hk]; rfl
    rw [e1]
    refine ⟨?_, map_name_sub ?_⟩
    · refine readSlot_map (g := cleanPkg) (by rw [hp]; exact select_pkgs x _) hl hq ?_ h
      intro y vs hy
      rw [hi] at hy ⊢
      refine readItem_objs cleanPkg_tag ?_ hy
      intro a ha y o ho
      simp only [List.mem_singleton] at ha
      subst ha
      exact ih y o ho
    · intro v hv
      simp only [readSlot] at h
      split at h
      · cases h
      rename_i l hl'
      have hv' : v ∈ l.flatten := by
        simp only [hl, hq, Bool.false_eq_true, if_false] at h
        cases h
        exact hv
      obtain ⟨w, hw, hvw⟩ := List.mem_flatten.1 hv'
      obtain ⟨y, _, hy⟩ := mapE_img hl' hw
      rw [hi] at hy
      simp only [readItem, altOf] at hy
      split at hy
      · cases hy; cases hvw
      · rename_i k hk'
        split at hk'
        · cases hk'
          split at hy
          · cases hy
          · rename_i o ho
            cases hy
            simp only [List.mem_singleton] at hvw
            subst hvw
            exact processPkg_name (pkg_members ho)
        · cases hk'
  | guardE hp hi hk hl hq => exact guard hi hk hp dropAdmin_tag (select_elements x) hl hq
  | guardP hp hi hk hl hq => exact guard hi hk hp cleanPkg_tag (select_pkgs x _) hl hq

theorem readBody_mk {b : RBody} {o : MObj py.F} (h : readBody py strict rd b x = .ok o) : o = .mk o.cls o.fields := by
  simp only [readBody] at h
  split at h
  · cases h
  · split at h <;> cases h
    rfl

theorem pkg_read (n : Nat) : ∀ (x : Xml) (p : MObj py.F), readObj py strict readers n k!"readARPackages_ARPackage" x = .ok p →
    readObj py strict readers n k!"readARPackages_ARPackage" (cleanPkg x) = .ok (processPkg p) := by
  induction n with
  | zero => intro x p h; cases h
  | succ n ih =>
    intro x p h
    simp only [readObj, pkgBody] at h ⊢
    rw [readBody_map (x' := cleanPkg x) (g := onField) (fun _ => rfl) (fun s hs vs hv => pkgSlot_read ih (pkgSlot_sound (List.all_eq_true.1 pkg_slots s hs)) hv) h]
    have := readBody_mk h
    generalize p.cls = c, p.fields = fs at this ⊢
    subst this
    rw [processPkg, processFields_map]

theorem load_clean {x : Xml} {d : MObj py.F} (h : load py strict x = .ok d) : load py strict (cleanPkg x) = .ok (removeAll d) := by
  have h' := load_eq h
  have ht : ¬ ((cleanPkg x).tag ≠ k!"AUTOSAR" ∧ strict = true) := by
    rw [cleanPkg_tag]
    intro hh
    unfold load at h
    rw [if_pos hh] at h
    cases h
  unfold load
  rw [if_neg ht]
  rw [readObj_stable moving (n := x.depth) (m := max x.depth (cleanPkg x).depth + 1) (by omega) (by omega)] at h'
  rw [readObj_stable moving (n := (cleanPkg x).depth) (m := max x.depth (cleanPkg x).depth + 1) (by omega) (by omega)]
  generalize max x.depth (cleanPkg x).depth = n at h' ⊢
  simp only [readObj, readers_load] at h' ⊢
  rw [readBody_map (x' := cleanPkg x) (g := fun e => if e.1.1 = k!"adminData" then (e.1, []) else if e.1.1 = k!"arPackages" then (e.1, e.2.map processPkg) else e)
    (fun e => by split; · rfl
                 · split <;> rfl) ?_ h']
  · have := readBody_mk h'
    generalize d.cls = c, d.fields = fs at this ⊢
    subst this
    simp only [removeAll, processPkgs_map]
  · intro s hs vs hv
    have hs' := List.all_eq_true.1 doc_slots s hs
    simp only [Bool.and_eq_true, bne_iff_ne] at hs'
    have hsl := pkgSlot_sound hs'.1
    have := pkgSlot_read (fun y p => pkg_read n y p) hsl hv
    have e : (if s.key.1 = k!"adminData" then (s.key, []) else if s.key.1 = k!"arPackages" then (s.key, vs.map processPkg) else (s.key, vs)) = onField (s.key, vs) := by
      have hm : isMember s.key = true → s.key = (k!"elements", true) := by
        intro hm
        cases hsl with
        | admin h1 =>
          simp only [adminSlot, Bool.and_eq_true, beq_iff_eq] at h1
          rw [h1.1.1.1] at hm; cases hm
        | off h1 h2 h3 => rw [h3] at hm; cases hm
        | elems hp hi hk hl hq => exact hk
        | pkgs hp hi hk hl hq => rw [hk] at hm; cases hm
        | guardE hp hi hk hl hq => rw [hk] at hm; cases hm
        | guardP hp hi hk hl hq => rw [hk] at hm; cases hm
      simp only [onField]
      by_cases h1 : s.key.1 = k!"adminData"
      · rw [if_pos h1, if_neg (by rw [h1]; decide), if_pos h1]
      · rw [if_neg h1, if_neg h1]
        by_cases h2 : s.key.1 = k!"arPackages"
        · rw [if_pos h2, if_pos h2]
        · rw [if_neg h2, if_neg h2, if_neg fun h => hs'.2 (hm h)]
    dsimp only
    rw [e]
    exact this

end

end Verif.Lemmas
