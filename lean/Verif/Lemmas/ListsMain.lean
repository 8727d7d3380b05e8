import Verif.Lemmas.ListsTable
import Verif.Lemmas.FileOrder
/-!
# How many values the attributes of loaded objects have
-/
namespace Verif.Lemmas
open Verif Verif.Model Verif.Spec

section
variable {py : Py} {strict : Bool}

/-- every object of a document was made of an element of the file by a method of the reader -/
theorem within_origin {T : Key → Option RBody} {n : Nat} {k : Key} {x : Xml} {o w : MObj py.F} (h : readObj py strict T n k x = .ok o) (hw : Within o w) :
    (∃ s, w = .scal s) ∨ ∃ m j, ∃ y ∈ inOrder x, readObj py strict T m j y = .ok w := by
  induction hw generalizing n k x with
  | here o => exact .inr ⟨n, k, x, by rw [inOrder_eq]; simp, h⟩
  | inside e he hv hw ih =>
    obtain ⟨m, b, s, y, us, _, _, _, _, hy, hi, hv⟩ := obj_mem h he hv
    rcases item_mem hi hv with ⟨s, rfl, _⟩ | ⟨_, j, _, _, hr⟩
    · cases hw with
      | here => exact .inl ⟨s, rfl⟩
      | inside e he => cases he
    · rcases ih hr with h | ⟨m, j, z, hz, h⟩
      · exact .inl h
      · obtain ⟨_, _, _, hv, _⟩ := select_via hy
        exact .inr ⟨m, j, z, (via_sub hv).subset hz, h⟩

theorem mapE_each_list {α β ε : Type} {f : α → Except ε β} {l : List α} {r : List β} (h : mapE f l = .ok r) : ∀ a ∈ l, ∃ b ∈ r, f a = .ok b := by
  induction l generalizing r with
  | nil => intro a ha; cases ha
  | cons x l ih =>
    simp only [mapE] at h
    split at h
    · cases h
    rename_i y hy
    split at h
    · cases h
    rename_i ys hys
    cases h
    intro a ha
    rcases List.mem_cons.1 ha with rfl | ha
    · exact ⟨y, by simp, hy⟩
    · obtain ⟨b, hb, h⟩ := ih hys a ha
      exact ⟨b, by simp [hb], h⟩

/-- the values of a statement of the reader -/
theorem slot_vals {T : Key → Option RBody} {m : Nat} {x : Xml} {slots : List RSlot} {vss : List (List (MObj py.F))}
    (h : mapE (readSlot py strict (readObj py strict T m) x) slots = .ok vss) {s : RSlot} (hs : s ∈ slots) :
    ∃ vs, (s.key, vs) ∈ (slots.map RSlot.key).zip vss ∧ readSlot py strict (readObj py strict T m) x s = .ok vs := by
  induction slots generalizing vss with
  | nil => cases hs
  | cons u slots ih =>
    simp only [mapE] at h
    split at h
    · cases h
    rename_i vs hvs
    split at h
    · cases h
    rename_i vss' hvss
    cases h
    rcases List.mem_cons.1 hs with rfl | hs
    · exact ⟨vs, by simp, hvs⟩
    · obtain ⟨vs, h1, h2⟩ := ih hvss hs
      exact ⟨vs, by simp [h1], h2⟩

theorem slot_each_list {rd : Key → Xml → Except RErr (MObj py.F)} {x : Xml} {s : RSlot} {vs : List (MObj py.F)} (h : readSlot py strict rd x s = .ok vs)
    (hl : s.last = false) {y : Xml} (hy : y ∈ select s.path x) : ∃ us, readItem py strict rd s.item y = .ok us ∧ ∀ w ∈ us, w ∈ vs := by
  obtain ⟨ls, hls, he, _⟩ := readSlot_ok h
  obtain ⟨us, hu, hr⟩ := mapE_each_list hls y hy
  rw [hl] at he
  simp only [Bool.false_eq_true, if_false] at he
  exact ⟨us, hr, fun w hw => he ▸ List.mem_flatten.2 ⟨us, hu, hw⟩⟩

/-- the statement of the reader that filled a field -/
theorem field_slot {T : Key → Option RBody} {m : Nat} {x : Xml} {slots : List RSlot} {vss : List (List (MObj py.F))}
    (h : mapE (readSlot py strict (readObj py strict T m) x) slots = .ok vss) {e : (Key × Bool) × List (MObj py.F)} (he : e ∈ (slots.map RSlot.key).zip vss) :
    ∃ s ∈ slots, s.key = e.1 ∧ readSlot py strict (readObj py strict T m) x s = .ok e.2 := by
  induction slots generalizing vss with
  | nil => cases he
  | cons u slots ih =>
    simp only [mapE] at h
    split at h
    · cases h
    rename_i vs hvs
    split at h
    · cases h
    rename_i vss' hvss
    cases h
    simp only [List.map_cons, List.zip_cons_cons, List.mem_cons] at he
    rcases he with rfl | he
    · exact ⟨u, by simp, rfl, hvs⟩
    · obtain ⟨s, hs, h⟩ := ih hvss he
      exact ⟨s, by simp [hs], h⟩

theorem item_length {rd : Key → Xml → Except RErr (MObj py.F)} {i : Item} {y : Xml} {us : List (MObj py.F)} (hi : readItem py strict rd i y = .ok us) :
    us.length ≤ 1 := by
  have hsc : ∀ {r : Except PyErr (Option (Scalar py.F))}, scalars r = .ok us → us.length ≤ 1 := by
    intro r hr
    unfold scalars at hr
    split at hr <;> cases hr <;> simp
  cases i with
  | prim k => exact hsc hi
  | attr n k =>
    simp only [readItem] at hi
    split at hi
    · cases hi; simp
    · exact hsc hi
  | name =>
    simp only [readItem] at hi
    split at hi <;> cases hi
    simp
  | objs alts =>
    simp only [readItem] at hi
    split at hi
    · cases hi; simp
    · split at hi <;> cases hi
      simp
  | guard tags g =>
    simp only [readItem] at hi
    split at hi
    · cases hi; simp
    · split at hi <;> cases hi <;> simp
  | want t e =>
    simp only [readItem] at hi
    split at hi <;> cases hi
    simp
  | crash e => cases hi

theorem slot_length {rd : Key → Xml → Except RErr (MObj py.F)} {x : Xml} {s : RSlot} {vs : List (MObj py.F)} (h : readSlot py strict rd x s = .ok vs)
    (hs : s.last = true ∨ oneOnly s.path = true) : vs.length ≤ 1 := by
  obtain ⟨ls, hls, he, _⟩ := readSlot_ok h
  rw [← he]
  rcases hs with hs | hs
  · rw [hs]; exact keepLast_length _
  · split
    · exact keepLast_length _
    · have := oneOnly_sound hs x
      cases hsel : select s.path x with
      | nil => rw [hsel] at hls; cases hls; simp
      | cons y ys =>
        cases ys with
        | cons z zs => rw [hsel] at this; simp at this
        | nil =>
          rw [hsel] at hls
          simp only [mapE] at hls
          split at hls
          · cases hls
          rename_i us hus
          cases hls
          simpa using item_length hus

theorem obj_single {n : Nat} {k : Key} {x : Xml} {o : MObj py.F} (h : readObj py strict readers n k x = .ok o) {e : (Key × Bool) × List (MObj py.F)}
    (he : e ∈ o.fields) (h1 : HoldsOne o.cls e.1.1) : e.2.length ≤ 1 := by
  obtain ⟨m, b, vss, rfl, hb, hm, rfl, hn⟩ := readObj_succ h
  obtain ⟨s, hs, hk, hr⟩ := field_slot hm he
  have hB := lists_readers hb hs
  unfold listB at hB
  rw [← hk] at h1
  have h1 : entry (assigned b.cls) s.field = some .none := by rw [← inits_assigned]; exact h1
  rw [h1] at hB
  simp only [Bool.or_eq_true] at hB
  rcases hB with (hB | hB) | hB
  · exact slot_length hr (.inl hB)
  · have := List.all_eq_true.1 hn s hs
    simp only [hB, Bool.not_true, Bool.false_or, Bool.and_eq_true, Nat.ble_eq] at this
    refine Nat.le_trans ?_ this.2
    refine List.Sublist.length_le ?_
    unfold MObj.get
    obtain ⟨l, r, hlr⟩ := List.append_of_mem he
    rw [hlr, List.flatMap_append, List.flatMap_cons]
    have : hits s.field e.1 = true := by rw [← hk]; simp [hits, RSlot.key]
    rw [if_pos this]
    exact (List.sublist_append_left _ _).trans (List.sublist_append_right _ _)
  · exact slot_length hr (.inr hB)

theorem obj_lists {n : Nat} {k : Key} {x : Xml} {o : MObj py.F} (h : readObj py strict readers n k x = .ok o) {b : RBody} (hb : readers k = some b) {s : RSlot}
    (hs : s ∈ b.slots) (hl : HoldsList b.cls s.field) (hc : (k, s.field) ∉ cutLists) :
    ∃ p t q, Repeats s.path x p t q ∧ ∀ y ∈ select s.path x, ∃ m us, readItem py strict (readObj py strict readers m) s.item y = .ok us ∧
      ∀ w ∈ us, w ∈ o.get s.field := by
  have hB := lists_readers hb hs
  unfold listB at hB
  rw [← inits_assigned, hl] at hB
  simp only [Bool.or_eq_true, Bool.and_eq_true, Bool.not_eq_true', List.any_eq_true, beq_iff_eq] at hB
  rcases hB with ⟨hw, hlast⟩ | ⟨e, he, h1, h2⟩
  · obtain ⟨p, t, q, hr⟩ := whole_sound hw x
    refine ⟨p, t, q, hr, fun y hy => ?_⟩
    obtain ⟨m, b', vss, rfl, hb', hm, rfl, _⟩ := readObj_succ h
    rw [hb] at hb'
    cases hb'
    obtain ⟨vs, hv, hrs⟩ := slot_vals hm hs
    obtain ⟨us, hu, hsub⟩ := slot_each_list hrs hlast hy
    refine ⟨m, us, hu, fun w hw => ?_⟩
    unfold MObj.get
    refine List.mem_flatMap.2 ⟨(s.key, vs), hv, ?_⟩
    simp [hits, RSlot.key, hsub w hw]
  · exact absurd (by rw [← h1, ← h2]; exact he) hc

end
end Verif.Lemmas
