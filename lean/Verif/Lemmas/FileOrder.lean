import Verif.Spec.FileOrder
import Verif.Lemmas.TagsTable
/-!
# The order in which values are read
-/
namespace Verif.Lemmas
open Verif Verif.Model Verif.Spec

theorem inOrder_eq (x : Xml) : inOrder x = x :: allInOrder x.kids := by cases x; rw [inOrder]; rfl

theorem allInOrder_eq (l : List Xml) : allInOrder l = l.flatMap inOrder := by
  induction l with
  | nil => rw [allInOrder]; rfl
  | cons x l ih => rw [allInOrder, ih]; rfl

theorem kid_sub {x y : Xml} (h : y ∈ x.kids) : (inOrder y).Sublist (inOrder x) := by
  rw [inOrder_eq x, allInOrder_eq]
  refine List.Sublist.cons _ ?_
  obtain ⟨l, r, h⟩ := List.append_of_mem h
  rw [h, List.flatMap_append, List.flatMap_cons]
  exact (List.sublist_append_left _ _).trans (List.sublist_append_right _ _)

theorem via_sub {ts : List Key} {x y : Xml} (h : Via ts x y) : (inOrder y).Sublist (inOrder x) := by
  induction h with
  | nil => exact List.Sublist.refl _
  | cons hm _ ih => exact ih.trans (kid_sub hm)

theorem flatMap_sub {f g : Xml → List Xml} {l : List Xml} (h : ∀ y ∈ l, (f y).Sublist (g y)) : (l.flatMap f).Sublist (l.flatMap g) := by
  induction l with
  | nil => exact List.Sublist.refl _
  | cons x l ih =>
    rw [List.flatMap_cons, List.flatMap_cons]
    exact (h x (by simp)).append (ih fun y hy => h y (by simp [hy]))

/-- a path selects elements in the order of the file -/
theorem select_sub (p : Path) (x : Xml) : (select p x).Sublist (inOrder x) := by
  induction p generalizing x with
  | nil =>
    rw [inOrder_eq]
    simp only [select]
    exact (List.nil_sublist _).cons₂ _
  | all t r ih =>
    simp only [select]
    rw [inOrder_eq, allInOrder_eq]
    refine List.Sublist.cons _ ((flatMap_sub fun y _ => ih y).trans ?_)
    exact List.filter_sublist.flatMap _
  | first qs r ih =>
    simp only [select]
    split
    · exact List.nil_sublist _
    · rename_i z l hz
      obtain ⟨_, hu, _⟩ := walk_via (rs := qs) (x := x) (y := z) (by rw [hz]; simp)
      exact (ih z).trans (via_sub hu)
  | pick qs r ih =>
    simp only [select]
    split
    · exact List.nil_sublist _
    · rename_i z hz
      exact (ih z).trans (kid_sub (pickKid_via hz).1)
  | need p r _ ih =>
    simp only [select]
    split
    · exact List.nil_sublist _
    · exact ih x
  | lack p r _ ih =>
    simp only [select]
    split
    · exact ih x
    · exact List.nil_sublist _
  | alt p q ihp ihq =>
    simp only [select]
    split
    · exact ihq x
    · exact ihp x

section
variable {py : Py} {strict : Bool}

/-- one element makes at most one value -/
theorem item_one {rd : Key → Xml → Except RErr (MObj py.F)} (hrd : ∀ k y o, rd k y = .ok o → Mirrors py wrongNames o y) {i : Item} {y : Xml}
    {us : List (MObj py.F)} (hi : readItem py strict rd i y = .ok us) : us = [] ∨ ∃ w, us = [w] ∧ Shows py w y := by
  have hsc : ∀ {r : Except PyErr (Option (Scalar py.F))}, scalars r = .ok us → us = [] ∨ ∃ s, us = [.scal s] ∧ r = .ok (some s) := by
    intro r hr
    unfold scalars at hr
    split at hr
    · cases hr
    · cases hr; exact .inl rfl
    · cases hr; exact .inr ⟨_, rfl, rfl⟩
  cases i with
  | prim k =>
    rcases hsc hi with h | ⟨s, rfl, h⟩
    · exact .inl h
    · exact .inr ⟨_, rfl, .mirrors (.content h)⟩
  | attr n k =>
    simp only [readItem] at hi
    split at hi
    · cases hi; exact .inl rfl
    · rename_i v hv
      rcases hsc hi with h | ⟨s, rfl, h⟩
      · exact .inl h
      · exact .inr ⟨_, rfl, .attr hv h⟩
  | name =>
    simp only [readItem] at hi
    split at hi
    · cases hi
    · cases hi; exact .inr ⟨_, rfl, .mirrors (.name y)⟩
  | objs alts =>
    simp only [readItem] at hi
    split at hi
    · cases hi; exact .inl rfl
    · split at hi
      · cases hi
      · rename_i o ho
        cases hi
        exact .inr ⟨_, rfl, .mirrors (hrd _ _ _ ho)⟩
  | guard tags g =>
    simp only [readItem] at hi
    split at hi
    · cases hi; exact .inl rfl
    · split at hi <;> cases hi <;> exact .inl rfl
  | want t e =>
    simp only [readItem] at hi
    split at hi <;> cases hi
    exact .inl rfl
  | crash e => cases hi

theorem items_order {rd : Key → Xml → Except RErr (MObj py.F)} (hrd : ∀ k y o, rd k y = .ok o → Mirrors py wrongNames o y) {i : Item} {ys : List Xml}
    {vs : List (List (MObj py.F))} (h : mapE (readItem py strict rd i) ys = .ok vs) : ∃ zs, zs.Sublist ys ∧ List.Forall₂ (Shows py) vs.flatten zs := by
  induction ys generalizing vs with
  | nil => cases h; exact ⟨[], List.Sublist.refl _, .nil⟩
  | cons y ys ih =>
    simp only [mapE] at h
    split at h
    · cases h
    rename_i us hus
    split at h
    · cases h
    rename_i vs' hvs
    cases h
    obtain ⟨zs, hz, hf⟩ := ih hvs
    rcases item_one hrd hus with rfl | ⟨w, rfl, hw⟩
    · exact ⟨zs, hz.cons _, by simpa using hf⟩
    · exact ⟨y :: zs, hz.cons₂ _, List.Forall₂.cons hw hf⟩

theorem last_order {vs : List (MObj py.F)} {zs : List Xml} (h : List.Forall₂ (Shows py) vs zs) :
    ∃ ws, ws.Sublist zs ∧ List.Forall₂ (Shows py) (keepLast vs) ws := by
  induction h with
  | nil => exact ⟨[], List.Sublist.refl _, .nil⟩
  | @cons v z vs zs hv ht ih =>
    cases ht with
    | nil => exact ⟨[z], List.Sublist.refl _, by simpa [keepLast] using hv⟩
    | cons _ _ =>
      obtain ⟨ws, hs, hf⟩ := ih
      refine ⟨ws, hs.cons _, ?_⟩
      unfold keepLast at hf ⊢
      rw [List.getLast?_cons_cons]
      exact hf

theorem slot_order {rd : Key → Xml → Except RErr (MObj py.F)} (hrd : ∀ k y o, rd k y = .ok o → Mirrors py wrongNames o y) {x : Xml} {s : RSlot}
    {vs : List (MObj py.F)} (h : readSlot py strict rd x s = .ok vs) : ∃ ys, ys.Sublist (inOrder x) ∧ List.Forall₂ (Shows py) vs ys := by
  obtain ⟨ls, hls, he, _⟩ := readSlot_ok h
  obtain ⟨zs, hz, hf⟩ := items_order hrd hls
  have hz := hz.trans (select_sub s.path x)
  split at he
  · obtain ⟨ws, hw, hf⟩ := last_order hf
    exact ⟨ws, hw.trans hz, he ▸ hf⟩
  · exact ⟨zs, hz, he ▸ hf⟩

theorem obj_order {n : Nat} {k : Key} {x : Xml} {o : MObj py.F} (h : readObj py strict readers n k x = .ok o) : Ordered py o x := by
  obtain ⟨m, b, vss, rfl, hb, hm, rfl, _⟩ := readObj_succ h
  intro e he
  have := (List.of_mem_zip he).2
  obtain ⟨s, _, hs⟩ := mapE_from hm e.2 this
  exact slot_order (fun _ _ _ h => obj_mirrors names_table placesB_readers h) hs

theorem within_order {n : Nat} {k : Key} {x : Xml} {o w : MObj py.F} (h : readObj py strict readers n k x = .ok o) (hw : Within o w) :
    ∃ y ∈ inOrder x, Ordered py w y := by
  induction hw generalizing n k x with
  | here o => exact ⟨x, by rw [inOrder_eq]; simp, obj_order h⟩
  | inside e he hv hw ih =>
    obtain ⟨m, b, s, y, us, _, _, _, _, hy, hi, hv⟩ := obj_mem h he hv
    rcases item_mem hi hv with ⟨s, rfl, _⟩ | ⟨_, j, _, _, hr⟩
    · cases hw with
      | here => exact ⟨x, by rw [inOrder_eq]; simp, fun e he => by cases he⟩
      | inside e he => cases he
    · obtain ⟨z, hz, ho⟩ := ih hr
      obtain ⟨_, _, _, hv, _⟩ := select_via hy
      exact ⟨z, (via_sub hv).subset hz, ho⟩

end
end Verif.Lemmas
