import Verif.Spec.Collection
/-! Helper lemmas for the collection model. -/
namespace Verif.Lemmas
open Verif.Model Verif.Model.Coll

theorem lookup_alter (n n' : String) (f : List Elem → List Elem) (m : List (String × List Elem)) :
    (alter n f m).lookup n' = if n' = n then (m.lookup n').map f else m.lookup n' := by
  induction m with
  | nil => simp [alter]
  | cons p r ih =>
    obtain ⟨k, v⟩ := p
    by_cases hk : n = k
    · subst hk
      by_cases h : n' = n
      · subst h; simp [alter]
      · have : (n' == n) = false := by simpa using h
        simp [alter, List.lookup_cons, this, h]
    · simp only [alter, if_neg hk, List.lookup_cons, ih]
      by_cases h : n' = k
      · subst h
        have : ¬ n' = n := fun h => hk h.symm
        simp [this]
      · have : (n' == k) = false := by simpa using h
        simp [this]

theorem lookup_append_single (n n' : String) (m : List (String × List Elem)) :
    (m ++ [(n, [])]).lookup n' = match m.lookup n' with
      | some l => some l
      | none => if n' = n then some [] else none := by
  induction m with
  | nil =>
    by_cases h : n' = n
    · subst h; simp
    · have : (n' == n) = false := by simpa using h
      simp [List.lookup_cons, this, h]
  | cons p r ih =>
    obtain ⟨k, v⟩ := p
    simp only [List.cons_append, List.lookup_cons, ih]
    by_cases h : n' = k
    · subst h; simp
    · have : (n' == k) = false := by simpa using h
      simp [this]

/-- The name index lists exactly the enumerated elements of each name. -/
structure Inv (c : Coll) : Prop where
  index : ∀ n, (c.slot n).getD [] = c.elements.filter (fun a => a.name == n)
  uniq : c.elements.Pairwise (fun a b => ¬ (a.name = b.name ∧ a.cls = b.cls))

theorem Inv.nodup {c : Coll} (h : Inv c) : c.elements.Nodup := by
  refine h.uniq.imp ?_
  intro a b hab e
  exact hab ⟨by rw [e], by rw [e]⟩

theorem inv_empty : Inv Coll.empty :=
  ⟨by intro n; simp [Coll.slot, Coll.empty], by simp [Coll.empty]⟩

theorem slot_some {c : Coll} (h : Inv c) {n : String} {l : List Elem} (hs : c.slot n = some l) :
    l = c.elements.filter (fun a => a.name == n) := by
  have := h.index n; simpa [hs] using this

theorem slot_none {c : Coll} (h : Inv c) {n : String} (hs : c.slot n = none) :
    c.elements.filter (fun a => a.name == n) = [] := by
  have := h.index n; simpa [hs] using this.symm

theorem lookup_eq (H : Hier) (l : List Elem) (n : String) (t : Nat) :
    Spec.lookup H l n (some t) = ((l.filter (fun a => a.name == n)).filter (inst H t)).head? := by
  rw [List.filter_filter, List.head?_filter]
  unfold Spec.lookup
  congr 1; funext a
  simp [inst, Bool.and_comm]

theorem lookup_eq_none (H : Hier) (l : List Elem) (n : String) :
    Spec.lookup H l n none = (l.filter (fun a => a.name == n)).head? := by
  rw [List.head?_filter]
  unfold Spec.lookup
  simp

theorem exists_typed (H : Hier) {c : Coll} (h : Inv c) (n : String) (t : Nat) :
    c.isElementExists H n (some t) = (Spec.lookup H c.elements n (some t)).isSome := by
  rw [lookup_eq]
  unfold isElementExists
  cases hs : c.slot n with
  | none => simp [slot_none h hs]
  | some l =>
    rw [← slot_some h hs]
    rw [Bool.eq_iff_iff]
    simp [List.head?_filter, List.find?_isSome]

theorem get_typed (H : Hier) {c : Coll} (h : Inv c) (n : String) (t : Nat) :
    c.getElement H n (some t) = .ok (Spec.lookup H c.elements n (some t)) := by
  rw [lookup_eq]
  unfold getElement
  cases hs : c.slot n with
  | none => simp [slot_none h hs]
  | some l =>
    rw [← slot_some h hs]
    cases hf : l.filter (inst H t) <;> simp [hf]

theorem get_untyped (H : Hier) {c : Coll} (h : Inv c) (n : String) (hne : c.slot n ≠ some []) :
    c.getElement H n none = .ok (Spec.lookup H c.elements n none) := by
  rw [lookup_eq_none]
  unfold getElement
  cases hs : c.slot n with
  | none => simp [slot_none h hs]
  | some l =>
    rw [← slot_some h hs]
    cases l with
    | nil => exact absurd hs hne
    | cons a l => simp

theorem lookup_some_spec {H : Hier} {l : List Elem} {n : String} {t : Option Nat} {a : Elem}
    (h : Spec.lookup H l n t = some a) : a ∈ l ∧ a.name = n ∧ (∀ t', t = some t' → H.sub a.cls t' = true) := by
  have hm := List.mem_of_find?_eq_some h
  have hp := List.find?_some h
  simp only [Bool.and_eq_true, beq_iff_eq] at hp
  refine ⟨hm, hp.1, ?_⟩
  intro t' ht; subst ht; simpa using hp.2

theorem lookup_none_spec {H : Hier} {l : List Elem} {n : String} {t : Nat}
    (h : Spec.lookup H l n (some t) = none) : ∀ a ∈ l, a.name = n → H.sub a.cls t = false := by
  intro a ha hn
  have := List.find?_eq_none.1 h a ha
  simpa [hn] using this

theorem slot_add (H : Hier) {c : Coll} (e : Elem)
    (hex : c.isElementExists H e.name (some e.cls) = false) (n : String) :
    (c.addElement H e).slot n = if n = e.name then some ((c.slot n).getD [] ++ [e]) else c.slot n := by
  have key : ∀ m : List (String × List Elem),
      (if (c.slot e.name).isSome then c.mappings else c.mappings ++ [(e.name, [])]) = m →
      m.lookup n = if n = e.name then some ((c.mappings.lookup n).getD []) else c.mappings.lookup n := by
    intro m hm
    by_cases hs : (c.slot e.name).isSome = true
    · rw [if_pos hs] at hm
      subst hm
      by_cases hn : n = e.name
      · subst hn
        obtain ⟨l, hl⟩ := Option.isSome_iff_exists.1 hs
        have hl' : c.mappings.lookup e.name = some l := hl
        simp [hl']
      · simp [hn]
    · rw [if_neg hs] at hm
      subst hm
      rw [lookup_append_single]
      have hl : c.slot e.name = none := by simpa using hs
      have hl' : c.mappings.lookup e.name = none := hl
      by_cases hn : n = e.name
      · subst hn; simp [hl']
      · cases hs : c.mappings.lookup n <;> simp [hn]
  unfold addElement
  simp only [hex, Bool.false_eq_true, if_false]
  show (alter _ _ _).lookup n = _
  rw [lookup_alter, key _ rfl]
  by_cases hn : n = e.name
  · simp [hn, slot]
  · simp [hn, slot]

theorem elements_add (H : Hier) {c : Coll} (h : Inv c) (e : Elem) :
    (c.addElement H e).elements = Spec.insert H c.elements e := by
  unfold Spec.insert
  rw [← exists_typed H h]
  cases hex : c.isElementExists H e.name (some e.cls) <;> simp [addElement, hex]

theorem inv_add (H : Hier) {c : Coll} (h : Inv c) (e : Elem) : Inv (c.addElement H e) := by
  cases hex : c.isElementExists H e.name (some e.cls) with
  | true => simpa [addElement, hex] using h
  | false =>
    have hel : (c.addElement H e).elements = c.elements ++ [e] := by simp [addElement, hex]
    refine ⟨?_, ?_⟩
    · intro n
      rw [slot_add H e hex, hel, List.filter_append]
      by_cases hn : n = e.name
      · subst hn
        simp [h.index]
      · have : (e.name == n) = false := by simpa using fun h => hn h.symm
        simp [hn, this, h.index]
    · rw [hel, List.pairwise_append]
      refine ⟨h.uniq, by simp, ?_⟩
      intro a ha b hb hab
      simp only [List.mem_singleton] at hb
      subst hb
      rw [exists_typed H h] at hex
      have hnone : Spec.lookup H c.elements b.name (some b.cls) = none := by
        cases hl : Spec.lookup H c.elements b.name (some b.cls) with
        | none => rfl
        | some _ => simp [hl] at hex
      have := lookup_none_spec hnone a ha hab.1
      rw [hab.2, H.refl] at this
      exact absurd this (by simp)

theorem create_coll (H : Hier) {c : Coll} (n : String) (t f : Nat) :
    (c.createTyped H n t f).1 = c.addElement H ⟨f, n, t⟩ := by
  unfold createTyped
  cases hex : c.isElementExists H n (some t) <;> simp [addElement, hex]

/-- What `removeElement` takes out. -/
theorem remove_ok (H : Hier) {c c' : Coll} (h : Inv c) (n : String) (t : Option Nat)
    (hr : c.removeElement H n t = .ok c') :
    ∃ a, Spec.lookup H c.elements n t = some a ∧
      c'.elements = c.elements.erase a ∧
      ∀ m, c'.slot m = if m = n then (c.slot m).map (fun l => l.erase a) else c.slot m := by
  unfold removeElement at hr
  cases hs : c.slot n with
  | none => simp [hs] at hr
  | some l =>
    have hl := slot_some h hs
    simp only [hs] at hr
    cases t with
    | none =>
      rw [lookup_eq_none, ← hl]
      cases l with
      | nil => simp at hr
      | cons a l =>
        simp only [Except.ok.injEq] at hr
        subst hr
        exact ⟨a, rfl, rfl, fun m => by simp [slot, lookup_alter]⟩
    | some t =>
      rw [lookup_eq, ← hl]
      cases hf : l.filter (inst H t) with
      | nil => simp [hf] at hr
      | cons a r =>
        simp only [hf, Except.ok.injEq] at hr
        subst hr
        exact ⟨a, rfl, rfl, fun m => by simp [slot, lookup_alter]⟩

theorem remove_error (H : Hier) {c : Coll} (h : Inv c) (n : String) (t : Option Nat) {e : PyErr}
    (hr : c.removeElement H n t = .error e) : Spec.lookup H c.elements n t = none := by
  unfold removeElement at hr
  cases hs : c.slot n with
  | none =>
    have hn := slot_none h hs
    cases t with
    | none => rw [lookup_eq_none, hn]; rfl
    | some t => rw [lookup_eq, hn]; rfl
  | some l =>
    have hl := slot_some h hs
    simp only [hs] at hr
    cases t with
    | none =>
      rw [lookup_eq_none, ← hl]
      cases l with
      | nil => rfl
      | cons a l => simp at hr
    | some t =>
      rw [lookup_eq, ← hl]
      cases hf : l.filter (inst H t) with
      | nil => rfl
      | cons a r => simp [hf] at hr

theorem filter_erase_name (l : List Elem) (a : Elem) (n : String) (hnd : l.Nodup) :
    (l.erase a).filter (fun b => b.name == n) = (l.filter (fun b => b.name == n)).erase a := by
  rw [hnd.erase_eq_filter, List.Nodup.erase_eq_filter (hnd.filter _), List.filter_filter, List.filter_filter]
  congr 1; funext b; exact Bool.and_comm _ _

theorem filter_erase_ne (l : List Elem) (a : Elem) (n : String) (hn : a.name ≠ n) (hnd : l.Nodup) :
    (l.erase a).filter (fun b => b.name == n) = l.filter (fun b => b.name == n) := by
  rw [hnd.erase_eq_filter, List.filter_filter]
  apply List.filter_congr
  intro b _
  by_cases hb : b.name = n
  · have : b ≠ a := fun h => hn (h ▸ hb)
    simp [this]
  · simp [hb]

theorem inv_remove (H : Hier) {c c' : Coll} (h : Inv c) (n : String) (t : Option Nat)
    (hr : c.removeElement H n t = .ok c') : Inv c' := by
  obtain ⟨a, ha, hel, hsl⟩ := remove_ok H h n t hr
  obtain ⟨hmem, hname, -⟩ := lookup_some_spec ha
  refine ⟨?_, ?_⟩
  · intro m
    rw [hsl m, hel]
    by_cases hm : m = n
    · subst hm
      rw [filter_erase_name _ _ _ h.nodup, ← h.index]
      cases c.slot m <;> simp
    · have : a.name ≠ m := fun h => hm (h ▸ hname)
      simp only [if_neg hm]
      rw [filter_erase_ne _ _ _ this h.nodup, h.index]
  · rw [hel]
    exact h.uniq.sublist List.erase_sublist

theorem step_refines (H : Hier) {c : Coll} (h : Inv c) (op : Op) :
    Inv (step H c op) ∧ (step H c op).elements = Spec.apply H c.elements op := by
  cases op with
  | add e => exact ⟨inv_add H h e, elements_add H h e⟩
  | create n t f =>
    simp only [step, create_coll]
    exact ⟨inv_add H h _, elements_add H h _⟩
  | remove n t =>
    simp only [step, Spec.apply, Spec.remove]
    cases hr : c.removeElement H n t with
    | error e => simp [remove_error H h n t hr, h]
    | ok c' =>
      obtain ⟨a, ha, hel, -⟩ := remove_ok H h n t hr
      simp [ha, hel, inv_remove H h n t hr]

theorem foldl_refines (H : Hier) (ops : List Op) : ∀ {c : Coll}, Inv c →
    Inv (ops.foldl (step H) c) ∧ (ops.foldl (step H) c).elements = ops.foldl (Spec.apply H) c.elements := by
  induction ops with
  | nil => intro c h; exact ⟨h, rfl⟩
  | cons op ops ih =>
    intro c h
    obtain ⟨h1, h2⟩ := step_refines H h op
    obtain ⟨h3, h4⟩ := ih h1
    exact ⟨h3, by simp [h4, h2]⟩

theorem run_refines (H : Hier) (ops : List Op) :
    Inv (run H ops) ∧ (run H ops).elements = Spec.members H ops :=
  foldl_refines H ops inv_empty

end Verif.Lemmas
