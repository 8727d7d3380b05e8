import Verif.Lemmas.Collection
import Verif.Model.Create
namespace Verif.Lemmas
open Verif.Model Verif.Model.Coll

/-- no name has an emptied slot (true as long as nothing was removed) -/
def Full (c : Coll) : Prop := ∀ n, c.slot n ≠ some []

theorem full_empty : Full Coll.empty := by intro n; simp [Coll.empty, Coll.slot]

theorem full_add (H : Hier) {c : Coll} (h : Full c) (e : Elem) : Full (c.addElement H e) := by
  intro n
  cases hex : c.isElementExists H e.name (some e.cls) with
  | true => simpa [addElement, hex] using h n
  | false =>
    rw [slot_add H e hex]
    split
    · simp
    · exact h n

theorem exists_untyped (H : Hier) {c : Coll} (h : Inv c) (hf : Full c) (n : String) :
    c.isElementExists H n none = true ↔ ∃ a ∈ c.elements, a.name = n := by
  simp only [isElementExists]
  cases hs : c.slot n with
  | none => simpa using slot_none h hs
  | some l =>
    have hl := slot_some h hs
    cases l with
    | nil => exact absurd hs (hf n)
    | cons a l =>
      have : a ∈ c.elements.filter (fun a => a.name == n) := by rw [← hl]; simp
      simp only [List.mem_filter, beq_iff_eq] at this
      simpa using ⟨a, this⟩

theorem typed_of_untyped (H : Hier) {c : Coll} (n : String) (t : Nat)
    (h : c.isElementExists H n none = false) : c.isElementExists H n (some t) = false := by
  simp only [isElementExists] at *
  cases hs : c.slot n <;> simp [hs] at *

/-- the collection after a create method -/
theorem create_coll_cases (H : Hier) (r : CreateRow) (o : Owner) (n : String) (f : Nat) :
    (o.create H r n f).coll = o.coll ∨ (o.create H r n f).coll = o.coll.addElement H ⟨f, n, r.target⟩ := by
  unfold Owner.create
  split
  · simp only [Owner.record]
    split
    · exact .inr rfl
    · exact .inl rfl
  · exact .inl rfl

theorem inv_create (H : Hier) (r : CreateRow) {o : Owner} (h : Inv o.coll) (n : String) (f : Nat) :
    Inv (o.create H r n f).coll := by
  rcases create_coll_cases H r o n f with e | e <;> rw [e]
  · exact h
  · exact inv_add H h _

theorem full_create (H : Hier) (r : CreateRow) {o : Owner} (h : Full o.coll) (n : String) (f : Nat) :
    Full (o.create H r n f).coll := by
  rcases create_coll_cases H r o n f with e | e <;> rw [e]
  · exact h
  · exact full_add H h _

theorem inv_ostep (H : Hier) {o : Owner} (h : Inv o.coll) (op : Owner.Op) : Inv (o.step H op).coll := by
  cases op with
  | create r n f => exact inv_create H r h n f
  | add e => exact inv_add H h e
  | remove n t =>
    simp only [Owner.step]
    split
    · rename_i c hc; exact inv_remove H h n t hc
    · exact h

theorem inv_orun_from (H : Hier) (ops : List Owner.Op) : ∀ o : Owner, Inv o.coll → Inv (ops.foldl (Owner.step H) o).coll := by
  induction ops with
  | nil => intro o h; exact h
  | cons op ops ih => intro o h; exact ih _ (inv_ostep H h op)

theorem inv_orun (H : Hier) (ops : List Owner.Op) : Inv (Owner.run H ops).coll :=
  inv_orun_from H ops _ inv_empty

/-- histories without removals -/
def NoRemove (ops : List Owner.Op) : Prop := ∀ op ∈ ops, ∀ n t, op ≠ .remove n t

theorem full_orun_from (H : Hier) (ops : List Owner.Op) (hops : NoRemove ops) :
    ∀ o : Owner, Full o.coll → Full (ops.foldl (Owner.step H) o).coll := by
  induction ops with
  | nil => intro o h; exact h
  | cons op ops ih =>
    intro o h
    refine ih (fun x hx => hops x (List.mem_cons_of_mem _ hx)) _ ?_
    cases op with
    | create r n f => exact full_create H r h n f
    | add e => exact full_add H h e
    | remove n t => exact absurd rfl (hops _ (List.mem_cons_self ..) n t)

theorem full_orun (H : Hier) (ops : List Owner.Op) (hops : NoRemove ops) : Full (Owner.run H ops).coll :=
  full_orun_from H ops hops _ full_empty

theorem prefix_add (H : Hier) {c : Coll} (e : Elem) : c.elements <+: (c.addElement H e).elements := by
  unfold addElement; split <;> simp

theorem prefix_orun (H : Hier) (ops : List Owner.Op) (hops : NoRemove ops) :
    ∀ o : Owner, o.coll.elements <+: (ops.foldl (Owner.step H) o).coll.elements := by
  induction ops with
  | nil => intro o; exact List.prefix_rfl
  | cons op ops ih =>
    intro o
    refine List.IsPrefix.trans ?_ (ih (fun x hx => hops x (List.mem_cons_of_mem _ hx)) _)
    cases op with
    | create r n f =>
      show o.coll.elements <+: (o.create H r n f).coll.elements
      rcases create_coll_cases H r o n f with e | e <;> rw [e]
      · exact List.prefix_rfl
      · exact prefix_add H _
    | add e => exact prefix_add H e
    | remove n t => exact absurd rfl (hops _ (List.mem_cons_self ..) n t)

theorem find?_prefix {α} {p : α → Bool} {l l' : List α} {a : α} (h : l.find? p = some a) (hp : l <+: l') :
    l'.find? p = some a := by
  obtain ⟨r, rfl⟩ := hp
  rw [List.find?_append, h]; rfl

/-- after `addElement(e)` some instance of its class with its name is contained -/
theorem lookup_after_add (H : Hier) {c : Coll} (h : Inv c) (e : Elem) :
    ∃ a, Spec.lookup H (c.addElement H e).elements e.name (some e.cls) = some a := by
  rw [elements_add H h]
  unfold Spec.insert
  cases hl : Spec.lookup H c.elements e.name (some e.cls) with
  | some a => exact ⟨a, by simp [hl]⟩
  | none =>
    refine ⟨e, ?_⟩
    simp only [Option.isSome_none, Bool.false_eq_true, if_false]
    unfold Spec.lookup at hl ⊢
    rw [List.find?_append, hl]
    simp [H.refl]

end Verif.Lemmas
