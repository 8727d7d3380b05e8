import Verif.Lemmas.Create
import Verif.Gen.CreateTable
/-!
# Properties C06 and C07: the `createX(short_name)` methods

The statements range over *every* row of `Verif.Gen.createTable` (all 362 create methods of the model
classes that follow one of the patterns), over every class hierarchy and over every history of
create / add / remove calls on the owning object.
-/
namespace Verif.Props
open Verif Verif.Model Verif.Model.Coll Verif.Lemmas Verif.Gen

/-- the hierarchy without any inheritance, for examples -/
def demoH : Hier where
  sub a b := a == b
  refl := by simp
  trans := by intro a b c; simp only [beq_iff_eq]; exact Eq.trans

/-- every guard-typed method adds to the collection and returns by typed lookup -/
theorem typed_rows_shape : ∀ r ∈ createTable, r.pattern.guard = .typed →
    r.pattern.add = true ∧ r.pattern.ret = .typed := by decide +kernel

/-- **C06 (typed methods, among them every method of `ARPackage`)** Whatever was done with the owner
before, `createX(n)` returns a contained element of class `X` (or a subclass) named `n`. -/
theorem C06_typed_create (H : Hier) (r : CreateRow) (hr : r ∈ createTable) (hg : r.pattern.guard = .typed)
    (ops : List Owner.Op) (n : String) (f : Nat) :
    ∃ a, (Owner.run H ops).result H r n f = .ok (some a) ∧ a.name = n ∧ H.sub a.cls r.target = true
      ∧ a ∈ ((Owner.run H ops).create H r n f).coll.getElements := by
  obtain ⟨hadd, hret⟩ := typed_rows_shape r hr hg
  have hinv := inv_orun H ops
  generalize Owner.run H ops = o at hinv
  have hc : (o.create H r n f).coll = o.coll.addElement H ⟨f, n, r.target⟩ := by
    cases hex : o.coll.isElementExists H n (some r.target) <;>
      simp [Owner.create, Owner.construct, Owner.record, hg, hadd, hex, addElement]
  obtain ⟨a, ha⟩ := lookup_after_add H hinv ⟨f, n, r.target⟩
  obtain ⟨hm, hn, hs⟩ := lookup_some_spec ha
  refine ⟨a, ?_, hn, hs _ rfl, by rw [hc]; exact hm⟩
  simp only [Owner.result, hret, hc]
  rw [get_typed H (inv_add H hinv _)]
  exact congrArg _ ha

/-- all 109 guard-typed methods; `ARPackage`'s are among them -/
theorem C06_typed_count :
    (createTable.filter (fun r => r.pattern.guard == .typed)).length = 109
    ∧ ∀ r ∈ createTable, r.cls = k!"ARPackage" → r.pattern.guard = .typed := by decide +kernel

/-- **C06 (partial: the other methods)** A create method that adds to the collection returns a contained
element of the right class and name, provided nothing was removed and every member of that name already
has the right class.  Missing: the case of a name clash, where the claim is false
(`C06_name_clash_broken`). -/
theorem C06_noclash_partial (H : Hier) (r : CreateRow) (hadd : r.pattern.add = true)
    (hret : r.pattern.ret = .typed ∨ r.pattern.ret = .untyped)
    (hg : r.pattern.guard = .typed ∨ r.pattern.guard = .untyped ∨ r.pattern.guard = .never ∨ r.pattern.guard = .none)
    (ops : List Owner.Op) (hops : NoRemove ops) (n : String) (f : Nat)
    (hclash : ∀ a ∈ (Owner.run H ops).coll.getElements, a.name = n → H.sub a.cls r.target = true) :
    ∃ a, (Owner.run H ops).result H r n f = .ok (some a) ∧ a.name = n ∧ H.sub a.cls r.target = true
      ∧ a ∈ ((Owner.run H ops).create H r n f).coll.getElements := by
  have hinv := inv_orun H ops
  have hfull := full_orun H ops hops
  generalize Owner.run H ops = o at hinv hfull hclash
  simp only [getElements] at hclash ⊢
  have hinv' := inv_create H r hinv n f
  have hfull' := full_create H r hfull n f
  -- a member named `n` of the right class is contained afterwards
  have hex : ∃ a ∈ (o.create H r n f).coll.elements, a.name = n := by
    cases hcon : o.construct H r n with
    | true =>
      obtain ⟨a, ha⟩ := lookup_after_add H hinv ⟨f, n, r.target⟩
      obtain ⟨hm, hn, -⟩ := lookup_some_spec ha
      refine ⟨a, ?_, hn⟩
      simpa [Owner.create, hcon, Owner.record, hadd] using hm
    | false =>
      have : ∃ a ∈ o.coll.elements, a.name = n := by
        rcases hg with hg | hg | hg | hg
        · simp only [Owner.construct, hg, Bool.not_eq_false'] at hcon
          rw [exists_typed H hinv] at hcon
          obtain ⟨a, ha⟩ := Option.isSome_iff_exists.1 hcon
          obtain ⟨hm, hn, -⟩ := lookup_some_spec ha
          exact ⟨a, hm, hn⟩
        · simp only [Owner.construct, hg, Bool.not_eq_false'] at hcon
          exact (exists_untyped H hinv hfull n).1 hcon
        · simp [Owner.construct, hg] at hcon
        · simp [Owner.construct, hg] at hcon
      simpa [Owner.create, hcon] using this
  have hall : ∀ a ∈ (o.create H r n f).coll.elements, a.name = n → H.sub a.cls r.target = true := by
    rcases create_coll_cases H r o n f with e | e <;> rw [e]
    · exact hclash
    · intro a ha hn
      rw [elements_add H hinv, Spec.insert] at ha
      split at ha
      · exact hclash a ha hn
      · rcases List.mem_append.1 ha with ha | ha
        · exact hclash a ha hn
        · simp only [List.mem_singleton] at ha; subst ha; exact H.refl _
  obtain ⟨b, hb, hbn⟩ := hex
  rcases hret with hret | hret
  · simp only [Owner.result, hret]
    rw [get_typed H hinv']
    cases hl : Spec.lookup H (o.create H r n f).coll.elements n (some r.target) with
    | none =>
      have := lookup_none_spec hl b hb hbn
      rw [hall b hb hbn] at this; cases this
    | some a =>
      obtain ⟨hm, hn, hs⟩ := lookup_some_spec hl
      exact ⟨a, rfl, hn, hs _ rfl, hm⟩
  · simp only [Owner.result, hret]
    rw [get_untyped H hinv' n (hfull' n)]
    cases hl : Spec.lookup H (o.create H r n f).coll.elements n none with
    | none =>
      have := List.find?_eq_none.1 hl b hb
      simp [hbn] at this
    | some a =>
      obtain ⟨hm, hn, -⟩ := lookup_some_spec hl
      exact ⟨a, rfl, hn, hall a hm hn, hm⟩

/-- the patterns that do not survive a name clash -/
def clashProne (p : Pattern) : Bool := p.add && (p.ret == .untyped || (p.guard == .untyped && p.ret == .typed))

/-- **C06 fails** for 220 methods: with a member called `n` of an unrelated class present, `createX(n)`
returns `None` or an object that is not an `X`. -/
theorem C06_name_clash_broken (H : Hier) (r : CreateRow) (_ : r ∈ createTable) (hp : clashProne r.pattern = true)
    (c : Nat) (hc : H.sub c r.target = false) (n : String) (f : Nat) :
    ∃ ops, (∃ a ∈ (Owner.run H ops).coll.getElements, a.name = n) ∧
      ∀ a, (Owner.run H ops).result H r n f = .ok (some a) → H.sub a.cls r.target = false := by
  refine ⟨[.add ⟨0, n, c⟩], ⟨⟨0, n, c⟩, by simp [Owner.run, Owner.step, Owner.empty, Coll.empty, addElement,
    isElementExists, Coll.slot, getElements], rfl⟩, ?_⟩
  intro a ha
  have ho : (Owner.run H [.add ⟨0, n, c⟩]) = ⟨⟨[⟨0, n, c⟩], [(n, [⟨0, n, c⟩])]⟩, fun _ => [], fun _ => none⟩ := by
    simp [Owner.run, Owner.step, Owner.empty, Coll.empty, addElement, isElementExists, Coll.slot, alter]
  rw [ho] at ha
  have hslot : ∀ x, ((⟨⟨[⟨0, n, c⟩], [(n, [⟨0, n, c⟩])]⟩, fun _ => [], fun _ => none⟩ : Owner).create H r n f).coll.slot n = some x →
      (r.pattern.guard = .untyped → x = [⟨0, n, c⟩]) ∧ (x = [⟨0, n, c⟩] ∨ x = [⟨0, n, c⟩, ⟨f, n, r.target⟩]) := by
    intro x hx
    rcases hgd : r.pattern.guard <;>
    simp [Owner.create, Owner.construct, Owner.record, hgd, isElementExists, Coll.slot, addElement, alter, inst, hc] at hx <;>
    (try split at hx) <;> (try simp at hx) <;> (try subst hx) <;> simp
  obtain ⟨hadd, hrest⟩ : r.pattern.add = true ∧ (r.pattern.ret = .untyped ∨ (r.pattern.guard = .untyped ∧ r.pattern.ret = .typed)) := by
    simpa [clashProne] using hp
  generalize (⟨⟨[⟨0, n, c⟩], [(n, [⟨0, n, c⟩])]⟩, fun _ => [], fun _ => none⟩ : Owner) = o at ha hslot
  rcases hrest with hr | ⟨hg, hr⟩
  · simp only [Owner.result, hr, getElement] at ha
    cases hs : (o.create H r n f).coll.slot n with
    | none => simp [hs] at ha
    | some x =>
      rcases (hslot x hs).2 with e | e <;> subst e <;> simp [hs] at ha <;> subst ha <;> exact hc
  · simp only [Owner.result, hr, getElement] at ha
    cases hs : (o.create H r n f).coll.slot n with
    | none => simp [hs] at ha
    | some x =>
      have e := (hslot x hs).1 hg
      subst e; simp [hs, inst, hc] at ha

theorem C06_broken_count : (createTable.filter (fun r => clashProne r.pattern)).length = 220 := by decide +kernel

/-- non-vacuity of C06: `ARPackage.createSwBaseType` after a port interface of the same name was added -/
example : ∃ r ∈ createTable, r.method = k!"createSwBaseType" ∧ r.pattern.guard = .typed ∧
    (Owner.run demoH [.add ⟨0, "A", 5⟩]).result demoH r "A" 1 = .ok (some ⟨1, "A", k!"SwBaseType"⟩)  := by decide +kernel

/-- a witness of the failure: `EcucParamConfContainerDef.createEcucBooleanParamDef` hands out an object of class 5 -/
example : ∃ r ∈ createTable, r.method = k!"createEcucBooleanParamDef" ∧ clashProne r.pattern = true ∧
    (Owner.run demoH [.add ⟨0, "A", 5⟩]).result demoH r "A" 1 = .ok (some ⟨0, "A", 5⟩) := by
  decide +kernel

/-! ## C07: dedicated lists -/

/-- The create calls of the history that write to list `k` check the collection for the name first and
register the new object in it. -/
def Checked (k : Key) (ops : List Owner.Op) : Prop :=
  ∀ r n f, Owner.Op.create r n f ∈ ops → r.pattern.store = .list → r.attr = k →
    (r.pattern.guard = .typed ∨ r.pattern.guard = .untyped) ∧ r.pattern.add = true

theorem sublist_step (H : Hier) (k : Key) {o : Owner} (op : Owner.Op)
    (hnr : ∀ n t, op ≠ .remove n t) (hck : Checked k [op])
    (h : (o.lists k).Sublist o.coll.elements) :
    ((o.step H op).lists k).Sublist (o.step H op).coll.elements := by
  cases op with
  | remove n t => exact absurd rfl (hnr n t)
  | add e => exact h.trans (prefix_add H e).sublist
  | create r n f =>
    show ((o.create H r n f).lists k).Sublist (o.create H r n f).coll.elements
    have hck := hck r n f (List.mem_cons_self ..)
    unfold Owner.create
    cases hcon : o.construct H r n with
    | false => simpa using h
    | true =>
      simp only [if_true]
      by_cases hst : r.pattern.store = .list ∧ r.attr = k
      · obtain ⟨hs, hk⟩ := hst
        obtain ⟨hg, ha⟩ := hck hs hk
        have hne : o.coll.isElementExists H n (some r.target) = false := by
          rcases hg with hg | hg <;> simp only [Owner.construct, hg, Bool.not_eq_true'] at hcon
          · exact hcon
          · exact typed_of_untyped H n _ hcon
        simp only [Owner.record, hs, ha, hk, if_true, addElement, hne, Bool.false_eq_true, if_false]
        exact h.append (List.Sublist.refl _)
      · have hl : (o.record H r ⟨f, n, r.target⟩).lists k = o.lists k := by
          simp only [Owner.record]
          cases hs : r.pattern.store with
          | nowhere => rfl
          | field => rfl
          | list => simp only [hs, true_and] at hst; simp only [if_neg (Ne.symm hst)]
        rw [hl]
        simp only [Owner.record]
        split
        · exact h.trans (prefix_add H _).sublist
        · exact h

theorem sublist_run (H : Hier) (k : Key) (ops : List Owner.Op) (hnr : NoRemove ops) (hck : Checked k ops) :
    ∀ o : Owner, (o.lists k).Sublist o.coll.elements →
      ((ops.foldl (Owner.step H) o).lists k).Sublist (ops.foldl (Owner.step H) o).coll.elements := by
  induction ops with
  | nil => intro o h; exact h
  | cons op ops ih =>
    intro o h
    refine ih (fun x hx => hnr x (List.mem_cons_of_mem _ hx))
      (fun r n f hm => hck r n f (List.mem_cons_of_mem _ hm)) _ ?_
    refine sublist_step H k op (hnr op (List.mem_cons_self ..)) ?_ h
    intro r n f hm
    simp only [List.mem_singleton] at hm
    exact hck r n f (by rw [hm]; exact List.mem_cons_self ..)

/-- **C07 (partial)** In every history without removals whose create calls on list `k` have the checked
patterns, the dedicated list enumerates a part of `getElements()` in the same order, and no two of its
entries have the same name and class.  Missing: the unchecked patterns, for which the claim is false
(`C07_duplicates_broken`), and removals, which do not reach the dedicated list (`C07_removal_broken`). -/
theorem C07_dedicated_list_partial (H : Hier) (k : Key) (ops : List Owner.Op)
    (hnr : NoRemove ops) (hck : Checked k ops) :
    ((Owner.run H ops).lists k).Sublist (Owner.run H ops).coll.getElements
    ∧ ((Owner.run H ops).lists k).Pairwise (fun a b => ¬(a.name = b.name ∧ a.cls = b.cls)) := by
  have hs := sublist_run H k ops hnr hck Owner.empty (by simp [Owner.empty])
  exact ⟨hs, (inv_orun H ops).uniq.sublist hs⟩

/-- **C07** A create method with a checked pattern called again, after any further additions and
creations, changes nothing, and returns the object it returned the first time. -/
theorem C07_create_again (H : Hier) (r : CreateRow) (hr : r ∈ createTable)
    (hg : r.pattern.guard = .typed ∨ r.pattern.guard = .untyped)
    (ops later : List Owner.Op) (hops : NoRemove ops) (hlater : NoRemove later) (n : String) (f f' : Nat) :
    let o1 := (Owner.run H ops).create H r n f
    let o2 := later.foldl (Owner.step H) o1
    o2.create H r n f' = o2 ∧
      ∀ a, (Owner.run H ops).result H r n f = .ok (some a) → o2.result H r n f' = .ok (some a) := by
  intro o1 o2
  have hadd : r.pattern.add = true ∧ (r.pattern.ret = .typed ∨ r.pattern.ret = .untyped) := by
    have : ∀ r ∈ createTable, (r.pattern.guard = .typed ∨ r.pattern.guard = .untyped) →
      r.pattern.add = true ∧ (r.pattern.ret = .typed ∨ r.pattern.ret = .untyped) := by decide +kernel
    exact this r hr hg
  have hinv := inv_orun H ops
  have hfull := full_orun H ops hops
  have hinv1 : Inv o1.coll := inv_create H r hinv n f
  have hfull1 : Full o1.coll := full_create H r hfull n f
  have hinv2 : Inv o2.coll := inv_orun_from H later _ hinv1
  have hfull2 : Full o2.coll := full_orun_from H later hlater _ hfull1
  have hpre : o1.coll.elements <+: o2.coll.elements := prefix_orun H later hlater o1
  have hcon : o2.construct H r n = false := by
    rcases hg with hg | hg
    · simp only [Owner.construct, hg, Bool.not_eq_false']
      rw [exists_typed H hinv2]
      have h1 : ∃ a, Spec.lookup H o1.coll.elements n (some r.target) = some a := by
        have : o1.coll = (Owner.run H ops).coll.addElement H ⟨f, n, r.target⟩ := by
          show ((Owner.run H ops).create H r n f).coll = _
          cases hex : (Owner.run H ops).coll.isElementExists H n (some r.target) <;>
            simp [Owner.create, Owner.construct, Owner.record, hg, hadd.1, hex, addElement]
        rw [this]; exact lookup_after_add H hinv ⟨f, n, r.target⟩
      obtain ⟨a, ha⟩ := h1
      rw [show Spec.lookup H o2.coll.elements n (some r.target) = some a from find?_prefix ha hpre]; rfl
    · simp only [Owner.construct, hg, Bool.not_eq_false']
      have h1 : ∃ a ∈ o1.coll.elements, a.name = n := by
        cases hcon : (Owner.run H ops).construct H r n with
        | true =>
          obtain ⟨a, ha⟩ := lookup_after_add H hinv ⟨f, n, r.target⟩
          obtain ⟨hm, hn, -⟩ := lookup_some_spec ha
          refine ⟨a, ?_, hn⟩
          show a ∈ ((Owner.run H ops).create H r n f).coll.elements
          simpa [Owner.create, hcon, Owner.record, hadd.1] using hm
        | false =>
          show ∃ a ∈ ((Owner.run H ops).create H r n f).coll.elements, a.name = n
          rw [show (Owner.run H ops).create H r n f = Owner.run H ops by simp [Owner.create, hcon]]
          simp only [Owner.construct, hg, Bool.not_eq_false'] at hcon
          exact (exists_untyped H hinv hfull n).1 hcon
      obtain ⟨a, ha, hn⟩ := h1
      exact (exists_untyped H hinv2 hfull2 n).2 ⟨a, hpre.subset ha, hn⟩
  have hcr : o2.create H r n f' = o2 := by simp [Owner.create, hcon]
  refine ⟨hcr, ?_⟩
  intro a ha
  rcases hadd.2 with hret | hret
  · simp only [Owner.result, hret, hcr] at ha ⊢
    rw [get_typed H hinv2]
    have ha : o1.coll.getElement H n (some r.target) = .ok (some a) := ha
    rw [get_typed H hinv1] at ha
    have ha : Spec.lookup H o1.coll.elements n (some r.target) = some a := by simpa using ha
    rw [show Spec.lookup H o2.coll.elements n (some r.target) = some a from find?_prefix ha hpre]
  · simp only [Owner.result, hret, hcr] at ha ⊢
    rw [get_untyped H hinv2 n (hfull2 n)]
    have ha : o1.coll.getElement H n none = .ok (some a) := ha
    rw [get_untyped H hinv1 n (hfull1 n)] at ha
    have ha : Spec.lookup H o1.coll.elements n none = some a := by simpa using ha
    rw [show Spec.lookup H o2.coll.elements n none = some a from find?_prefix ha hpre]

/-- the 9 methods that search their own list: names in that list are unique for every history -/
theorem C07_searched_list (H : Hier) (k : Key) (ops : List Owner.Op)
    (hck : ∀ r n f, Owner.Op.create r n f ∈ ops → r.pattern.store = .list → r.attr = k → r.pattern.guard = .listName) :
    (((Owner.run H ops).lists k).map (·.name)).Nodup := by
  have key : ∀ (ops : List Owner.Op) (o : Owner),
      (∀ r n f, Owner.Op.create r n f ∈ ops → r.pattern.store = .list → r.attr = k → r.pattern.guard = .listName) →
      ((o.lists k).map (·.name)).Nodup → (((ops.foldl (Owner.step H) o).lists k).map (·.name)).Nodup := by
    intro ops
    induction ops with
    | nil => intro o _ h; exact h
    | cons op ops ih =>
      intro o hck h
      refine ih _ (fun r n f hm => hck r n f (List.mem_cons_of_mem _ hm)) ?_
      cases op with
      | add e => exact h
      | remove n t =>
        simp only [Owner.step]
        split <;> exact h
      | create r n f =>
        have hck := hck r n f (List.mem_cons_self ..)
        show (((o.create H r n f).lists k).map (·.name)).Nodup
        unfold Owner.create
        cases hcon : o.construct H r n with
        | false => simpa using h
        | true =>
          simp only [if_true, Owner.record]
          cases hs : r.pattern.store with
          | nowhere => exact h
          | field => exact h
          | list =>
            by_cases hk : r.attr = k
            · have hg := hck hs hk
              simp only [Owner.construct, hg, Option.isNone_iff_eq_none, List.find?_eq_none, hk, beq_iff_eq] at hcon
              simp only [hk, if_true, List.map_append, List.map_cons, List.map_nil]
              refine List.nodup_append.2 ⟨h, by simp, ?_⟩
              intro a ha b hb
              simp only [List.mem_singleton] at hb
              obtain ⟨x, hx, rfl⟩ := List.mem_map.1 ha
              subst hb; exact hcon x hx
            · simp only [if_neg (Ne.symm hk)]; exact h
  exact key ops _ hck (by simp [Owner.empty])

/-- patterns that append to their list without a working check -/
def duplicating (p : Pattern) : Bool := (p.guard == .never || p.guard == .none) && p.store == .list

/-- **C07 fails** for 59 methods: calling `createX(n)` twice on a new owner leaves two objects named `n`
in the dedicated list; where the method also registers the object in the collection, `getElements()`
has only one of them. -/
theorem C07_duplicates_broken (H : Hier) (r : CreateRow) (_ : r ∈ createTable) (hp : duplicating r.pattern = true)
    (n : String) (f f' : Nat) :
    let o := Owner.run H [.create r n f, .create r n f']
    o.lists r.attr = [⟨f, n, r.target⟩, ⟨f', n, r.target⟩]
    ∧ (r.pattern.add = true → o.coll.getElements = [⟨f, n, r.target⟩]) := by
  obtain ⟨hg, hs⟩ : (r.pattern.guard = .never ∨ r.pattern.guard = .none) ∧ r.pattern.store = .list := by
    simpa [duplicating] using hp
  have h1 : ∀ o : Owner, o.construct H r n = true := by
    intro o; rcases hg with hg | hg <;> simp [Owner.construct, hg]
  intro o
  have ho : o = ((Owner.empty.record H r ⟨f, n, r.target⟩).record H r ⟨f', n, r.target⟩) := by
    simp [o, Owner.run, Owner.step, Owner.create, h1]
  rw [ho]
  refine ⟨by simp [Owner.record, hs, Owner.empty], ?_⟩
  intro ha
  simp [Owner.record, ha, Owner.empty, getElements, addElement, Coll.empty, isElementExists, Coll.slot, alter,
    inst, H.refl]

theorem C07_broken_count : (createTable.filter (fun r => duplicating r.pattern)).length = 59 := by decide +kernel

/-- **C07 fails** for the 7 methods with an ineffective check and a field: the second call puts a new
object into the field but returns the first one. -/
theorem C07_field_broken (H : Hier) (r : CreateRow) (_ : r ∈ createTable)
    (hp : r.pattern = ⟨.never, true, .field, .untyped⟩) (n : String) (f f' : Nat) :
    (Owner.run H [.create r n f, .create r n f']).fields r.attr = some ⟨f', n, r.target⟩
    ∧ (Owner.run H [.create r n f]).result H r n f' = .ok (some ⟨f, n, r.target⟩) := by
  have h1 : ∀ o : Owner, o.construct H r n = true := by intro o; simp [Owner.construct, hp]
  refine ⟨by simp [Owner.run, Owner.step, Owner.create, h1, Owner.record, hp], ?_⟩
  simp [Owner.run, Owner.step, Owner.create, Owner.result, h1, Owner.record, hp, Owner.empty, addElement,
    Coll.empty, isElementExists, Coll.slot, alter, inst, H.refl, getElement]

/-- **C07 fails** under removal: the removed element stays in the dedicated list. -/
theorem C07_removal_broken (H : Hier) (r : CreateRow) (hs : r.pattern.store = .list)
    (hg : r.pattern.guard = .untyped) (ha : r.pattern.add = true) (n : String) (f : Nat) :
    (Owner.run H [.create r n f, .remove n none]).coll.getElements = []
    ∧ (Owner.run H [.create r n f, .remove n none]).lists r.attr = [⟨f, n, r.target⟩] := by
  simp [Owner.run, Owner.step, Owner.create, Owner.construct, hg, Owner.record, hs, ha, Owner.empty, addElement,
    Coll.empty, isElementExists, Coll.slot, alter, removeElement, getElements]

/-- Within one class the methods writing to the same list agree on whether they check, so the hypothesis
`Checked` of `C07_dedicated_list_partial` holds for every history of that class's create methods. -/
theorem C07_lists_uniform (r r' : CreateRow) (hr : r ∈ createTable) (hr' : r' ∈ createTable)
    (hc : r.cls = r'.cls) (ha : r.attr = r'.attr) (hs : r.pattern.store = .list) (hs' : r'.pattern.store = .list) :
    (r.pattern.guard == .typed || r.pattern.guard == .untyped)
      = (r'.pattern.guard == .typed || r'.pattern.guard == .untyped) := by
  have h : ∀ r ∈ createTable.filter (·.pattern.store == .list), ∀ r' ∈ createTable.filter (·.pattern.store == .list),
      r.attr = r'.attr → r.cls = r'.cls →
      (r.pattern.guard == .typed || r.pattern.guard == .untyped)
        = (r'.pattern.guard == .typed || r'.pattern.guard == .untyped) := by decide +kernel
  exact h r (List.mem_filter.2 ⟨hr, by simp [hs]⟩) r' (List.mem_filter.2 ⟨hr', by simp [hs']⟩) ha hc

/-- non-vacuity: a history with two classes of parameters in the list `parameters` -/
example :
    let rb : CreateRow := ⟨k!"EcucParamConfContainerDef", k!"createEcucBooleanParamDef", k!"EcucBooleanParamDef", ⟨.untyped, true, .list, .untyped⟩, k!"parameters", 0⟩
    let ri : CreateRow := ⟨k!"EcucParamConfContainerDef", k!"createEcucIntegerParamDef", k!"EcucIntegerParamDef", ⟨.untyped, true, .list, .untyped⟩, k!"parameters", 0⟩
    let ops : List Owner.Op := [.create rb "A" 1, .create ri "B" 2, .create rb "A" 3]
    ((Owner.run demoH ops).lists k!"parameters").map (·.id) = [1, 2] := by decide +kernel

end Verif.Props
