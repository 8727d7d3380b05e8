import Verif.Lemmas.Collection
/-!
# Properties C01-C05: element collections

Every statement quantifies over an arbitrary class hierarchy `H` and an
arbitrary history `ops` of API calls on a new container; `run H ops` is the
state of the *code* after that history, `Spec.members H ops` the specified list
of members.
-/
namespace Verif.Props
open Verif.Model Verif.Model.Coll Verif.Lemmas

/-- The flat hierarchy with one derived class: 2 is a subclass of 1. -/
def demoHier : Hier where
  sub a b := a == b || (a == 2 && b == 1)
  refl := by simp
  trans := by intro a b c; simp only [Bool.or_eq_true, Bool.and_eq_true, beq_iff_eq]; omega

/-- A history exercising every operation, used for non-vacuity examples. -/
def demoOps : List Op :=
  [.create "A" 1 10, .add ⟨11, "B", 2⟩, .add ⟨12, "A", 3⟩, .create "A" 1 13, .add ⟨14, "B", 2⟩,
   .remove "A" (some 1), .create "C" 2 15]

/-- The enumeration of the code is the specified member list, for every history. -/
theorem C01_enumeration_refines (H : Hier) (ops : List Op) :
    (run H ops).getElements = Spec.members H ops := (run_refines H ops).2

/-- **C01** No two enumerated members have the same short name and the same concrete class. -/
theorem C01_unique_name_type (H : Hier) (ops : List Op) (i j : Nat) (a b : Elem)
    (hi : (run H ops).getElements[i]? = some a) (hj : (run H ops).getElements[j]? = some b)
    (hn : a.name = b.name) (hc : a.cls = b.cls) : i = j := by
  have hu := (run_refines H ops).1.uniq
  rw [List.pairwise_iff_getElem] at hu
  simp only [getElements] at hi hj
  obtain ⟨hi1, hi2⟩ := List.getElem?_eq_some_iff.1 hi
  obtain ⟨hj1, hj2⟩ := List.getElem?_eq_some_iff.1 hj
  rcases Nat.lt_trichotomy i j with h | h | h
  · exact absurd ⟨by rw [hi2, hj2, hn], by rw [hi2, hj2, hc]⟩ (hu i j hi1 hj1 h)
  · exact h
  · exact absurd ⟨by rw [hi2, hj2, hn], by rw [hi2, hj2, hc]⟩ (hu j i hj1 hi1 h)

/-- non-vacuity: after `demoOps` three members are enumerated, two of them sharing a name is possible -/
example : (run demoHier demoOps).getElements = [⟨11, "B", 2⟩, ⟨12, "A", 3⟩, ⟨15, "C", 2⟩] := by decide

/-- **C02** Typed lookup returns the first enumerated element of that name and type, `None` iff there is none. -/
theorem C02_lookup_typed (H : Hier) (ops : List Op) (n : String) (t : Nat) :
    (run H ops).getElement H n (some t)
      = .ok ((run H ops).getElements.find? fun a => a.name == n && H.sub a.cls t) :=
  get_typed H (run_refines H ops).1 n t

/-- **C02** The typed existence test agrees with the enumeration. -/
theorem C02_exists_typed (H : Hier) (ops : List Op) (n : String) (t : Nat) :
    (run H ops).isElementExists H n (some t) = true ↔
      ∃ a ∈ (run H ops).getElements, a.name = n ∧ H.sub a.cls t = true := by
  rw [exists_typed H (run_refines H ops).1, Spec.lookup, List.find?_isSome]
  simp [getElements]

/-- histories without removals -/
def AddOnly (ops : List Op) : Prop := ∀ op ∈ ops, ∀ n t, op ≠ .remove n t

theorem slot_ne_nil_of_addOnly (H : Hier) (ops : List Op) (hops : AddOnly ops) :
    ∀ c : Coll, (∀ n, c.slot n ≠ some []) → ∀ n, (ops.foldl (step H) c).slot n ≠ some [] := by
  induction ops with
  | nil => intro c h; exact h
  | cons op ops ih =>
    intro c h
    refine ih (fun o ho => hops o (List.mem_cons_of_mem _ ho)) _ ?_
    have hadd : ∀ e n, (c.addElement H e).slot n ≠ some [] := by
      intro e n
      cases hex : c.isElementExists H e.name (some e.cls) with
      | true => simpa [addElement, hex] using h n
      | false =>
        rw [slot_add H e hex]
        split
        · simp
        · exact h n
    cases op with
    | add e => exact hadd e
    | create n t f => simp only [step, create_coll]; exact hadd _
    | remove n t => exact absurd rfl (hops _ (List.mem_cons_self ..) n t)

/-- **C02** Untyped lookup returns the first enumerated element of that name (histories without removal;
see `C05_untyped_lookup_broken` for what removal does to it). -/
theorem C02_lookup_untyped (H : Hier) (ops : List Op) (hops : AddOnly ops) (n : String) :
    (run H ops).getElement H n none = .ok ((run H ops).getElements.find? fun a => a.name == n) := by
  rw [get_untyped H (run_refines H ops).1 n
    (slot_ne_nil_of_addOnly H ops hops _ (by simp [Coll.empty, Coll.slot]) n)]
  simp [Spec.lookup, getElements]

/-- **C02** The untyped existence test agrees with the enumeration (histories without removal). -/
theorem C02_exists_untyped (H : Hier) (ops : List Op) (hops : AddOnly ops) (n : String) :
    (run H ops).isElementExists H n none = true ↔ ∃ a ∈ (run H ops).getElements, a.name = n := by
  have hne : (run H ops).slot n ≠ some [] :=
    slot_ne_nil_of_addOnly H ops hops Coll.empty (by simp [Coll.empty, Coll.slot]) n
  have hinv := (run_refines H ops).1
  simp only [isElementExists, getElements]
  cases hs : (run H ops).slot n with
  | none =>
    have := slot_none hinv hs
    simpa using this
  | some l =>
    have hl := slot_some hinv hs
    cases l with
    | nil => exact absurd hs hne
    | cons a l =>
      have : a ∈ (run H ops).elements.filter (fun a => a.name == n) := by rw [← hl]; simp
      simp only [List.mem_filter, beq_iff_eq] at this
      simpa using ⟨a, this⟩

/-- non-vacuity: an add-only history in which lookups find subclass instances -/
example : (run demoHier (demoOps.take 5)).getElement demoHier "B" (some 1) = .ok (some ⟨11, "B", 2⟩)
    ∧ (run demoHier (demoOps.take 5)).getElement demoHier "Z" none = .ok none := by decide
example : AddOnly (demoOps.take 5) := by simp [AddOnly, demoOps]

/-- **C03** get-or-create delivers a contained element of the right name and type and adds at most one element. -/
theorem C03_create_delivers (H : Hier) (ops : List Op) (n : String) (t fresh : Nat) :
    ∃ a, ((run H ops).createTyped H n t fresh).2 = .ok (some a)
      ∧ a ∈ ((run H ops).createTyped H n t fresh).1.getElements
      ∧ a.name = n ∧ H.sub a.cls t = true
      ∧ ((run H ops).createTyped H n t fresh).1.getTotalElement ≤ (run H ops).getTotalElement + 1 := by
  have hinv := (run_refines H ops).1
  generalize run H ops = c at hinv
  have hres : (c.createTyped H n t fresh).2 = (c.addElement H ⟨fresh, n, t⟩).getElement H n (some t) := by
    rw [← create_coll]; rfl
  rw [hres, create_coll, get_typed H (inv_add H hinv _)]
  have hex : ∃ a, Spec.lookup H (c.addElement H ⟨fresh, n, t⟩).elements n (some t) = some a := by
    rw [elements_add H hinv]
    unfold Spec.insert
    cases hl : Spec.lookup H c.elements n (some t) with
    | some a => exact ⟨a, by simp [hl]⟩
    | none =>
      refine ⟨⟨fresh, n, t⟩, ?_⟩
      simp only [Option.isSome_none, Bool.false_eq_true, if_false]
      unfold Spec.lookup at hl ⊢
      rw [List.find?_append, hl]
      simp [H.refl]
  obtain ⟨a, ha⟩ := hex
  obtain ⟨hm, hn, hs⟩ := lookup_some_spec ha
  refine ⟨a, by rw [ha], hm, hn, hs t rfl, ?_⟩
  simp only [getTotalElement, elements_add H hinv, Spec.insert]
  split <;> simp

theorem lookup_prefix (H : Hier) {l : List Elem} {n : String} {t : Option Nat} {a : Elem}
    (h : Spec.lookup H l n t = some a) (r : List Elem) : Spec.lookup H (l ++ r) n t = some a := by
  unfold Spec.lookup at *
  rw [List.find?_append, h]; rfl

theorem apply_prefix (H : Hier) (l : List Elem) (op : Op) (hop : ∀ n t, op ≠ .remove n t) :
    l <+: Spec.apply H l op := by
  cases op with
  | add e => simp only [Spec.apply, Spec.insert]; split <;> simp
  | create n t f => simp only [Spec.apply, Spec.insert]; split <;> simp
  | remove n t => exact absurd rfl (hop n t)

theorem foldl_prefix (H : Hier) (ops : List Op) (hops : AddOnly ops) :
    ∀ l : List Elem, l <+: ops.foldl (Spec.apply H) l := by
  induction ops with
  | nil => intro l; exact List.prefix_rfl
  | cons op ops ih =>
    intro l
    exact (apply_prefix H l op (hops op (List.mem_cons_self ..))).trans
      (ih (fun o ho => hops o (List.mem_cons_of_mem _ ho)) _)

/-- **C03** get-or-create is idempotent: after any further additions, the same call returns the same
element and leaves the container unchanged. -/
theorem C03_create_idempotent (H : Hier) (ops later : List Op) (hlater : AddOnly later)
    (n : String) (t fresh fresh' : Nat) :
    let c1 := ((run H ops).createTyped H n t fresh)
    let c2 := later.foldl (step H) c1.1
    (c2.createTyped H n t fresh').2 = c1.2 ∧ (c2.createTyped H n t fresh').1 = c2 := by
  intro c1 c2
  have hinv := (run_refines H ops).1
  have hinv1 : Inv c1.1 := by
    show Inv ((run H ops).createTyped H n t fresh).1
    rw [create_coll]; exact inv_add H hinv _
  obtain ⟨hinv2, hel2⟩ := foldl_refines H later hinv1
  obtain ⟨a, ha, -⟩ := C03_create_delivers H ops n t fresh
  have hget1 : c1.2 = c1.1.getElement H n (some t) := rfl
  have hl1 : Spec.lookup H c1.1.elements n (some t) = some a := by
    have h := hget1.symm.trans ha
    rw [get_typed H hinv1] at h
    simpa using h
  obtain ⟨r, hr⟩ := foldl_prefix H later hlater c1.1.elements
  have hl2 : Spec.lookup H c2.elements n (some t) = some a := by
    show Spec.lookup H (later.foldl (step H) c1.1).elements n (some t) = some a
    rw [hel2, ← hr]; exact lookup_prefix H hl1 r
  have hexists : c2.isElementExists H n (some t) = true := by
    rw [exists_typed H hinv2, hl2]; rfl
  refine ⟨?_, ?_⟩
  · rw [show c1.2 = .ok (some a) from ha]
    simp only [createTyped, hexists, if_true]
    rw [get_typed H hinv2, hl2]
  · simp [createTyped, hexists]

/-- non-vacuity: creating "A" twice returns object 10 both times -/
example : ((run demoHier [.create "A" 1 10, .add ⟨12, "A", 3⟩]).createTyped demoHier "A" 1 13).2
    = .ok (some ⟨10, "A", 1⟩) := by decide

/-- **C04** An addition or creation keeps the old enumeration as a prefix and adds at most one element. -/
theorem C04_order_stable (H : Hier) (ops : List Op) (op : Op) (hop : ∀ n t, op ≠ .remove n t) :
    ∃ r, r.length ≤ 1 ∧ (step H (run H ops) op).getElements = (run H ops).getElements ++ r := by
  obtain ⟨hinv, -⟩ := run_refines H ops
  obtain ⟨-, hel⟩ := step_refines H hinv op
  simp only [getElements, hel]
  cases op with
  | add e =>
    simp only [Spec.apply, Spec.insert]
    split
    · exact ⟨[], by simp⟩
    · exact ⟨[e], by simp⟩
  | create n t f =>
    simp only [Spec.apply, Spec.insert]
    split
    · exact ⟨[], by simp⟩
    · exact ⟨[⟨f, n, t⟩], by simp⟩
  | remove n t => exact absurd rfl (hop n t)

/-- non-vacuity of C04: the appended element is really there -/
example : (step demoHier (run demoHier demoOps) (.add ⟨20, "D", 7⟩)).getElements
    = (run demoHier demoOps).getElements ++ [⟨20, "D", 7⟩] := by decide

/-- **C05 (partial)** What removal does guarantee: it succeeds iff a matching member exists, takes exactly
that member out, keeps the others in order, and every *typed* lookup and existence test afterwards is
the one of the remaining members; a failing removal changes nothing.
Missing from C05: untyped lookup/existence after removal (`C05_untyped_*_broken`) and the exception
class (`C05_wrong_exception`). -/
theorem C05_remove_partial (H : Hier) (ops : List Op) (n : String) (t : Option Nat) :
    (∀ a, Spec.lookup H (run H ops).getElements n t = some a →
      ∃ c', (run H ops).removeElement H n t = .ok c'
        ∧ c'.getElements = (run H ops).getElements.erase a
        ∧ ∀ n' t', c'.getElement H n' (some t')
              = .ok (Spec.lookup H ((run H ops).getElements.erase a) n' (some t'))
            ∧ c'.isElementExists H n' (some t')
              = (Spec.lookup H ((run H ops).getElements.erase a) n' (some t')).isSome)
    ∧ (Spec.lookup H (run H ops).getElements n t = none →
      (∃ e, (run H ops).removeElement H n t = .error e)
      ∧ step H (run H ops) (.remove n t) = run H ops) := by
  have hinv := (run_refines H ops).1
  generalize run H ops = c at hinv
  refine ⟨?_, ?_⟩
  · intro a ha
    cases hr : c.removeElement H n t with
    | error e =>
      have := remove_error H hinv n t hr
      simp only [getElements] at ha
      rw [this] at ha; cases ha
    | ok c' =>
      obtain ⟨b, hb, hel, -⟩ := remove_ok H hinv n t hr
      simp only [getElements] at ha
      rw [ha] at hb; cases hb
      have hinv' := inv_remove H hinv n t hr
      refine ⟨c', rfl, hel, ?_⟩
      intro n' t'
      rw [get_typed H hinv', exists_typed H hinv', hel]
      exact ⟨rfl, rfl⟩
  · intro hnone
    cases hr : c.removeElement H n t with
    | error e => exact ⟨⟨e, rfl⟩, by simp [step, hr]⟩
    | ok c' =>
      obtain ⟨b, hb, -⟩ := remove_ok H hinv n t hr
      simp only [getElements] at hnone
      rw [hnone] at hb; cases hb

/-- **C05** A removal of a name that was never used raises `KeyError`. -/
theorem C05_missing_name_keyError (H : Hier) (ops : List Op) (hops : AddOnly ops) (n : String) (t : Option Nat)
    (h : ∀ a ∈ (run H ops).getElements, a.name ≠ n) :
    (run H ops).removeElement H n t = .error .keyError := by
  have hex := C02_exists_untyped H ops hops n
  have : (run H ops).isElementExists H n none = false := by
    cases hb : (run H ops).isElementExists H n none with
    | false => rfl
    | true =>
      obtain ⟨a, ha, hn⟩ := hex.1 hb
      exact absurd hn (h a ha)
  simp only [isElementExists] at this
  cases hs : (run H ops).slot n with
  | none => simp [removeElement, hs]
  | some l => simp [hs] at this

/-- **C05 fails**: after removing the only element called "A", the untyped existence test still says yes
although nothing is enumerated. -/
theorem C05_untyped_exists_broken (H : Hier) :
    ∃ ops, (run H ops).getElements = [] ∧ (run H ops).isElementExists H "A" none = true :=
  ⟨[.add ⟨0, "A", 0⟩, .remove "A" none], rfl, rfl⟩

/-- **C05 fails**: the untyped lookup of the removed name raises `IndexError` instead of returning `None`. -/
theorem C05_untyped_lookup_broken (H : Hier) :
    ∃ ops, (run H ops).getElements = [] ∧ (run H ops).getElement H "A" none = .error .indexError :=
  ⟨[.add ⟨0, "A", 0⟩, .remove "A" none], rfl, rfl⟩

/-- **C05 fails**: removing a missing element need not raise `KeyError`
(`IndexError` for a name emptied before, `StopIteration` for a wrong type). -/
theorem C05_wrong_exception :
    (run demoHier [.add ⟨0, "A", 0⟩, .remove "A" none]).removeElement demoHier "A" none = .error .indexError
    ∧ (run demoHier [.add ⟨0, "A", 0⟩]).removeElement demoHier "A" (some 1) = .error .stopIteration := by
  decide

/-- non-vacuity of `C05_remove_partial`, both branches -/
example : Spec.lookup demoHier (run demoHier demoOps).getElements "B" (some 1) = some ⟨11, "B", 2⟩
    ∧ Spec.lookup demoHier (run demoHier demoOps).getElements "B" (some 3) = none := by decide

end Verif.Props
