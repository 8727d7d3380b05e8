import Verif.Lemmas.AdminTool
import Verif.Lemmas.Load
import Verif.Lemmas.Provenance
import Verif.Spec.ComSpec
/-!
# Where the objects of a loaded document come from
-/
namespace Verif.Lemmas
open Verif Verif.Model Verif.Spec

section
variable {py : Py} {strict : Bool} {T : Key → Option RBody}

theorem item_mem {rd : Key → Xml → Except RErr (MObj py.F)} {i : Item} {y : Xml} {vs : List (MObj py.F)} (h : readItem py strict rd i y = .ok vs) {v : MObj py.F}
    (hv : v ∈ vs) : (∃ s, v = .scal s ∧ ∀ k, i = .prim k → readKind py k y = .ok (some s)) ∨
      ∃ alts k, i = .objs alts ∧ altOf alts y.tag = some k ∧ rd k y = .ok v := by
  have hs : ∀ {r : Except PyErr (Option (Scalar py.F))}, scalars r = .ok vs → ∃ s, v = .scal s ∧ r = .ok (some s) := by
    intro r hr
    unfold scalars at hr
    split at hr
    · cases hr
    · cases hr; cases hv
    · cases hr
      rw [List.mem_singleton] at hv
      exact ⟨_, hv, rfl⟩
  unfold readItem at h
  split at h
  · obtain ⟨s, rfl, hr⟩ := hs h
    exact .inl ⟨s, rfl, fun k hk => by cases hk; exact hr⟩
  · split at h
    · cases h; cases hv
    · obtain ⟨s, rfl, hr⟩ := hs h
      exact .inl ⟨s, rfl, fun k hk => by cases hk⟩
  · split at h
    · cases h
    · cases h
      rw [List.mem_singleton] at hv
      exact .inl ⟨_, hv, fun k hk => by cases hk⟩
  · split at h
    · cases h; cases hv
    · rename_i k hk
      split at h
      · cases h
      · rename_i o ho
        cases h
        rw [List.mem_singleton] at hv
        subst hv
        exact .inr ⟨_, k, rfl, hk, ho⟩
  · split at h
    · cases h; cases hv
    · split at h <;> cases h <;> cases hv
  · split at h
    · cases h; cases hv
    · cases h
  · cases h

theorem slot_member {rd : Key → Xml → Except RErr (MObj py.F)} {x : Xml} {s : RSlot} {vs : List (MObj py.F)} (h : readSlot py strict rd x s = .ok vs) {v : MObj py.F}
    (hv : v ∈ vs) : ∃ y ∈ select s.path x, ∃ us, readItem py strict rd s.item y = .ok us ∧ v ∈ us := by
  obtain ⟨ls, hls, he, _⟩ := readSlot_ok h
  have hf : v ∈ ls.flatten := by
    rw [← he] at hv
    split at hv
    · unfold keepLast at hv
      split at hv
      · cases hv
      · rename_i u hu
        rw [List.mem_singleton] at hv
        subst hv
        exact List.mem_of_getLast? hu
    · exact hv
  obtain ⟨l, hl, hv⟩ := List.mem_flatten.1 hf
  obtain ⟨y, hy, hi⟩ := mapE_from hls l hl
  exact ⟨y, hy, l, hi, hv⟩

theorem obj_mem_at {n : Nat} {k : Key} {x : Xml} {o : MObj py.F} (h : readObj py strict T n k x = .ok o) {e : (Key × Bool) × List (MObj py.F)}
    (he : e ∈ o.fields) {v : MObj py.F} (hv : v ∈ e.2) : ∃ m b s y us, n = m + 1 ∧ T k = some b ∧ o.cls = b.cls ∧ s ∈ b.slots ∧ s.key = e.1 ∧ y ∈ select s.path x ∧
      readItem py strict (readObj py strict T m) s.item y = .ok us ∧ v ∈ us := by
  obtain ⟨m, b, vss, rfl, hb, hm, rfl, hnm⟩ := readObj_succ h
  clear hnm
  obtain ⟨s, hs, hk, hr⟩ : ∃ s ∈ b.slots, s.key = e.1 ∧ readSlot py strict (readObj py strict T m) x s = .ok e.2 := by
    clear hb h
    simp only [MObj.fields] at he
    generalize b.slots = slots at hm he
    induction slots generalizing vss with
    | nil => cases he
    | cons s slots ih =>
      simp only [mapE] at hm
      split at hm
      · cases hm
      rename_i vs hvs
      split at hm
      · cases hm
      rename_i vss' hvss
      cases hm
      simp only [List.map_cons, List.zip_cons_cons, List.mem_cons] at he
      rcases he with rfl | he
      · exact ⟨s, by simp, rfl, hvs⟩
      · obtain ⟨t, ht, h2⟩ := ih _ hvss he
        exact ⟨t, by simp [ht], h2⟩
  obtain ⟨y, hy, us, hi, hv⟩ := slot_member hr hv
  exact ⟨m, b, s, y, us, rfl, hb, rfl, hs, hk, hy, hi, hv⟩

theorem obj_mem {n : Nat} {k : Key} {x : Xml} {o : MObj py.F} (h : readObj py strict T n k x = .ok o) {e : (Key × Bool) × List (MObj py.F)} (he : e ∈ o.fields)
    {v : MObj py.F} (hv : v ∈ e.2) : ∃ m b s y us, T k = some b ∧ o.cls = b.cls ∧ s ∈ b.slots ∧ s.key = e.1 ∧ y ∈ select s.path x ∧
      readItem py strict (readObj py strict T m) s.item y = .ok us ∧ v ∈ us := by
  obtain ⟨m, b, s, y, us, _, h⟩ := obj_mem_at h he hv
  exact ⟨m, b, s, y, us, h⟩

/-- every object of a document was made by a reader method -/
theorem within_read {n : Nat} {k : Key} {x : Xml} {o w : MObj py.F} (h : readObj py strict T n k x = .ok o) (hw : Within o w) :
    (∃ s, w = .scal s) ∨ ∃ m j y, readObj py strict T m j y = .ok w := by
  induction hw generalizing n k x with
  | here o => exact .inr ⟨n, k, x, h⟩
  | inside e he hv hw ih =>
    obtain ⟨m, b, s, y, us, _, _, _, _, _, hi, hv⟩ := obj_mem h he hv
    rcases item_mem hi hv with ⟨s, rfl, _⟩ | ⟨_, j, _, _, hr⟩
    · cases hw with
      | here => exact .inl ⟨s, rfl⟩
      | inside e he => cases he
    · exact ih hr

/-! ## com specs -/

/-- the attribute is read with a check of the destination -/
def aimsAt (f : Key) (dest : Str) (b : RBody) : Bool := b.slots.all fun s => !hits f s.key || s.item == .prim (.refTo dest)

theorem aimsAt_sound {f : Key} {dest : Str} {n : Nat} {k : Key} {x : Xml} {o : MObj py.F} {b : RBody} (h : readObj py strict T n k x = .ok o) (hb : T k = some b)
    (ha : aimsAt f dest b = true) : Targets o f dest := by
  intro v hv
  obtain ⟨e, he, hh, hv⟩ := mem_get hv
  obtain ⟨m, b', s, y, us, hb', _, hs, hk, _, hi, hv⟩ := obj_mem h he hv
  rw [hb] at hb'
  cases hb'
  have := List.all_eq_true.1 ha s hs
  rw [hk, hh] at this
  simp only [Bool.not_true, Bool.false_or, beq_iff_eq] at this
  rw [this] at hi
  rcases item_mem hi hv with ⟨u, rfl, hu⟩ | ⟨_, _, h1, _⟩
  · have := hu _ rfl
    simp only [readKind] at this
    split at this
    · cases this; exact ⟨_, _, rfl⟩
    · cases this
  · cases h1

/-- the attribute is mandatory -/
def hasAlways (f : Key) (b : RBody) : Bool := b.slots.any fun s => s.key == (f, false) && s.req == .always

theorem hasAlways_sound {f : Key} {n : Nat} {k : Key} {x : Xml} {o : MObj py.F} {b : RBody} (h : readObj py strict T n k x = .ok o) (hb : T k = some b)
    (ha : hasAlways f b = true) : o.get f ≠ [] := by
  obtain ⟨m, b', vss, rfl, hb', hm, rfl, hnm⟩ := readObj_succ h
  clear hnm
  rw [hb] at hb'
  cases hb'
  obtain ⟨s, hs, hp⟩ := List.any_eq_true.1 ha
  simp only [Bool.and_eq_true, beq_iff_eq] at hp
  clear hb h ha
  rw [get_mk]
  generalize b.slots = slots at hm hs
  induction slots generalizing vss with
  | nil => cases hs
  | cons t slots ih =>
    simp only [mapE] at hm
    split at hm
    · cases hm
    rename_i vs hvs
    split at hm
    · cases hm
    rename_i vss' hvss
    cases hm
    rcases List.mem_cons.1 hs with rfl | hs
    · intro h0
      simp only [List.map_cons, List.zip_cons_cons, shown, List.flatMap_cons, List.append_eq_nil_iff, hp.1, hits, beq_self_eq_true, Bool.true_or, if_true] at h0
      obtain ⟨ls, _, he, hn⟩ := readSlot_ok hvs
      exact (hn h0.1).1 hp.2
    · intro h0
      simp only [List.map_cons, List.zip_cons_cons, shown, List.flatMap_cons, List.append_eq_nil_iff] at h0
      exact ih _ hvss hs h0.2

/-- reading always raises an exception -/
def never (b : RBody) : Bool := b.slots.any fun s => s.path == .nil && match s.item with
  | .crash _ => true
  | _ => false

theorem never_sound {n : Nat} {k : Key} {x : Xml} {o : MObj py.F} {b : RBody} (h : readObj py strict T n k x = .ok o) (hb : T k = some b) : never b = false := by
  rw [Bool.eq_false_iff]
  intro ha
  obtain ⟨m, b', vss, rfl, hb', hm, _, _⟩ := readObj_succ h
  rw [hb] at hb'
  cases hb'
  obtain ⟨s, hs, hp⟩ := List.any_eq_true.1 ha
  simp only [Bool.and_eq_true, beq_iff_eq] at hp
  obtain ⟨vs, hv, _⟩ := mapE_mem hm hs
  obtain ⟨ls, hls, _⟩ := readSlot_ok hv
  rw [hp.1] at hls
  simp only [select, mapE] at hls
  split at hp
  · rename_i e he
    rw [he] at hls
    simp only [readItem] at hls
    cases hls
  · exact absurd hp.2 (by simp)

/-- the classes, and what is read for them -/
def providedBody (b : RBody) : Bool := (b.cls == k!"NonqueuedSenderComSpec" && hasAlways k!"dataElementRef" b && aimsAt k!"dataElementRef" t!"VARIABLE-DATA-PROTOTYPE" b) ||
  [k!"ServerComSpec", k!"QueuedSenderComSpec", k!"ModeSwitchSenderComSpec", k!"NvProvideComSpec", k!"ParameterProvideComSpec"].contains b.cls

def requiredBody (b : RBody) : Bool := never b || (b.cls == k!"ClientComSpec" && aimsAt k!"operationRef" t!"CLIENT-SERVER-OPERATION" b) ||
  (b.cls == k!"NonqueuedReceiverComSpec" && aimsAt k!"dataElementRef" t!"VARIABLE-DATA-PROTOTYPE" b) ||
  (b.cls == k!"ParameterRequireComSpec" && aimsAt k!"parameterRef" t!"PARAMETER-DATA-PROTOTYPE" b) ||
  [k!"QueuedReceiverComSpec", k!"ModeSwitchReceiverComSpec"].contains b.cls

/-- objects of the class only have objects read with such methods in the attribute -/
def membersBy (c f : Key) (p : RBody → Bool) (b : RBody) : Bool := b.cls != c || b.slots.all fun s => !hits f s.key || match s.item with
  | .objs alts => alts.all fun a => match readers a.2 with
    | some b' => p b'
    | none => false
  | _ => false

theorem table_provided : Gen.readTable.all (fun _ b => membersBy k!"PPortPrototype" k!"providedComSpecs" providedBody b) = true := by decide +kernel

theorem table_required : Gen.readTable.all (fun _ b => membersBy k!"RPortPrototype" k!"requiredComSpecs" requiredBody b) = true := by decide +kernel

theorem members_sound {c f : Key} {p : RBody → Bool} (ht : Gen.readTable.all (fun _ b => membersBy c f p b) = true) (hl : membersBy c f p loadBody = true)
    {n : Nat} {k : Key} {x : Xml} {o : MObj py.F} (h : readObj py strict readers n k x = .ok o) (hc : o.cls = c) {v : MObj py.F} (hv : v ∈ o.get f) :
    ∃ m j y b, readObj py strict readers m j y = .ok v ∧ readers j = some b ∧ v.cls = b.cls ∧ p b = true := by
  obtain ⟨e, he, hh, hv⟩ := mem_get hv
  obtain ⟨m, b, s, y, us, hb, hcb, hs, hk, _, hi, hv⟩ := obj_mem h he hv
  have hm : membersBy c f p b = true := by
    unfold readers at hb
    split at hb
    · cases hb; exact hl
    · exact (Bst.all_toList _ _).1 ht _ (Bst.find?_mem hb)
  unfold membersBy at hm
  rw [← hcb, hc] at hm
  simp only [bne_self_eq_false, Bool.false_or] at hm
  have hm := List.all_eq_true.1 hm s hs
  rw [hk, hh] at hm
  simp only [Bool.not_true, Bool.false_or] at hm
  split at hm
  · rename_i alts ha
    rw [ha] at hi
    rcases item_mem hi hv with ⟨u, rfl, hu⟩ | ⟨alts', j, h1, hj, hr⟩
    · exfalso
      simp only [readItem] at hi
      split at hi
      · cases hi; cases hv
      · split at hi
        · cases hi
        · rename_i o ho
          cases hi
          rw [List.mem_singleton] at hv
          subst hv
          obtain ⟨_, _, _, _, _, _, h2, _⟩ := readObj_succ ho
          cases h2
    · cases h1
      obtain ⟨t', ht'⟩ := altOf_mem' hj
      have hp := List.all_eq_true.1 hm _ ht'
      simp only at hp
      split at hp
      · rename_i b' hb'
        obtain ⟨_, b'', _, _, hb'', _, rfl, _⟩ := readObj_succ hr
        rw [hb'] at hb''
        cases hb''
        exact ⟨m, j, y, b', hr, hb', rfl, hp⟩
      · cases hp
  · cases hm

theorem provided_ok {n : Nat} {k : Key} {x : Xml} {o : MObj py.F} {b : RBody} (h : readObj py strict readers n k x = .ok o) (hb : readers k = some b)
    (hc : o.cls = b.cls) (hp : providedBody b = true) : ProvidedOk o := by
  simp only [providedBody, Bool.or_eq_true, Bool.and_eq_true, beq_iff_eq, List.contains_iff_mem] at hp
  rcases hp with ⟨⟨h1, h2⟩, h3⟩ | h1
  · exact .inl ⟨hc.trans h1, hasAlways_sound h hb h2, aimsAt_sound h hb h3⟩
  · exact .inr (hc ▸ h1)

theorem required_ok {n : Nat} {k : Key} {x : Xml} {o : MObj py.F} {b : RBody} (h : readObj py strict readers n k x = .ok o) (hb : readers k = some b)
    (hc : o.cls = b.cls) (hp : requiredBody b = true) : RequiredOk o := by
  simp only [requiredBody, Bool.or_eq_true, Bool.and_eq_true, beq_iff_eq, List.contains_iff_mem] at hp
  rcases hp with (((h1 | ⟨h1, h2⟩) | ⟨h1, h2⟩) | ⟨h1, h2⟩) | h1
  · rw [never_sound h hb] at h1; cases h1
  · exact .inl ⟨hc.trans h1, aimsAt_sound h hb h2⟩
  · exact .inr (.inl ⟨hc.trans h1, aimsAt_sound h hb h2⟩)
  · exact .inr (.inr (.inl ⟨hc.trans h1, aimsAt_sound h hb h2⟩))
  · exact .inr (.inr (.inr (hc ▸ h1)))

end
end Verif.Lemmas
