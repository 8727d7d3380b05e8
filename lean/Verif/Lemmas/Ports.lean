import Verif.Spec.ComSpec
/-!
# Adding com specs to ports
-/
namespace Verif.Lemmas
open Verif Verif.Model Verif.Spec
variable {F : Type}

/-- the classes of the checks have no subclasses -/
def comSpecs : List Key := [k!"NonqueuedSenderComSpec", k!"ServerComSpec", k!"QueuedSenderComSpec", k!"ModeSwitchSenderComSpec", k!"NvProvideComSpec",
  k!"ParameterProvideComSpec", k!"ClientComSpec", k!"NonqueuedReceiverComSpec", k!"QueuedReceiverComSpec", k!"ModeSwitchReceiverComSpec", k!"ParameterRequireComSpec"]

theorem table_comSpecs : Gen.classTable.all (fun c as => as.all fun a => !comSpecs.contains a || a == c) = true := by decide +kernel

theorem inst_leaf {k : Key} (hk : k ∈ comSpecs) (o : MObj F) : o.inst [k] = true ↔ o.cls = k := by
  simp only [MObj.inst, List.any_cons, List.any_nil, Bool.or_false]
  constructor
  · intro h
    have h : (ancestors o.cls).contains k = true := h
    cases hc : Gen.classTable.find? o.cls with
    | some l =>
      have ht := (Bst.all_toList _ _).1 table_comSpecs _ (Bst.find?_mem hc)
      have ha : ancestors o.cls = l := by simp [ancestors, hc]
      rw [ha] at h
      have := List.all_eq_true.1 ht k (by simpa using h)
      simp only [Bool.or_eq_true, Bool.not_eq_true', beq_iff_eq] at this
      rcases this with h0 | h0
      · rw [List.contains_iff_mem.2 hk] at h0; cases h0
      · exact h0.symm
    | none =>
      have ha : ancestors o.cls = [o.cls] := by simp [ancestors, hc]
      rw [ha] at h
      simpa [eq_comm] using h
  · rintro rfl
    exact armodel.refl _

theorem wrongDest_iff {o : MObj F} {f : Key} {dest : Str} : wrongDest o f dest = false ↔ Targets o f dest := by
  unfold wrongDest Targets
  rw [List.any_eq_false]
  refine forall₂_congr fun v hv => ?_
  simp only [bne_iff_ne, ne_eq, Decidable.not_not]
  constructor
  · intro h
    unfold refDest at h
    split at h
    · cases h; exact ⟨_, _, rfl⟩
    · cases h
  · rintro ⟨b, t, rfl⟩; rfl

theorem checkProvided_iff (s : MObj F) : (ProvidedOk s ∧ checkProvided s = .ok ()) ∨ (¬ ProvidedOk s ∧ checkProvided s = .error .valueError) := by
  unfold checkProvided
  simp only [inst_leaf (show k!"NonqueuedSenderComSpec" ∈ comSpecs by decide), inst_leaf (show k!"ServerComSpec" ∈ comSpecs by decide),
    inst_leaf (show k!"QueuedSenderComSpec" ∈ comSpecs by decide), inst_leaf (show k!"ModeSwitchSenderComSpec" ∈ comSpecs by decide),
    inst_leaf (show k!"NvProvideComSpec" ∈ comSpecs by decide), inst_leaf (show k!"ParameterProvideComSpec" ∈ comSpecs by decide)]
  unfold ProvidedOk
  simp only [List.mem_cons, List.not_mem_nil, or_false]
  by_cases h1 : s.cls = k!"NonqueuedSenderComSpec"
  · rw [if_pos h1]
    have hno : ¬ (s.cls = k!"ServerComSpec" ∨ s.cls = k!"QueuedSenderComSpec" ∨ s.cls = k!"ModeSwitchSenderComSpec" ∨ s.cls = k!"NvProvideComSpec" ∨
        s.cls = k!"ParameterProvideComSpec") := by rw [h1]; decide
    by_cases h2 : (s.get k!"dataElementRef").isEmpty = true
    · rw [if_pos h2]
      refine .inr ⟨?_, rfl⟩
      rintro (h | h)
      · exact h.2.1 (List.isEmpty_iff.1 h2)
      · exact hno h
    · rw [if_neg h2]
      cases h3 : wrongDest s k!"dataElementRef" t!"VARIABLE-DATA-PROTOTYPE" with
      | false => exact .inl ⟨.inl ⟨h1, fun h => h2 (List.isEmpty_iff.2 h), wrongDest_iff.1 h3⟩, rfl⟩
      | true =>
        refine .inr ⟨?_, rfl⟩
        rintro (h | h)
        · rw [wrongDest_iff.2 h.2.2] at h3; cases h3
        · exact hno h
  · rw [if_neg h1]
    by_cases h2 : s.cls = k!"ServerComSpec"
    · rw [if_pos h2]; exact .inl ⟨.inr (.inl h2), rfl⟩
    rw [if_neg h2]
    by_cases h3 : s.cls = k!"QueuedSenderComSpec"
    · rw [if_pos h3]; exact .inl ⟨.inr (.inr (.inl h3)), rfl⟩
    rw [if_neg h3]
    by_cases h4 : s.cls = k!"ModeSwitchSenderComSpec"
    · rw [if_pos h4]; exact .inl ⟨.inr (.inr (.inr (.inl h4))), rfl⟩
    rw [if_neg h4]
    by_cases h5 : s.cls = k!"NvProvideComSpec"
    · rw [if_pos h5]; exact .inl ⟨.inr (.inr (.inr (.inr (.inl h5)))), rfl⟩
    rw [if_neg h5]
    by_cases h6 : s.cls = k!"ParameterProvideComSpec"
    · rw [if_pos h6]; exact .inl ⟨.inr (.inr (.inr (.inr (.inr h6)))), rfl⟩
    rw [if_neg h6]
    refine .inr ⟨?_, rfl⟩
    rintro (h | h | h | h | h | h)
    · exact h1 h.1
    · exact h2 h
    · exact h3 h
    · exact h4 h
    · exact h5 h
    · exact h6 h

theorem checkRequired_iff (s : MObj F) : (RequiredOk s ∧ checkRequired s = .ok ()) ∨ (¬ RequiredOk s ∧ checkRequired s = .error .valueError) := by
  unfold checkRequired
  simp only [inst_leaf (show k!"ClientComSpec" ∈ comSpecs by decide), inst_leaf (show k!"NonqueuedReceiverComSpec" ∈ comSpecs by decide),
    inst_leaf (show k!"QueuedReceiverComSpec" ∈ comSpecs by decide), inst_leaf (show k!"ModeSwitchReceiverComSpec" ∈ comSpecs by decide),
    inst_leaf (show k!"ParameterRequireComSpec" ∈ comSpecs by decide)]
  have key : ∀ {c f : Key} {dest : Str}, s.cls = c → ((Targets s f dest → RequiredOk s) ∧ (RequiredOk s → Targets s f dest)) →
      (RequiredOk s ∧ (if wrongDest s f dest = true then (Except.error PyErr.valueError : Except PyErr Unit) else .ok ()) = .ok ()) ∨
      (¬ RequiredOk s ∧ (if wrongDest s f dest = true then (Except.error PyErr.valueError : Except PyErr Unit) else .ok ()) = .error .valueError) := by
    intro c f dest _ hh
    cases h3 : wrongDest s f dest with
    | false => exact .inl ⟨hh.1 (wrongDest_iff.1 h3), rfl⟩
    | true =>
      refine .inr ⟨fun h => ?_, rfl⟩
      rw [wrongDest_iff.2 (hh.2 h)] at h3; cases h3
  by_cases h1 : s.cls = k!"ClientComSpec"
  · rw [if_pos h1]
    refine key h1 ⟨fun h => .inl ⟨h1, h⟩, ?_⟩
    rintro (h | h | h | h)
    · exact h.2
    · exact absurd (h1.symm.trans h.1) (by decide)
    · exact absurd (h1.symm.trans h.1) (by decide)
    · exact absurd (h1 ▸ h) (by decide)
  rw [if_neg h1]
  by_cases h2 : s.cls = k!"NonqueuedReceiverComSpec"
  · rw [if_pos h2]
    refine key h2 ⟨fun h => .inr (.inl ⟨h2, h⟩), ?_⟩
    rintro (h | h | h | h)
    · exact absurd h.1 h1
    · exact h.2
    · exact absurd (h2.symm.trans h.1) (by decide)
    · exact absurd (h2 ▸ h) (by decide)
  rw [if_neg h2]
  by_cases h3 : s.cls = k!"QueuedReceiverComSpec"
  · rw [if_pos h3]; exact .inl ⟨.inr (.inr (.inr (by rw [h3]; decide))), rfl⟩
  rw [if_neg h3]
  by_cases h4 : s.cls = k!"ModeSwitchReceiverComSpec"
  · rw [if_pos h4]; exact .inl ⟨.inr (.inr (.inr (by rw [h4]; decide))), rfl⟩
  rw [if_neg h4]
  by_cases h5 : s.cls = k!"ParameterRequireComSpec"
  · rw [if_pos h5]
    refine key h5 ⟨fun h => .inr (.inr (.inl ⟨h5, h⟩)), ?_⟩
    rintro (h | h | h | h)
    · exact absurd h.1 h1
    · exact absurd h.1 h2
    · exact h.2
    · exact absurd (h5 ▸ h) (by decide)
  rw [if_neg h5]
  refine .inr ⟨?_, rfl⟩
  rintro (h | h | h | h)
  · exact h1 h.1
  · exact h2 h.1
  · exact h5 h.1
  · simp only [List.mem_cons, List.not_mem_nil, or_false] at h
    exact h.elim h3 h4

theorem run_provided {p : Port F} (hk : p.kind = .p) (cs : List (PortCall F)) :
    ∃ l, (p.run cs).provided = p.provided ++ l ∧ l.Sublist ((cs.filter Prod.fst).map Prod.snd) ∧
      (∀ s, s ∈ l ↔ (true, s) ∈ cs ∧ ProvidedOk s) ∧ (p.run cs).required = p.required := by
  induction cs generalizing p with
  | nil => exact ⟨[], by simp [Port.run], by simp, by simp, rfl⟩
  | cons c cs ih =>
    rcases c with ⟨_ | _, s⟩
    · obtain ⟨l, h1, h2, h3, h4⟩ := ih hk
      have hr : p.run ((false, s) :: cs) = p.run cs := by simp [Port.run, Port.call, Port.addRequired, hk]
      exact ⟨l, by rw [hr, h1], by simpa using h2, by simpa using h3, by rw [hr, h4]⟩
    · rcases checkProvided_iff s with ⟨ho, hc⟩ | ⟨ho, hc⟩
      · have hr : p.run ((true, s) :: cs) = Port.run { p with provided := p.provided ++ [s] } cs := by
          simp [Port.run, Port.call, Port.addProvided, hk, hc]
        obtain ⟨l, h1, h2, h3, h4⟩ := ih (p := { p with provided := p.provided ++ [s] }) hk
        refine ⟨s :: l, by rw [hr, h1]; simp, by simpa using h2, fun t => ?_, by rw [hr, h4]⟩
        simp only [List.mem_cons, h3, Prod.mk.injEq, true_and]
        constructor
        · rintro (rfl | ⟨a, b⟩)
          · exact ⟨.inl rfl, ho⟩
          · exact ⟨.inr a, b⟩
        · rintro ⟨rfl | a, b⟩
          · exact .inl rfl
          · exact .inr ⟨a, b⟩
      · have hr : p.run ((true, s) :: cs) = p.run cs := by simp [Port.run, Port.call, Port.addProvided, hk, hc]
        obtain ⟨l, h1, h2, h3, h4⟩ := ih hk
        refine ⟨l, by rw [hr, h1], by simpa using h2.cons s, fun t => ?_, by rw [hr, h4]⟩
        simp only [List.mem_cons, h3, Prod.mk.injEq, true_and]
        constructor
        · rintro ⟨a, b⟩; exact ⟨.inr a, b⟩
        · rintro ⟨rfl | a, b⟩
          · exact absurd b ho
          · exact ⟨a, b⟩

theorem run_required {p : Port F} (hk : p.kind = .r) (cs : List (PortCall F)) :
    ∃ l, (p.run cs).required = p.required ++ l ∧ l.Sublist ((cs.filter fun c => !c.1).map Prod.snd) ∧
      (∀ s, s ∈ l ↔ (false, s) ∈ cs ∧ RequiredOk s) ∧ (p.run cs).provided = p.provided := by
  induction cs generalizing p with
  | nil => exact ⟨[], by simp [Port.run], by simp, by simp, rfl⟩
  | cons c cs ih =>
    rcases c with ⟨_ | _, s⟩
    · rcases checkRequired_iff s with ⟨ho, hc⟩ | ⟨ho, hc⟩
      · have hr : p.run ((false, s) :: cs) = Port.run { p with required := p.required ++ [s] } cs := by
          simp [Port.run, Port.call, Port.addRequired, hk, hc]
        obtain ⟨l, h1, h2, h3, h4⟩ := ih (p := { p with required := p.required ++ [s] }) hk
        refine ⟨s :: l, by rw [hr, h1]; simp, by simpa using h2, fun t => ?_, by rw [hr, h4]⟩
        simp only [List.mem_cons, h3, Prod.mk.injEq, true_and]
        constructor
        · rintro (rfl | ⟨a, b⟩)
          · exact ⟨.inl rfl, ho⟩
          · exact ⟨.inr a, b⟩
        · rintro ⟨rfl | a, b⟩
          · exact .inl rfl
          · exact .inr ⟨a, b⟩
      · have hr : p.run ((false, s) :: cs) = p.run cs := by simp [Port.run, Port.call, Port.addRequired, hk, hc]
        obtain ⟨l, h1, h2, h3, h4⟩ := ih hk
        refine ⟨l, by rw [hr, h1], by simpa using h2.cons s, fun t => ?_, by rw [hr, h4]⟩
        simp only [List.mem_cons, h3, Prod.mk.injEq, true_and]
        constructor
        · rintro ⟨a, b⟩; exact ⟨.inr a, b⟩
        · rintro ⟨rfl | a, b⟩
          · exact absurd b ho
          · exact ⟨a, b⟩
    · obtain ⟨l, h1, h2, h3, h4⟩ := ih hk
      have hr : p.run ((true, s) :: cs) = p.run cs := by simp [Port.run, Port.call, Port.addProvided, hk]
      exact ⟨l, by rw [hr, h1], by simpa using h2, by simpa using h3, by rw [hr, h4]⟩

end Verif.Lemmas
