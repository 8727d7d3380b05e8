import Verif.Spec.Singleton
/-!
# Property C73: one document for the whole program
-/
namespace Verif.Props
open Verif.Model.Singleton Verif.Spec

theorem run_append (s : State) (l m : List (Nat × Call)) : s.run (l ++ m) = (s.run l).run m := by
  induction l generalizing s with
  | nil => rfl
  | cons p l ih => exact ih _

/-- what holds under every schedule -/
structure Inv (s : State) : Prop where
  ret : ∀ i, s.pc i = .ret → s.inst ≠ none
  ready : ∀ d, s.inst = some d → s.ready d = true ∨ ∃ i c, s.pc i = .init c d
  init : ∀ i c d, s.pc i = .init c d → s.inst ≠ none
  some : ∀ x ∈ s.ended, x.2 = .raised ∨ ∃ d b, x.2 = .returned (some d) b
  ended : s.ended ≠ [] → s.inst ≠ none

theorem inv_start : Inv start := ⟨fun _ h => (nomatch h), fun _ h => (nomatch h), fun _ _ _ h => (nomatch h), fun _ h => (nomatch h), fun h => absurd rfl h⟩

theorem goto_self (s : State) (i : Nat) (p : Pc) : (s.goto i p).pc i = p := if_pos rfl
theorem goto_other (s : State) {i j : Nat} (p : Pc) (h : j ≠ i) : (s.goto i p).pc j = s.pc j := if_neg h

/-- a thread moves, not setting the attribute -/
theorem inv_goto {s : State} {i : Nat} {p : Pc} (h : Inv s) (hi : ∀ c d, s.pc i = .init c d → s.ready d = true)
    (hp : (p = .ret ∨ ∃ c d, p = .init c d) → s.inst ≠ none) : Inv (s.goto i p) := by
  refine ⟨fun j hj => ?_, fun d hd => ?_, fun j c d hj => ?_, h.some, h.ended⟩
  · by_cases hji : j = i
    · subst hji; rw [goto_self] at hj; exact hp (.inl hj)
    · rw [goto_other s p hji] at hj; exact h.ret j hj
  · rcases h.ready d hd with hr | ⟨j, c, hj⟩
    · exact .inl hr
    · by_cases hji : j = i
      · subst hji; exact .inl (hi c d hj)
      · exact .inr ⟨j, c, (goto_other s p hji).trans hj⟩
  · by_cases hji : j = i
    · subst hji; rw [goto_self] at hj; exact hp (.inr ⟨c, d, hj⟩)
    · rw [goto_other s p hji] at hj; exact h.init j c d hj

theorem inv_finish {s : State} {i : Nat} {c : Call} {r : Result} (h : Inv s) (hi : ∀ c d, s.pc i = .init c d → s.ready d = true)
    (hs : s.inst ≠ none) (hr : r = .raised ∨ ∃ d b, r = .returned (some d) b) : Inv (s.finish i c r) := by
  have h1 := inv_goto (p := .idle) h hi (by rintro (h | ⟨_, _, h⟩) <;> cases h)
  refine ⟨h1.ret, h1.ready, h1.init, fun x hx => ?_, fun _ => hs⟩
  rcases List.mem_append.1 hx with hx | hx
  · exact h.some x hx
  · rw [List.mem_singleton.1 hx]; exact hr

theorem inv_ready {s : State} (h : Inv s) (d : Nat) : Inv { s with ready := fun e => if e = d then true else s.ready e } := by
  refine ⟨h.ret, fun e he => ?_, h.init, h.some, h.ended⟩
  rcases h.ready e he with hr | hr
  · refine .inl ?_
    show (if e = d then true else s.ready e) = true
    split
    · rfl
    · exact hr
  · exact .inr hr

theorem inv_step {s : State} (h : Inv s) (i : Nat) (c : Call) : Inv (s.step i c) := by
  unfold State.step
  cases hpc : s.pc i with
  | idle =>
    have hi : ∀ c d, s.pc i = .init c d → s.ready d = true := fun c d h' => by rw [hpc] at h'; cases h'
    cases c with
    | getInstance =>
      dsimp only
      split
      · exact inv_goto h hi (by rintro (h | ⟨_, _, h⟩) <;> cases h)
      · rename_i hs; exact inv_goto h hi (fun _ => hs)
    | construct => exact inv_goto h hi (by rintro (h | ⟨_, _, h⟩) <;> cases h)
  | alloc c' =>
    have hi : ∀ c d, s.pc i = .init c d → s.ready d = true := fun c d h' => by rw [hpc] at h'; cases h'
    have := inv_goto (p := .check c' s.next) h hi (by rintro (h | ⟨_, _, h⟩) <;> cases h)
    exact ⟨this.ret, this.ready, this.init, this.some, this.ended⟩
  | check c' d =>
    have hi : ∀ c d, s.pc i = .init c d → s.ready d = true := fun c d h' => by rw [hpc] at h'; cases h'
    dsimp only
    split
    · rename_i hs; exact inv_finish h hi hs (.inl rfl)
    · exact inv_goto h hi (by rintro (h | ⟨_, _, h⟩) <;> cases h)
  | set c' d =>
    refine ⟨fun j hj => (fun h => (nomatch h)), fun e he => ?_, fun j _ _ hj => (fun h => (nomatch h)), h.some, fun _ h => (nomatch h)⟩
    have : d = e := Option.some.inj he
    subst this
    exact .inr ⟨i, c', goto_self s i _⟩
  | init c' d =>
    have hs := h.init i c' d hpc
    have hi : ∀ c e, s.pc i = .init c e → (if e = d then true else s.ready e) = true := fun c e h' => by
      rw [hpc] at h'; cases h'; exact if_pos rfl
    cases c' with
    | getInstance => exact inv_goto (inv_ready h d) hi (fun _ => hs)
    | construct => exact inv_finish (inv_ready h d) hi hs (.inr ⟨d, true, rfl⟩)
  | ret =>
    have hi : ∀ c d, s.pc i = .init c d → s.ready d = true := fun c d h' => by rw [hpc] at h'; cases h'
    have hs := h.ret i hpc
    refine inv_finish h hi hs (.inr ?_)
    cases hd : s.inst with
    | none => exact absurd hd hs
    | some d => exact ⟨d, _, rfl⟩

theorem inv_run {s : State} (h : Inv s) (l : List (Nat × Call)) : Inv (s.run l) := by
  induction l generalizing s with
  | nil => exact h
  | cons p l ih => exact ih (inv_step h p.1 p.2)

theorem inv_reachable {s : State} (h : Reachable s) : Inv s := by
  obtain ⟨l, rfl⟩ := h
  exact inv_run inv_start l

/-- the document `d` is there, complete, and nobody constructs another one that could replace it -/
structure Settled (d : Nat) (s : State) : Prop where
  inst : s.inst = some d
  ready : s.ready d = true
  pc : ∀ i, s.pc i = .idle ∨ s.pc i = .ret ∨ s.pc i = .alloc .construct ∨ ∃ e, s.pc i = .check .construct e

theorem settled_goto {d : Nat} {s : State} {i : Nat} {p : Pc} (h : Settled d s)
    (hp : p = .idle ∨ p = .ret ∨ p = .alloc .construct ∨ ∃ e, p = .check .construct e) : Settled d (s.goto i p) :=
  ⟨h.inst, h.ready, fun j => by
    by_cases hji : j = i
    · subst hji; rw [goto_self]; exact hp
    · rw [goto_other s p hji]; exact h.pc j⟩

theorem settled_step {d : Nat} {s : State} (h : Settled d s) (i : Nat) (c : Call) :
    Settled d (s.step i c) ∧ ∃ new, (s.step i c).ended = s.ended ++ new ∧ ∀ x ∈ new, AsSingleton d x := by
  have fin : ∀ c r, AsSingleton d (c, r) → Settled d (s.finish i c r) ∧ ∃ new, (s.finish i c r).ended = s.ended ++ new ∧ ∀ x ∈ new, AsSingleton d x := by
    intro c r hr
    have h1 := settled_goto (i := i) (p := .idle) h (.inl rfl)
    exact ⟨⟨h1.inst, h1.ready, h1.pc⟩, [(c, r)], rfl, fun x hx => by rw [List.mem_singleton.1 hx]; exact hr⟩
  have go : ∀ p, (p = .idle ∨ p = .ret ∨ p = .alloc .construct ∨ ∃ e, p = .check .construct e) →
      Settled d (s.goto i p) ∧ ∃ new, (s.goto i p).ended = s.ended ++ new ∧ ∀ x ∈ new, AsSingleton d x := fun p hp =>
    ⟨settled_goto h hp, [], (List.append_nil _).symm, fun _ h => (nomatch h)⟩
  unfold State.step
  rcases h.pc i with hpc | hpc | hpc | ⟨e, hpc⟩ <;> rw [hpc]
  · cases c with
    | getInstance =>
      dsimp only
      rw [if_neg (by rw [h.inst]; exact fun h => (nomatch h))]
      exact go _ (.inr (.inl rfl))
    | construct => exact go _ (.inr (.inr (.inl rfl)))
  · refine fin _ _ ?_
    rw [h.inst]
    show Result.returned (some d) (s.ready d) = _
    rw [h.ready]
  · have := (go (.check .construct s.next) (.inr (.inr (.inr ⟨_, rfl⟩)))).1
    exact ⟨⟨this.inst, this.ready, this.pc⟩, [], (List.append_nil _).symm, fun _ h => (nomatch h)⟩
  · dsimp only
    rw [if_pos (by rw [h.inst]; exact fun h => (nomatch h))]
    exact fin _ _ rfl

theorem settled_run {d : Nat} {s : State} (h : Settled d s) (l : List (Nat × Call)) :
    ∃ new, (s.run l).ended = s.ended ++ new ∧ ∀ x ∈ new, AsSingleton d x := by
  induction l generalizing s with
  | nil => exact ⟨[], (List.append_nil _).symm, fun _ h => (nomatch h)⟩
  | cons p l ih =>
    obtain ⟨h1, n1, e1, a1⟩ := settled_step h p.1 p.2
    obtain ⟨n2, e2, a2⟩ := ih h1
    refine ⟨n1 ++ n2, ?_, fun x hx => (List.mem_append.1 hx).elim (a1 x) (a2 x)⟩
    show (State.run _ l).ended = _
    rw [e2, e1, List.append_assoc]

/-- **C73** Whatever the threads did before: once some call has ended and no document is under construction, there is a document that every
later call of `getInstance` returns, complete, in every schedule of any number of threads, and the constructor is always refused.  (Missing: calls
that overlap with the first construction, see `C73_race_broken`.) -/
theorem C73_settled_partial (s : State) (h : Reachable s) (he : s.ended ≠ []) (hb : ∀ i, ¬ Building (s.pc i)) :
    ∃ d, ∀ l, ∃ new, (s.run l).ended = s.ended ++ new ∧ ∀ x ∈ new, AsSingleton d x := by
  have hi := inv_reachable h
  cases hd : s.inst with
  | none => exact absurd hd (hi.ended he)
  | some d =>
    refine ⟨d, settled_run ⟨hd, ?_, fun i => ?_⟩⟩
    · rcases hi.ready d hd with hr | ⟨i, c, hc⟩
      · exact hr
      · exact absurd (show Building (s.pc i) by rw [hc]; trivial) (hb i)
    · have := hb i
      cases hpc : s.pc i <;> rw [hpc] at this
      · exact .inl rfl
      · exact absurd trivial this
      · exact absurd trivial this
      · exact absurd trivial this
      · exact absurd trivial this
      · exact .inr (.inl rfl)

/-- **C73** In every schedule `getInstance` and the constructor return a document or raise the exception; they never return `None`. -/
theorem C73_some (s : State) (h : Reachable s) : ∀ x ∈ s.ended, x.2 = .raised ∨ ∃ d b, x.2 = .returned (some d) b :=
  (inv_reachable h).some

/-- where a single thread can be before its first call has ended -/
inductive First (i : Nat) (s : State) : Prop
  | idle : s.pc i = .idle → s.inst = none → First i s
  | alloc (c : Call) : s.pc i = .alloc c → s.inst = none → First i s
  | check (c : Call) (d : Nat) : s.pc i = .check c d → s.inst = none → First i s
  | set (c : Call) (d : Nat) : s.pc i = .set c d → First i s
  | init (c : Call) (d : Nat) : s.pc i = .init c d → s.inst = some d → First i s
  | ret (d : Nat) : s.pc i = .ret → s.inst = some d → s.ready d = true → First i s

theorem one_step {i : Nat} {s : State} (hf : First i s) (ho : ∀ j, j ≠ i → s.pc j = .idle) (he : s.ended = []) (c : Call) :
    (∀ j, j ≠ i → (s.step i c).pc j = .idle) ∧
    ((First i (s.step i c) ∧ (s.step i c).ended = []) ∨
      ∃ d c', Settled d (s.step i c) ∧ (s.step i c).ended = [(c', .returned (some d) true)]) := by
  have hg : ∀ (s : State) p, (∀ j, j ≠ i → s.pc j = .idle) → ∀ j, j ≠ i → (s.goto i p).pc j = .idle := fun s p ho j hj =>
    (goto_other s p hj).trans (ho j hj)
  unfold State.step
  cases hf with
  | idle hpc hn =>
    rw [hpc]
    cases c with
    | getInstance =>
      dsimp only
      rw [if_pos hn]
      exact ⟨hg s _ ho, .inl ⟨.alloc _ (goto_self s i _) hn, he⟩⟩
    | construct => exact ⟨hg s _ ho, .inl ⟨.alloc _ (goto_self s i _) hn, he⟩⟩
  | alloc c' hpc hn =>
    rw [hpc]
    exact ⟨hg s _ ho, .inl ⟨.check _ _ (goto_self s i _) hn, he⟩⟩
  | check c' d hpc hn =>
    rw [hpc]
    dsimp only
    rw [if_neg (by rw [hn]; exact fun h => h rfl)]
    exact ⟨hg s _ ho, .inl ⟨.set _ _ (goto_self s i _), he⟩⟩
  | set c' d hpc =>
    rw [hpc]
    exact ⟨hg s _ ho, .inl ⟨.init _ _ (goto_self s i _) rfl, he⟩⟩
  | init c' d hpc hs =>
    rw [hpc]
    cases c' with
    | getInstance => exact ⟨hg s _ ho, .inl ⟨.ret d (goto_self s i _) hs (if_pos rfl), he⟩⟩
    | construct =>
      refine ⟨hg s _ ho, .inr ⟨d, .construct, ⟨hs, if_pos rfl, fun j => .inl ?_⟩, ?_⟩⟩
      · by_cases hj : j = i
        · subst hj; exact goto_self s _ _
        · exact hg s _ ho j hj
      · show s.ended ++ _ = _
        rw [he]; rfl
  | ret d hpc hs hr =>
    rw [hpc]
    refine ⟨hg s _ ho, .inr ⟨d, .getInstance, ⟨hs, hr, fun j => .inl ?_⟩, ?_⟩⟩
    · by_cases hj : j = i
      · subst hj; exact goto_self s _ _
      · exact hg s _ ho j hj
    · show s.ended ++ [(Call.getInstance, Result.returned s.inst (s.readyAt s.inst))] = _
      rw [he, hs]
      show [(Call.getInstance, Result.returned (some d) (s.ready d))] = _
      rw [hr]

theorem one_run {i : Nat} {s : State} (hf : First i s) (ho : ∀ j, j ≠ i → s.pc j = .idle) (he : s.ended = []) (l : List (Nat × Call))
    (hl : ∀ p ∈ l, p.1 = i) :
    (s.run l).ended = [] ∨ ∃ d c rest, (s.run l).ended = (c, .returned (some d) true) :: rest ∧ ∀ x ∈ rest, AsSingleton d x := by
  induction l generalizing s with
  | nil => exact .inl he
  | cons p l ih =>
    obtain ⟨j, c⟩ := p
    have hj : j = i := hl _ List.mem_cons_self
    subst hj
    show (State.run (s.step j c) l).ended = [] ∨ _
    obtain ⟨h1, ⟨h2, h3⟩ | ⟨d, c', h2, h3⟩⟩ := one_step hf ho he c
    · exact ih h2 h1 h3 fun p hp => hl p (List.mem_cons_of_mem _ hp)
    · obtain ⟨new, e, a⟩ := settled_run h2 l
      refine .inr ⟨d, c', new, ?_, a⟩
      show (State.run (s.step j c) l).ended = _
      rw [e, h3]; rfl

/-- **C73** A program with one thread, whatever calls it makes: its first call returns a complete document, all later calls of `getInstance`
return the same one, and all later constructor calls are refused. -/
theorem C73_one_thread (l : List (Nat × Call)) (h : OneThread l) :
    (start.run l).ended = [] ∨
    ∃ d c rest, (start.run l).ended = (c, .returned (some d) true) :: rest ∧ ∀ x ∈ rest, AsSingleton d x := by
  obtain ⟨i, hi⟩ := h
  exact one_run (.idle rfl rfl) (fun _ _ => rfl) rfl l hi

/-- **C73 is refuted** for calls that overlap with the first one.  Two threads that only call `getInstance`: in one schedule it raises an
exception; in one it returns a document without its attributes; and in one the two calls return different documents. -/
theorem C73_race_broken :
    (∃ l, (∀ p ∈ l, p.2 = Call.getInstance) ∧ (Call.getInstance, Result.raised) ∈ (start.run l).ended) ∧
    (∃ l, (∀ p ∈ l, p.2 = Call.getInstance) ∧ ∃ d, (Call.getInstance, Result.returned (some d) false) ∈ (start.run l).ended) ∧
    (∃ l, (∀ p ∈ l, p.2 = Call.getInstance) ∧ ∃ d e, d ≠ e ∧
      (start.run l).ended = [(.getInstance, .returned (some d) true), (.getInstance, .returned (some e) true)]) := by
  refine ⟨⟨(0, .getInstance) :: (List.replicate 6 (1, .getInstance) ++ List.replicate 2 (0, .getInstance)), by decide, by decide⟩,
    ⟨List.replicate 4 (0, .getInstance) ++ List.replicate 2 (1, .getInstance), by decide, 0, by decide⟩,
    ⟨List.replicate 3 (0, .getInstance) ++ List.replicate 3 (1, .getInstance) ++ List.replicate 3 (0, .getInstance) ++ List.replicate 3 (1, .getInstance), by decide, 0, 1, by decide, by decide⟩⟩

/-! ## concrete cases -/

/-- a program that calls `getInstance` before it starts its threads meets the hypotheses of `C73_settled_partial` -/
example : Reachable (start.run (List.replicate 6 (0, .getInstance))) ∧ (start.run (List.replicate 6 (0, .getInstance))).ended ≠ [] ∧
    ∀ i, ¬ Building ((start.run (List.replicate 6 (0, .getInstance))).pc i) := by
  refine ⟨⟨_, rfl⟩, by decide, fun i => ?_⟩
  have : (start.run (List.replicate 6 (0, .getInstance))).pc i = .idle := by
    show (if i = 0 then Pc.idle else if i = 0 then _ else if i = 0 then _ else if i = 0 then _ else if i = 0 then _ else if i = 0 then _ else Pc.idle) = _
    split
    · rfl
    · simp
  rw [this]
  exact id

/-- three calls of one thread -/
example : OneThread (List.replicate 11 (7, .construct)) ∧ (start.run (List.replicate 11 (7, .construct))).ended
    = [(.construct, .returned (some 0) true), (.construct, .raised), (.construct, .raised)] := ⟨⟨7, by decide⟩, by decide⟩

end Verif.Props
