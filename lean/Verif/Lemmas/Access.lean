import Verif.Model.Accessors
import Verif.Spec.Access
/-!
# Checks of the accessor table and the run of a call sequence
-/
namespace Verif.Lemmas
open Verif Verif.Model Verif.Gen Verif.Spec

/-- every class with methods is in the class table -/
theorem accTable_classes : accTable.all (fun c _ => (classTable.find? c).isSome) = true := by decide +kernel

/-- a check on all methods of all classes holds for every resolved method -/
theorem forall_methods {p : Key → List (Key × Acc) → Bool}
    (h : classTable.all (fun c _ => p c (methodsOf c)) = true) (c : Key) : methodsOf c = [] ∨ p c (methodsOf c) = true := by
  cases hc : classTable.find? c with
  | some l => exact .inr ((Bst.all_toList _ _).1 h _ (Bst.find?_mem hc))
  | none =>
    left
    unfold methodsOf ancestors
    rw [hc]
    simp only [List.flatMap_cons, List.flatMap_nil, List.append_nil, classAcc]
    cases ha : accTable.find? c with
    | none => rfl
    | some v =>
      have := (Bst.all_toList _ _).1 accTable_classes _ (Bst.find?_mem ha)
      simp [hc] at this

theorem key_lookup_mem {β : Type} {l : List (Key × β)} {m : Key} {a : β} (h : l.lookup m = some a) : (m, a) ∈ l := by
  induction l with
  | nil => cases h
  | cons e l ih =>
    obtain ⟨k, b⟩ := e
    rw [List.lookup_cons] at h
    split at h
    · rename_i hk; cases h; simp only [beq_iff_eq] at hk; subst hk; exact .head _
    · exact .tail _ (ih h)

theorem resolve_mem {c m : Key} {a : Acc} (h : resolve c m = some a) : (m, a) ∈ methodsOf c := key_lookup_mem h

/-- the method with the name of an adder that assigns -/
def misnamed : Key := k!"addDefaultValueElements"

/-- every setter has its getter -/
theorem table_getters : classTable.all (fun c _ => (methodsOf c).all fun
    | (m, .set f _) => m == misnamed || resolve c (getterName m) == some (.get f)
    | _ => true) = true := by decide +kernel

theorem getter_of_setter {c s f : Key} {ign : Bool} (h : resolve c s = some (.set f ign)) (hn : s ≠ misnamed) :
    resolve c (getterName s) = some (.get f) := by
  have hm := resolve_mem h
  rcases forall_methods (p := fun c l => l.all fun
    | (m, .set f _) => m == misnamed || resolve c (getterName m) == some (.get f)
    | _ => true) table_getters c with he | hp
  · rw [he] at hm; cases hm
  · have := List.all_eq_true.1 hp _ hm
    simp only [Bool.or_eq_true, beq_iff_eq] at this
    exact this.resolve_left hn

/-- the attribute a method assigns -/
def setField : Key × Acc → Option (Key × Key)
  | (m, .set f _) => some (m, f)
  | _ => none

/-- the attribute a method appends to -/
def addField : Key × Acc → Option (Key × Key)
  | (m, .add f _ _) => some (m, f)
  | _ => none

def agree (l l' : List (Key × Key)) : Bool := l.all fun e => l'.all fun e' => !(e.2 == e'.2) || e.1 == e'.1

/-- no two setters of a class assign the same attribute -/
theorem table_setters : classTable.all (fun c _ => agree ((methodsOf c).filterMap setField) ((methodsOf c).filterMap setField)) = true := by
  decide +kernel

/-- no two adders of a class append to the same attribute -/
theorem table_adders : classTable.all (fun c _ => agree ((methodsOf c).filterMap addField) ((methodsOf c).filterMap addField)) = true := by
  decide +kernel

theorem agree_of {c m m' f : Key} {g g' : Key × Acc → Option (Key × Key)} {a a' : Acc}
    (h : classTable.all (fun c _ => agree ((methodsOf c).filterMap g) ((methodsOf c).filterMap g')) = true)
    (h1 : resolve c m = some a) (h2 : resolve c m' = some a') (hg : g (m, a) = some (m, f)) (hg' : g' (m', a') = some (m', f)) : m = m' := by
  rcases forall_methods (p := fun _ l => agree (l.filterMap g) (l.filterMap g')) h c with he | hp
  · have := resolve_mem h1; rw [he] at this; cases this
  · have e1 : (m, f) ∈ (methodsOf c).filterMap g := List.mem_filterMap.2 ⟨_, resolve_mem h1, hg⟩
    have e2 : (m', f) ∈ (methodsOf c).filterMap g' := List.mem_filterMap.2 ⟨_, resolve_mem h2, hg'⟩
    have := List.all_eq_true.1 (List.all_eq_true.1 hp _ e1) _ e2
    simpa using this

theorem setters_unique {c m m' f : Key} {i i' : Bool} (h1 : resolve c m = some (.set f i)) (h2 : resolve c m' = some (.set f i')) : m = m' :=
  agree_of table_setters h1 h2 rfl rfl

theorem adders_unique {c m m' f : Key} {i i' d d' : Bool} (h1 : resolve c m = some (.add f i d)) (h2 : resolve c m' = some (.add f i' d')) : m = m' :=
  agree_of table_adders h1 h2 rfl rfl

variable {α : Type} [DecidableEq α]

omit [DecidableEq α] in
theorem callGet_eq {c g f : Key} (h : resolve c g = some (.get f)) (o : Attrs α) :
    callGet c g o = match o f with | some v => .ok v | none => .error "AttributeError" := by
  simp only [callGet, h, Acc.read]
  cases o f <;> rfl

omit [DecidableEq α] in
@[simp] theorem assign_same (o : Attrs α) (f : Key) (v : PV α) : o.assign f v f = some v := by simp [Attrs.assign]

omit [DecidableEq α] in
theorem assign_other (o : Attrs α) {f f' : Key} (h : f' ≠ f) (v : PV α) : o.assign f v f' = o f' := by simp [Attrs.assign, h]

omit [DecidableEq α] in
theorem lastOr_cons (old v : PV α) (vs : List (PV α)) : lastOr old (v :: vs) = lastOr v vs := by
  unfold lastOr
  cases vs with
  | nil => rfl
  | cons w ws => simp [List.getLast?_cons]

/-- the values of a setter that have an effect -/
def effective (ign : Bool) (vs : List (PV α)) : List (PV α) := if ign = true then notNone vs else vs

theorem effective_cons (ign : Bool) (v : PV α) (vs : List (PV α)) : effective ign (v :: vs) =
    if ign = true ∧ v = .none then effective ign vs else v :: effective ign vs := by
  cases ign <;> simp [effective, notNone, List.filter_cons]

theorem runCalls_cons {c : Key} {k : Call α} {ks : List (Call α)} {o o' : Attrs α} (h : runCalls c (k :: ks) o = .ok o') :
    ∃ o1, k.run c o = .ok o1 ∧ runCalls c ks o1 = .ok o' := by
  simp only [runCalls] at h
  cases hk : k.run c o with
  | ok o1 => rw [hk] at h; exact ⟨o1, rfl, h⟩
  | error e => rw [hk] at h; cases h

/-- the attribute of a setter after a run in which nothing appends to it -/
theorem run_set {c s f : Key} {ign : Bool} (hs : resolve c s = some (.set f ign)) (calls : List (Call α)) : ∀ (o o' : Attrs α) (old : PV α),
    runCalls c calls o = .ok o' → (∀ m v, Call.add m v ∈ calls → ∀ i d, resolve c m ≠ some (.add f i d)) → o f = some old →
    o' f = some (lastOr old (effective ign (given s calls))) := by
  induction calls with
  | nil =>
    intro o o' old h _ ho
    cases h
    cases ign <;> simpa [given, effective, notNone, lastOr] using ho
  | cons k ks ih =>
    intro o o' old h hadd ho
    obtain ⟨o1, h1, h2⟩ := runCalls_cons h
    have hadd' : ∀ m v, Call.add m v ∈ ks → ∀ i d, resolve c m ≠ some (.add f i d) := fun m v hm => hadd m v (.tail _ hm)
    cases k with
    | add m v =>
      have hk : o1 f = o f := by
        simp only [Call.run, Call.method] at h1
        cases hm : resolve c m with
        | none => rw [hm] at h1; cases h1
        | some a =>
          rw [hm] at h1
          cases a with
          | get f' => cases h1
          | set f' i => cases h1
          | other => cases h1
          | add f' i d =>
            have hne : f ≠ f' := by
              intro e; subst e
              exact hadd m v (.head _) i d hm
            simp only [Acc.runAdd] at h1
            split at h1
            · cases h1; rfl
            · split at h1
              · split at h1
                · cases h1; rfl
                · cases h1; exact assign_other o hne _
              · cases h1
      have : given s (Call.add m v :: ks) = given s ks := rfl
      rw [this]
      exact ih _ _ _ h2 hadd' (hk ▸ ho)
    | set m v =>
      simp only [Call.run, Call.method] at h1
      by_cases hms : m = s
      · subst hms
        rw [hs] at h1
        have hg : given m (Call.set m v :: ks) = v :: given m ks := by simp [given]
        rw [hg, effective_cons]
        simp only [Acc.runSet] at h1
        split at h1
        · rename_i hc
          cases h1
          rw [if_pos hc]
          exact ih _ _ _ h2 hadd' ho
        · rename_i hc
          cases h1
          rw [if_neg hc, lastOr_cons]
          exact ih _ _ _ h2 hadd' (assign_same _ _ _)
      · have hg : given s (Call.set m v :: ks) = given s ks := by simp [given, hms]
        rw [hg]
        have hk : o1 f = o f := by
          cases hm : resolve c m with
          | none => rw [hm] at h1; cases h1
          | some a =>
            rw [hm] at h1
            cases a with
            | get f' => cases h1
            | add f' i d => cases h1
            | other => cases h1
            | set f' i =>
              have hne : f ≠ f' := by
                intro e; subst e
                exact hms (setters_unique hm hs)
              simp only [Acc.runSet] at h1
              split at h1 <;> cases h1
              · rfl
              · exact assign_other o hne _
        exact ih _ _ _ h2 hadd' (hk ▸ ho)

/-- calls of setters never raise -/
theorem run_setters {c : Key} (calls : List (Call α)) (h : ∀ k ∈ calls, ∃ m v f ign, k = .set m v ∧ resolve c m = some (.set f ign)) :
    ∀ o : Attrs α, ∃ o', runCalls c calls o = .ok o' := by
  induction calls with
  | nil => intro o; exact ⟨o, rfl⟩
  | cons k ks ih =>
    intro o
    obtain ⟨m, v, f, ign, rfl, hm⟩ := h k (.head _)
    have : ∃ o1, (Call.set m v).run c o = .ok o1 := by
      simp only [Call.run, Call.method, hm, Acc.runSet]
      split
      · exact ⟨_, rfl⟩
      · exact ⟨_, rfl⟩
    obtain ⟨o1, h1⟩ := this
    obtain ⟨o', h2⟩ := ih (fun k hk => h k (.tail _ hk)) o1
    exact ⟨o', by simp only [runCalls, h1, h2]⟩

/-- the effect of adding values one after another -/
def appendAll (ign dedup : Bool) (l : List (Option α)) : List (Option α) → List (Option α)
  | [] => l
  | v :: vs => appendAll ign dedup (if ign = true ∧ v = none then l else if dedup = true ∧ v ∈ l then l else l ++ [v]) vs

/-- the attribute of an adder after a run of adders -/
theorem run_add {c a f : Key} {ign dedup : Bool} (ha : resolve c a = some (.add f ign dedup)) (calls : List (Call α)) :
    ∀ (o o' : Attrs α) (l : List (Option α)), runCalls c calls o = .ok o' → (∀ k ∈ calls, ∃ m v, k = .add m v) → o f = some (.list l) →
    o' f = some (.list (appendAll ign dedup l (added a calls))) := by
  induction calls with
  | nil => intro o o' l h _ ho; cases h; exact ho
  | cons k ks ih =>
    intro o o' l h hk ho
    obtain ⟨o1, h1, h2⟩ := runCalls_cons h
    obtain ⟨m, v, rfl⟩ := hk k (.head _)
    have hks : ∀ k ∈ ks, ∃ m v, k = .add m v := fun k h => hk k (.tail _ h)
    simp only [Call.run, Call.method] at h1
    by_cases hma : m = a
    · subst hma
      rw [ha] at h1
      have hg : added m (Call.add m v :: ks) = v :: added m ks := by simp [added]
      rw [hg]
      simp only [Acc.runAdd, ho] at h1
      simp only [appendAll]
      split at h1
      · rename_i hc
        cases h1
        rw [if_pos hc]
        exact ih _ _ _ h2 hks ho
      · rename_i hc
        rw [if_neg hc]
        split at h1
        · rename_i hd
          cases h1
          rw [if_pos hd]
          exact ih _ _ _ h2 hks ho
        · rename_i hd
          cases h1
          rw [if_neg hd]
          exact ih _ _ _ h2 hks (assign_same _ _ _)
    · have hg : added a (Call.add m v :: ks) = added a ks := by simp [added, hma]
      rw [hg]
      have hk : o1 f = o f := by
        cases hm : resolve c m with
        | none => rw [hm] at h1; cases h1
        | some b =>
          rw [hm] at h1
          cases b with
          | get f' => cases h1
          | set f' i => cases h1
          | other => cases h1
          | add f' i d =>
            have hne : f ≠ f' := by
              intro e; subst e
              exact hma (adders_unique hm ha)
            simp only [Acc.runAdd] at h1
            split at h1
            · cases h1; rfl
            · split at h1
              · split at h1
                · cases h1; rfl
                · cases h1; exact assign_other o hne _
              · cases h1
      exact ih _ _ _ h2 hks (hk ▸ ho)

/-- every list an adder of the class appends to is a list -/
def listsOk (c : Key) (o : Attrs α) : Prop := ∀ m f i d, resolve c m = some (.add f i d) → ∃ l, o f = some (.list l)

/-- calls of adders never raise when the attributes are lists, and they stay lists -/
theorem run_adders {c : Key} (calls : List (Call α)) (h : ∀ k ∈ calls, ∃ m v f i d, k = .add m v ∧ resolve c m = some (.add f i d)) :
    ∀ o : Attrs α, listsOk c o → ∃ o', runCalls c calls o = .ok o' ∧ listsOk c o' := by
  induction calls with
  | nil => intro o ho; exact ⟨o, rfl, ho⟩
  | cons k ks ih =>
    intro o ho
    obtain ⟨m, v, f, i, d, rfl, hm⟩ := h k (.head _)
    have : ∃ o1, (Call.add m v).run c o = .ok o1 ∧ listsOk c o1 := by
      obtain ⟨l, hl⟩ := ho m f i d hm
      simp only [Call.run, Call.method, hm, Acc.runAdd, hl]
      split
      · exact ⟨_, rfl, ho⟩
      · split
        · exact ⟨_, rfl, ho⟩
        · refine ⟨_, rfl, ?_⟩
          intro m' f' i' d' hm'
          by_cases e : f' = f
          · subst e; exact ⟨_, assign_same _ _ _⟩
          · rw [assign_other o e]; exact ho m' f' i' d' hm'
    obtain ⟨o1, h1, h1'⟩ := this
    obtain ⟨o', h2, h2'⟩ := ih (fun k hk => h k (.tail _ hk)) o1 h1'
    exact ⟨o', by simp only [runCalls, h1, h2], h2'⟩

/-- constructors initialise every list with `[]` -/
theorem table_lists : classTable.all (fun c _ => (methodsOf c).all fun
    | (_, .add f _ _) => inits c f == some .nil
    | _ => true) = true := by decide +kernel

omit [DecidableEq α] in
theorem fresh_list {c a f : Key} {i d : Bool} (h : resolve c a = some (.add f i d)) : fresh α c f = some (.list []) := by
  have hm := resolve_mem h
  rcases forall_methods (p := fun c l => l.all fun
    | (_, .add f _ _) => inits c f == some .nil
    | _ => true) table_lists c with he | hp
  · rw [he] at hm; cases hm
  · have := List.all_eq_true.1 hp _ hm
    simp only [beq_iff_eq] at this
    simp [fresh, this, InitVal.toPV]

omit [DecidableEq α] in
theorem fresh_listsOk (c : Key) : listsOk c (fresh α c) := fun _ _ _ _ h => ⟨_, fresh_list h⟩

/-- setters whose attribute does not start as `None` or `[]` -/
def presetSetters : List Key := [k!"setEnumValues", k!"setBaseTypeDefinition", k!"setValue"]

/-- what the attributes of setters and getters start with -/
theorem table_initial : classTable.all (fun c _ => (methodsOf c).all fun
    | (m, .set f _) => inits c f == some .none || inits c f == some .nil || presetSetters.contains m ||
        (c == k!"EcucInstanceReferenceValue" && m == k!"setValueIRef")
    | (m, .get f) => (inits c f).isSome || (c == k!"EcucInstanceReferenceValue" && m == k!"getValueIRef")
    | _ => true) = true := by decide +kernel

theorem initial_mem {c m : Key} {a : Acc} (h : resolve c m = some a) : (match (m, a) with
    | (m, .set f _) => inits c f == some .none || inits c f == some .nil || presetSetters.contains m ||
        (c == k!"EcucInstanceReferenceValue" && m == k!"setValueIRef")
    | (m, .get f) => (inits c f).isSome || (c == k!"EcucInstanceReferenceValue" && m == k!"getValueIRef")
    | _ => true) = true := by
  have hm := resolve_mem h
  rcases forall_methods (p := fun c l => l.all fun
    | (m, .set f _) => inits c f == some .none || inits c f == some .nil || presetSetters.contains m ||
        (c == k!"EcucInstanceReferenceValue" && m == k!"setValueIRef")
    | (m, .get f) => (inits c f).isSome || (c == k!"EcucInstanceReferenceValue" && m == k!"getValueIRef")
    | _ => true) table_initial c with he | hp
  · rw [he] at hm; cases hm
  · exact List.all_eq_true.1 hp _ hm

/-- a run keeps every attribute that exists -/
theorem run_keeps {c f : Key} (calls : List (Call α)) : ∀ o o' : Attrs α, runCalls c calls o = .ok o' → (o f).isSome → (o' f).isSome := by
  induction calls with
  | nil => intro o o' h ho; cases h; exact ho
  | cons k ks ih =>
    intro o o' h ho
    obtain ⟨o1, h1, h2⟩ := runCalls_cons h
    refine ih _ _ h2 ?_
    have keep : ∀ f' v, (o.assign f' v f).isSome := by
      intro f' v
      simp only [Attrs.assign]
      split
      · rfl
      · exact ho
    simp only [Call.run] at h1
    split at h1
    · cases h1
    · split at h1
      · unfold Acc.runSet at h1
        split at h1
        · split at h1 <;> cases h1
          · exact ho
          · exact keep _ _
        · cases h1
      · unfold Acc.runAdd at h1
        split at h1
        · split at h1
          · cases h1; exact ho
          · split at h1
            · split at h1 <;> cases h1
              · exact ho
              · exact keep _ _
            · cases h1
        · cases h1

/-- apart from these, no adder appends to the attribute of a setter -/
theorem table_shared : classTable.all (fun c _ => ((methodsOf c).filterMap setField).all fun e =>
    ((methodsOf c).filterMap addField).all fun e' => !(e.2 == e'.2) || sharedSetters.contains (c, e.1)) = true := by decide +kernel

theorem not_shared {c s a f : Key} {i i' d : Bool} (hs : resolve c s = some (.set f i)) (ha : resolve c a = some (.add f i' d)) :
    (c, s) ∈ sharedSetters := by
  rcases forall_methods (p := fun c l => (l.filterMap setField).all fun e =>
    (l.filterMap addField).all fun e' => !(e.2 == e'.2) || sharedSetters.contains (c, e.1)) table_shared c with he | hp
  · have := resolve_mem hs; rw [he] at this; cases this
  · have e1 : (s, f) ∈ (methodsOf c).filterMap setField := List.mem_filterMap.2 ⟨_, resolve_mem hs, rfl⟩
    have e2 : (a, f) ∈ (methodsOf c).filterMap addField := List.mem_filterMap.2 ⟨_, resolve_mem ha, rfl⟩
    have := List.all_eq_true.1 (List.all_eq_true.1 hp _ e1) _ e2
    simpa using this

theorem appendAll_plain (l vs : List (Option α)) : appendAll false false l vs = l ++ vs := by
  induction vs generalizing l with
  | nil => simp [appendAll]
  | cons v vs ih => simp [appendAll, ih]

theorem appendAll_ign (l vs : List (Option α)) : appendAll true false l vs = l ++ vs.filter (·.isSome) := by
  induction vs generalizing l with
  | nil => simp [appendAll]
  | cons v vs ih => cases v <;> simp [appendAll, ih]

theorem appendAll_dedup (ign : Bool) (vs : List (Option α)) : ∀ l : List (Option α), l.Nodup →
    (appendAll ign true l vs).Nodup ∧ (∃ t, appendAll ign true l vs = l ++ t ∧ t.Sublist vs) ∧
    ∀ x, x ∈ appendAll ign true l vs ↔ x ∈ l ∨ x ∈ vs ∧ ¬ (ign = true ∧ x = none) := by
  induction vs with
  | nil => intro l hl; exact ⟨hl, ⟨[], by simp [appendAll]⟩, fun x => by simp [appendAll]⟩
  | cons v vs ih =>
    intro l hl
    simp only [appendAll]
    split
    · rename_i hc
      obtain ⟨h1, ⟨t, h2, h3⟩, h4⟩ := ih l hl
      refine ⟨h1, ⟨t, h2, h3.cons _⟩, fun x => ?_⟩
      rw [h4]
      constructor
      · rintro (h | ⟨h, h'⟩)
        · exact .inl h
        · exact .inr ⟨.tail _ h, h'⟩
      · rintro (h | ⟨h, h'⟩)
        · exact .inl h
        · rcases List.mem_cons.1 h with rfl | h
          · exact absurd hc h'
          · exact .inr ⟨h, h'⟩
    · rename_i hc
      split
      · rename_i hd
        obtain ⟨h1, ⟨t, h2, h3⟩, h4⟩ := ih l hl
        refine ⟨h1, ⟨t, h2, h3.cons _⟩, fun x => ?_⟩
        rw [h4]
        constructor
        · rintro (h | ⟨h, h'⟩)
          · exact .inl h
          · exact .inr ⟨.tail _ h, h'⟩
        · rintro (h | ⟨h, h'⟩)
          · exact .inl h
          · rcases List.mem_cons.1 h with rfl | h
            · exact .inl hd.2
            · exact .inr ⟨h, h'⟩
      · rename_i hd
        have hv : v ∉ l := fun h => hd ⟨trivial, h⟩
        obtain ⟨h1, ⟨t, h2, h3⟩, h4⟩ := ih (l ++ [v]) (by
          rw [List.nodup_append]
          exact ⟨hl, by simp, by intro a ha b hb; simp only [List.mem_singleton] at hb; subst hb; rintro rfl; exact hv ha⟩)
        refine ⟨h1, ⟨v :: t, by simpa using h2, h3.cons_cons _⟩, fun x => ?_⟩
        rw [h4]
        simp only [List.mem_append, List.mem_cons, List.not_mem_nil, or_false]
        constructor
        · rintro ((h | rfl) | ⟨h, h'⟩)
          · exact .inl h
          · exact .inr ⟨.inl rfl, hc⟩
          · exact .inr ⟨.inr h, h'⟩
        · rintro (h | ⟨rfl | h, h'⟩)
          · exact .inl (.inl h)
          · exact .inl (.inr rfl)
          · exact .inr ⟨h, h'⟩

end Verif.Lemmas
