import Verif.Lemmas.Access
/-!
# C45, C46: setters, getters and adders

All theorems range over every class of `src/armodel/models/**` and every method with the shape of a plain
setter, getter or adder; `α` is any type of values a caller passes.
-/
namespace Verif.Props
open Verif Verif.Model Verif.Gen Verif.Spec Verif.Lemmas
variable {α : Type} [DecidableEq α]

/-- `m` is a plain setter of class `c`; `ign`: it ignores `None`.  The one method of this shape that is not
called `set...` is left out. -/
def IsSetter (c m : Key) (ign : Bool) : Prop := m ≠ k!"addDefaultValueElements" ∧ ∃ f, resolve c m = some (.set f ign)

/-- `m` is a plain adder of class `c` -/
def IsAdder (c m : Key) (ign dedup : Bool) : Prop := ∃ f, resolve c m = some (.add f ign dedup)

/-- adder `a` appends to the list getter `g` returns -/
def SameList (c a g : Key) : Prop := ∃ f i d, resolve c a = some (.add f i d) ∧ resolve c g = some (.get f)

/-- **C45** for the setters that ignore `None` (1 371 of 1 978): whatever setters are called on an object, in
whatever order and however often, no call raises and the getter of an attribute then returns the last value
other than `None` given to its setter, or what it returned before when there is none.  (The other setters are
`C45_last_value_any`; for them the claim is false, `C45_none_broken`.) -/
theorem C45_last_value_partial (c s : Key) (hs : IsSetter c s true) (calls : List (Call α))
    (hcalls : ∀ k ∈ calls, ∃ m v ign, k = .set m v ∧ IsSetter c m ign)
    (o : Attrs α) (old : PV α) (hold : callGet c (getterName s) o = .ok old) :
    ∃ o', runCalls c calls o = .ok o' ∧ callGet c (getterName s) o' = .ok (lastOr old (notNone (given s calls))) := by
  obtain ⟨hn, f, hf⟩ := hs
  have hg := getter_of_setter hf hn
  obtain ⟨o', ho'⟩ := run_setters calls (c := c) (fun k hk => by
    obtain ⟨m, v, ign, rfl, _, f', hm⟩ := hcalls k hk; exact ⟨m, v, f', ign, rfl, hm⟩) o
  refine ⟨o', ho', ?_⟩
  rw [callGet_eq hg] at hold ⊢
  have hof : o f = some old := by
    cases h : o f with
    | none => rw [h] at hold; cases hold
    | some v => rw [h] at hold; cases hold; rfl
  have := run_set hf calls o o' old ho' (fun m v hm => by
    obtain ⟨_, _, _, h, _⟩ := hcalls _ hm; cases h) hof
  rw [this]
  rfl

/-- the setters that do not ignore `None`: the getter returns the last value given, `None` included -/
theorem C45_last_value_any (c s : Key) (hs : IsSetter c s false) (calls : List (Call α))
    (hcalls : ∀ k ∈ calls, ∃ m v ign, k = .set m v ∧ IsSetter c m ign)
    (o : Attrs α) (old : PV α) (hold : callGet c (getterName s) o = .ok old) :
    ∃ o', runCalls c calls o = .ok o' ∧ callGet c (getterName s) o' = .ok (lastOr old (given s calls)) := by
  obtain ⟨hn, f, hf⟩ := hs
  have hg := getter_of_setter hf hn
  obtain ⟨o', ho'⟩ := run_setters calls (c := c) (fun k hk => by
    obtain ⟨m, v, ign, rfl, _, f', hm⟩ := hcalls k hk; exact ⟨m, v, f', ign, rfl, hm⟩) o
  refine ⟨o', ho', ?_⟩
  rw [callGet_eq hg] at hold ⊢
  have hof : o f = some old := by
    cases h : o f with
    | none => rw [h] at hold; cases hold
    | some v => rw [h] at hold; cases hold; rfl
  have := run_set hf calls o o' old ho' (fun m v hm => by
    obtain ⟨_, _, _, h, _⟩ := hcalls _ hm; cases h) hof
  rw [this]
  rfl

/-- the calls may include adders of the class as well, except for the 18 attributes that have both a setter and
an adder: the value of a setter's attribute still is the last one given to that setter -/
theorem C45_adders_do_not_interfere (c s : Key) (ign : Bool) (hs : IsSetter c s ign) (hsh : (c, s) ∉ sharedSetters)
    (calls : List (Call α)) (o o' : Attrs α) (hrun : runCalls c calls o = .ok o')
    (old : PV α) (hold : callGet c (getterName s) o = .ok old) :
    callGet c (getterName s) o' = .ok (lastOr old (if ign = true then notNone (given s calls) else given s calls)) := by
  obtain ⟨hn, f, hf⟩ := hs
  have hg := getter_of_setter hf hn
  rw [callGet_eq hg] at hold ⊢
  have hof : o f = some old := by
    cases h : o f with
    | none => rw [h] at hold; cases hold
    | some v => rw [h] at hold; cases hold; rfl
  have := run_set hf calls o o' old hrun (fun m v _ i d hm => hsh (not_shared hf hm)) hof
  rw [this]
  rfl

omit [DecidableEq α] in
/-- on a new object the getter of every setter returns `None` or the empty list, with four exceptions: the
enumeration values of enumeration types, the definition of a base type, the text of language specific texts
(all three set by the constructor), and `EcucInstanceReferenceValue` (`C45_unset_broken`) -/
theorem C45_initial_partial (c s : Key) (ign : Bool) (hs : IsSetter c s ign)
    (h1 : s ∉ [k!"setEnumValues", k!"setBaseTypeDefinition", k!"setValue"])
    (h2 : ¬ (c = k!"EcucInstanceReferenceValue" ∧ s = k!"setValueIRef")) :
    callGet c (getterName s) (fresh α c) = .ok .none ∨ callGet c (getterName s) (fresh α c) = .ok (.list []) := by
  obtain ⟨hn, f, hf⟩ := hs
  have hg := getter_of_setter hf hn
  rw [callGet_eq hg]
  have := initial_mem hf
  simp only [Bool.or_eq_true, beq_iff_eq, Bool.and_eq_true, List.contains_iff_mem] at this
  rcases this with ((h | h) | h) | h
  · left; simp [fresh, h, InitVal.toPV]
  · right; simp [fresh, h, InitVal.toPV]
  · exact absurd h h1
  · exact absurd h h2

/-- the value of a setter's attribute on an object that was constructed and then only changed by setters: the
last value given, or `None`/`[]` -/
theorem C45_from_new_partial (c s : Key) (hs : IsSetter c s true)
    (h1 : s ∉ [k!"setEnumValues", k!"setBaseTypeDefinition", k!"setValue"])
    (h2 : ¬ (c = k!"EcucInstanceReferenceValue" ∧ s = k!"setValueIRef")) (calls : List (Call α))
    (hcalls : ∀ k ∈ calls, ∃ m v ign, k = .set m v ∧ IsSetter c m ign) :
    ∃ o' old, (old = .none ∨ old = .list []) ∧ runCalls c calls (fresh α c) = .ok o' ∧
      callGet c (getterName s) o' = .ok (lastOr old (notNone (given s calls))) := by
  rcases C45_initial_partial (α := α) c s true hs h1 h2 with h | h
  · obtain ⟨o', h3, h4⟩ := C45_last_value_partial c s hs calls hcalls _ _ h
    exact ⟨o', .none, .inl rfl, h3, h4⟩
  · obtain ⟨o', h3, h4⟩ := C45_last_value_partial c s hs calls hcalls _ _ h
    exact ⟨o', .list [], .inr rfl, h3, h4⟩

/-- a plain getter never raises on an object made by its constructor and changed by any setter and adder
calls, except `EcucInstanceReferenceValue.getValueIRef` -/
theorem C45_getters_total (c g f : Key) (hg : resolve c g = some (.get f))
    (hx : ¬ (c = k!"EcucInstanceReferenceValue" ∧ g = k!"getValueIRef"))
    (calls : List (Call α)) (o' : Attrs α) (hrun : runCalls c calls (fresh α c) = .ok o') : ∃ v, callGet c g o' = .ok v := by
  have h := initial_mem hg
  simp only [Bool.or_eq_true, beq_iff_eq, Bool.and_eq_true] at h
  have h := h.resolve_right hx
  have := run_keeps (f := f) calls _ _ hrun (by simpa [fresh] using h)
  rw [callGet_eq hg]
  cases ho : o' f with
  | none => rw [ho] at this; cases this
  | some v => exact ⟨v, rfl⟩

/-- the claim of C45 is false for a setter that does not test for `None`: after `Compu.setCompuContent(v)`,
`setCompuContent(None)` forgets `v` (`MSR/AsamHdo/ComputationMethod.py`) -/
theorem C45_none_broken : IsSetter k!"Compu" k!"setCompuContent" false ∧
    ∃ o', runCalls k!"Compu" [.set k!"setCompuContent" (.val 7), .set k!"setCompuContent" .none] (fresh Nat k!"Compu") = .ok o' ∧
      callGet k!"Compu" k!"getCompuContent" o' = .ok .none ∧
      lastOr .none (notNone (given k!"setCompuContent" [Call.set k!"setCompuContent" (.val 7), .set k!"setCompuContent" .none])) = .val 7 := by
  have hs : resolve k!"Compu" k!"setCompuContent" = some (.set k!"compuContent" false) := by decide +kernel
  have hg : resolve k!"Compu" k!"getCompuContent" = some (.get k!"compuContent") := by decide +kernel
  have hi : inits k!"Compu" k!"compuContent" = some .none := by decide +kernel
  have hb : IsSetter k!"Compu" k!"setCompuContent" false := ⟨by decide, _, hs⟩
  obtain ⟨o', h1, h2⟩ := C45_last_value_any (α := Nat) _ _ hb [.set k!"setCompuContent" (.val 7), .set k!"setCompuContent" .none] (by
      intro k hk
      simp only [List.mem_cons, List.not_mem_nil, or_false] at hk
      rcases hk with rfl | rfl <;> exact ⟨_, _, _, rfl, hb⟩) (fresh Nat k!"Compu") .none
    (by rw [show getterName k!"setCompuContent" = k!"getCompuContent" by decide, callGet_eq hg]; simp [fresh, hi, InitVal.toPV])
  exact ⟨hb, o', h1, h2, by decide⟩

/-- how many setter methods test for `None` and how many do not -/
theorem C45_none_count :
    ((accTable.toList.flatMap fun e => e.2.methods).filter fun
      | (_, .set _ true) => true
      | _ => false).length = 1371 ∧
    ((accTable.toList.flatMap fun e => e.2.methods).filter fun
      | (_, .set _ false) => true
      | _ => false).length = 607 := by decide +kernel

/-- the constructor of `EcucInstanceReferenceValue` initialises `valueIRef`, its getter and setter use `valueRef`
(`ECUCDescriptionTemplate.py`): before `setValueIRef` was called the getter raises `AttributeError` -/
theorem C45_unset_broken : ∃ f, resolve k!"EcucInstanceReferenceValue" k!"setValueIRef" = some (.set f false) ∧
    callGet k!"EcucInstanceReferenceValue" k!"getValueIRef" (fresh Nat k!"EcucInstanceReferenceValue") = .error "AttributeError" := by
  refine ⟨k!"valueRef", by decide +kernel, ?_⟩
  have hg : resolve k!"EcucInstanceReferenceValue" k!"getValueIRef" = some (.get k!"valueRef") := by decide +kernel
  have hi : inits k!"EcucInstanceReferenceValue" k!"valueRef" = none := by decide +kernel
  simp [callGet, hg, Acc.read, fresh, hi]

/-- non-vacuity of C45: a component implementation, setters of it and of its base classes, interleaved -/
example : IsSetter k!"SwcImplementation" k!"setSwVersion" true ∧ IsSetter k!"SwcImplementation" k!"setVendorId" true ∧
    IsSetter k!"SwcImplementation" k!"setDesc" false ∧
    given k!"setSwVersion" [Call.set k!"setSwVersion" (.val 1), .set k!"setVendorId" (.val 2), .set k!"setSwVersion" .none, .set k!"setSwVersion" (.val 3)] =
      [.val 1, .none, .val 3] := by
  refine ⟨⟨by decide, k!"swVersion", by decide +kernel⟩, ⟨by decide, k!"vendorId", by decide +kernel⟩,
    ⟨by decide, k!"desc", by decide +kernel⟩, by decide⟩

/-- the theorem on three setters of one class, two calls of them with `None`: each getter gives the last value of its own -/
example : ∃ o', runCalls k!"SwcImplementation" [.set k!"setSwVersion" (.val 1), .set k!"setDesc" (.val 5), .set k!"setVendorId" (.val 2), .set k!"setSwVersion" .none,
      .set k!"setDesc" .none] (fresh Nat k!"SwcImplementation") = .ok o' ∧
    callGet k!"SwcImplementation" k!"getSwVersion" o' = .ok (.val 1) ∧ callGet k!"SwcImplementation" k!"getDesc" o' = .ok .none ∧
    callGet k!"SwcImplementation" k!"getVendorId" o' = .ok (.val 2) := by
  have s1 : IsSetter k!"SwcImplementation" k!"setSwVersion" true := ⟨by decide, k!"swVersion", by decide +kernel⟩
  have s2 : IsSetter k!"SwcImplementation" k!"setVendorId" true := ⟨by decide, k!"vendorId", by decide +kernel⟩
  have s3 : IsSetter k!"SwcImplementation" k!"setDesc" false := ⟨by decide, k!"desc", by decide +kernel⟩
  let calls : List (Call Nat) := [.set k!"setSwVersion" (.val 1), .set k!"setDesc" (.val 5), .set k!"setVendorId" (.val 2), .set k!"setSwVersion" .none, .set k!"setDesc" .none]
  have hc : ∀ k ∈ calls, ∃ m v ign, k = .set m v ∧ IsSetter k!"SwcImplementation" m ign := by
    intro k hk
    simp only [calls, List.mem_cons, List.not_mem_nil, or_false] at hk
    rcases hk with rfl | rfl | rfl | rfl | rfl
    · exact ⟨_, _, _, rfl, s1⟩
    · exact ⟨_, _, _, rfl, s3⟩
    · exact ⟨_, _, _, rfl, s2⟩
    · exact ⟨_, _, _, rfl, s1⟩
    · exact ⟨_, _, _, rfl, s3⟩
  obtain ⟨o', v1, h1, hr, h2⟩ := C45_from_new_partial k!"SwcImplementation" k!"setSwVersion" s1 (by decide) (by decide) calls hc
  obtain ⟨o'', v2, h3, hr', h4⟩ := C45_from_new_partial k!"SwcImplementation" k!"setVendorId" s2 (by decide) (by decide) calls hc
  have e : o'' = o' := Except.ok.inj (hr'.symm.trans hr)
  subst e
  obtain ⟨o3, hr3, h6⟩ := C45_last_value_any k!"SwcImplementation" k!"setDesc" s3 calls hc (fresh Nat k!"SwcImplementation") _
    ((C45_initial_partial k!"SwcImplementation" k!"setDesc" false s3 (by decide) (by decide)).elim (fun h => h) (fun h => absurd h (by decide +kernel)))
  have e3 : o3 = o'' := Except.ok.inj (hr3.symm.trans hr)
  subst e3
  refine ⟨_, hr, ?_, ?_, ?_⟩
  · rw [show k!"getSwVersion" = getterName k!"setSwVersion" by decide +kernel, h2]; rfl
  · rw [show k!"getDesc" = getterName k!"setDesc" by decide +kernel, h6]; rfl
  · rw [show k!"getVendorId" = getterName k!"setVendorId" by decide +kernel, h4]; rfl

/-- **C46** for the adders that ignore `None` and accept duplicates (234 of 385): starting from a new object,
whatever adders are called, no call raises and the list of an adder contains the values given to it, in order,
without the `None`s -/
theorem C46_append_partial (c a g : Key) (ha : IsAdder c a true false) (hg : SameList c a g) (calls : List (Call α))
    (hcalls : ∀ k ∈ calls, ∃ m v ign dedup, k = .add m v ∧ IsAdder c m ign dedup) :
    ∃ o', runCalls c calls (fresh α c) = .ok o' ∧
      callGet c g o' = .ok (.list ((added a calls).filter (·.isSome))) := by
  obtain ⟨f, hf⟩ := ha
  obtain ⟨f', i, d, h1, h2⟩ := hg
  rw [hf] at h1; cases h1
  obtain ⟨o', ho', _⟩ := run_adders calls (c := c) (fun k hk => by
    obtain ⟨m, v, i, d, rfl, f', hm⟩ := hcalls k hk; exact ⟨m, v, f', i, d, rfl, hm⟩) _ (fresh_listsOk (α := α) c)
  refine ⟨o', ho', ?_⟩
  have := run_add hf calls _ o' [] ho' (fun k hk => by
    obtain ⟨m, v, _, _, rfl, _⟩ := hcalls k hk; exact ⟨m, v, rfl⟩) (fresh_list hf)
  rw [callGet_eq h2, this, appendAll_ign]
  rfl

/-- the same on any object whose list attributes are lists: the values are appended to what was there -/
theorem C46_append_later_partial (c a g : Key) (ha : IsAdder c a true false) (hg : SameList c a g) (calls : List (Call α))
    (hcalls : ∀ k ∈ calls, ∃ m v, k = .add m v) (o o' : Attrs α) (l : List (Option α)) (hl : callGet c g o = .ok (.list l))
    (hrun : runCalls c calls o = .ok o') : callGet c g o' = .ok (.list (l ++ (added a calls).filter (·.isSome))) := by
  obtain ⟨f, hf⟩ := ha
  obtain ⟨f', i, d, h1, h2⟩ := hg
  rw [hf] at h1; cases h1
  rw [callGet_eq h2] at hl ⊢
  have hof : o f = some (.list l) := by
    cases h : o f with
    | none => rw [h] at hl; cases hl
    | some v => rw [h] at hl; cases hl; rfl
  rw [run_add hf calls o o' l hrun hcalls hof, appendAll_ign]

/-- the 141 adders without any test: the list contains all values given, `None` included -/
theorem C46_append_any (c a g : Key) (ha : IsAdder c a false false) (hg : SameList c a g) (calls : List (Call α))
    (hcalls : ∀ k ∈ calls, ∃ m v ign dedup, k = .add m v ∧ IsAdder c m ign dedup) :
    ∃ o', runCalls c calls (fresh α c) = .ok o' ∧ callGet c g o' = .ok (.list (added a calls)) := by
  obtain ⟨f, hf⟩ := ha
  obtain ⟨f', i, d, h1, h2⟩ := hg
  rw [hf] at h1; cases h1
  obtain ⟨o', ho', _⟩ := run_adders calls (c := c) (fun k hk => by
    obtain ⟨m, v, i, d, rfl, f', hm⟩ := hcalls k hk; exact ⟨m, v, f', i, d, rfl, hm⟩) _ (fresh_listsOk (α := α) c)
  refine ⟨o', ho', ?_⟩
  have := run_add hf calls _ o' [] ho' (fun k hk => by
    obtain ⟨m, v, _, _, rfl, _⟩ := hcalls k hk; exact ⟨m, v, rfl⟩) (fresh_list hf)
  rw [callGet_eq h2, this, appendAll_plain]
  rfl

/-- the 10 adders that test for duplicates: every value given is in the list once, in the order of addition -/
theorem C46_append_once (c a g : Key) (ign : Bool) (ha : IsAdder c a ign true) (hg : SameList c a g) (calls : List (Call α))
    (hcalls : ∀ k ∈ calls, ∃ m v ign dedup, k = .add m v ∧ IsAdder c m ign dedup) :
    ∃ o' l, runCalls c calls (fresh α c) = .ok o' ∧ callGet c g o' = .ok (.list l) ∧
      l.Nodup ∧ l.Sublist (added a calls) ∧ ∀ x, x ∈ l ↔ x ∈ added a calls ∧ ¬ (ign = true ∧ x = none) := by
  obtain ⟨f, hf⟩ := ha
  obtain ⟨f', i, d, h1, h2⟩ := hg
  rw [hf] at h1; cases h1
  obtain ⟨o', ho', _⟩ := run_adders calls (c := c) (fun k hk => by
    obtain ⟨m, v, i, d, rfl, f', hm⟩ := hcalls k hk; exact ⟨m, v, f', i, d, rfl, hm⟩) _ (fresh_listsOk (α := α) c)
  have := run_add hf calls _ o' [] ho' (fun k hk => by
    obtain ⟨m, v, _, _, rfl, _⟩ := hcalls k hk; exact ⟨m, v, rfl⟩) (fresh_list hf)
  obtain ⟨k1, ⟨t, k2, k3⟩, k4⟩ := appendAll_dedup ign (added a calls) [] List.nodup_nil
  refine ⟨o', _, ho', by rw [callGet_eq h2, this], k1, ?_, fun x => ?_⟩
  · rw [k2]; simpa using k3
  · rw [k4]; simp

/-- how many adder methods there are of each kind: ignoring `None`; testing nothing; testing for duplicates -/
theorem C46_count :
    ((accTable.toList.flatMap fun e => e.2.methods).filter fun
      | (_, .add _ true false) => true
      | _ => false).length = 234 ∧
    ((accTable.toList.flatMap fun e => e.2.methods).filter fun
      | (_, .add _ false false) => true
      | _ => false).length = 141 ∧
    ((accTable.toList.flatMap fun e => e.2.methods).filter fun
      | (_, .add _ _ true) => true
      | _ => false).length = 10 := by decide +kernel

/-- the claim of C46 is false for an adder without a test: `NmNode.addRxNmPduRef(None)` puts `None` in the list -/
theorem C46_none_broken : SameList k!"NmNode" k!"addRxNmPduRef" k!"getRxNmPduRefs" ∧
    ∃ o', runCalls k!"NmNode" [.add k!"addRxNmPduRef" (some 7), .add k!"addRxNmPduRef" none] (fresh Nat k!"NmNode") = .ok o' ∧
      callGet k!"NmNode" k!"getRxNmPduRefs" o' = .ok (.list [some 7, none]) := by
  have ha : resolve k!"NmNode" k!"addRxNmPduRef" = some (.add k!"rxNmPduRefs" false false) := by decide +kernel
  have hg : resolve k!"NmNode" k!"getRxNmPduRefs" = some (.get k!"rxNmPduRefs") := by decide +kernel
  have hl : SameList k!"NmNode" k!"addRxNmPduRef" k!"getRxNmPduRefs" := ⟨_, _, _, ha, hg⟩
  refine ⟨hl, ?_⟩
  obtain ⟨o', h1, h2⟩ := C46_append_any (α := Nat) _ _ _ ⟨_, ha⟩ hl
    [.add k!"addRxNmPduRef" (some 7), .add k!"addRxNmPduRef" none] (by
      intro k hk
      simp only [List.mem_cons, List.not_mem_nil, or_false] at hk
      rcases hk with rfl | rfl <;> exact ⟨_, _, _, _, rfl, _, ha⟩)
  exact ⟨o', h1, h2⟩

/-- the claim of C46 is false for an adder that tests for duplicates: a value added twice is in the list once -/
theorem C46_twice_broken : SameList k!"HwPin" k!"addFunctionName" k!"getFunctionNames" ∧
    ∃ o', runCalls k!"HwPin" [.add k!"addFunctionName" (some 7), .add k!"addFunctionName" (some 7)] (fresh Nat k!"HwPin") = .ok o' ∧
      callGet k!"HwPin" k!"getFunctionNames" o' = .ok (.list [some 7]) := by
  have ha : resolve k!"HwPin" k!"addFunctionName" = some (.add k!"functionNames" false true) := by decide +kernel
  have hg : resolve k!"HwPin" k!"getFunctionNames" = some (.get k!"functionNames") := by decide +kernel
  refine ⟨⟨_, _, _, ha, hg⟩, ?_⟩
  obtain ⟨o', ho', _⟩ := run_adders [Call.add k!"addFunctionName" (some 7), .add k!"addFunctionName" (some 7)] (c := k!"HwPin") (by
      intro k hk
      simp only [List.mem_cons, List.not_mem_nil, or_false] at hk
      rcases hk with rfl | rfl <;> exact ⟨_, _, _, _, _, rfl, ha⟩) _ (fresh_listsOk (α := Nat) _)
  refine ⟨o', ho', ?_⟩
  rw [callGet_eq hg, run_add ha _ _ o' [] ho' (by
      intro k hk
      simp only [List.mem_cons, List.not_mem_nil, or_false] at hk
      rcases hk with rfl | rfl <;> exact ⟨_, _, rfl⟩) (fresh_list ha)]
  rfl

/-- the claim of C46 is false for `PduMappingDefaultValue.addDefaultValueElements`, which overwrites the list
with the value: the getter then returns the last value itself -/
theorem C46_overwrite_broken (v : α) (w : PV α) (hw : w ≠ .none) : ∃ o',
    runCalls k!"PduMappingDefaultValue" [.set k!"addDefaultValueElements" (.val v), .set k!"addDefaultValueElements" w]
      (fresh α k!"PduMappingDefaultValue") = .ok o' ∧
    callGet k!"PduMappingDefaultValue" k!"getDefaultValueElements" o' = .ok w := by
  have hs : resolve k!"PduMappingDefaultValue" k!"addDefaultValueElements" = some (.set k!"defaultValueElements" true) := by decide +kernel
  have hg : resolve k!"PduMappingDefaultValue" k!"getDefaultValueElements" = some (.get k!"defaultValueElements") := by decide +kernel
  refine ⟨_, by simp only [runCalls, Call.run, Call.method, hs, Acc.runSet, hw]; rfl, ?_⟩
  simp [callGet, hg, Acc.read, Attrs.assign]

/-- non-vacuity of C46: two adders of a timing event, inherited from its base class, interleaved -/
example : IsAdder k!"BswTimingEvent" k!"addContextLimitationRef" true false ∧ IsAdder k!"BswTimingEvent" k!"addDisabledInModeIRef" true false ∧
    SameList k!"BswTimingEvent" k!"addContextLimitationRef" k!"getContextLimitationRefs" ∧
    (added k!"addContextLimitationRef" [Call.add k!"addContextLimitationRef" (some 1), .add k!"addDisabledInModeIRef" (some 2),
      .add k!"addContextLimitationRef" none, .add k!"addContextLimitationRef" (some 1)]).filter (·.isSome) = [some 1, some 1] := by
  refine ⟨⟨k!"contextLimitationRefs", by decide +kernel⟩, ⟨k!"disabledInModeIRefs", by decide +kernel⟩,
    ⟨k!"contextLimitationRefs", true, false, by decide +kernel, by decide +kernel⟩, by decide⟩

/-- the other two kinds of adders -/
example : IsAdder k!"NmNode" k!"addRxNmPduRef" false false ∧ SameList k!"NmNode" k!"addRxNmPduRef" k!"getRxNmPduRefs" ∧
    IsAdder k!"HwPin" k!"addFunctionName" false true ∧ SameList k!"HwPin" k!"addFunctionName" k!"getFunctionNames" := by
  refine ⟨⟨k!"rxNmPduRefs", by decide +kernel⟩, ⟨k!"rxNmPduRefs", false, false, by decide +kernel, by decide +kernel⟩, ⟨k!"functionNames", by decide +kernel⟩,
    ⟨k!"functionNames", false, true, by decide +kernel, by decide +kernel⟩⟩

end Verif.Props
