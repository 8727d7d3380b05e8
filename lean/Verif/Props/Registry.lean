import Verif.Lemmas.Registry
/-!
# Properties C13–C18 and C48: the registries of a document

Histories are arbitrary lists of API calls (`Registry.Op`), including `clear()`.
-/
namespace Verif.Props
open Verif.Model Verif.Model.Registry Verif.Spec Verif.Lemmas

/-- a history that uses everything -/
def demoReg : List Op :=
  [.addSystem "Old" 9, .setRelease "4.3.1", .clear, .setRelease "R23-11", .dataTypeMap (some (some "/A/a")) (some (some "/I/i")),
   .dataTypeMap (some (some "/A/b")) (some (some "/I/i")), .dataTypeMap none (some (some "/I/j")),
   .behaviorMap "/Impl" "/Beh", .addObject ⟨1, some "u"⟩, .addObject ⟨2, none⟩, .addObject ⟨3, some "u"⟩, .addObject ⟨4, some "v"⟩,
   .addSystem "S" 10, .addSystem "S" 11, .addSystem "R" 12, .addComposition (some ("C", 20)), .addComposition (some ("C", 21)),
   .setRoot (some ("Root", 30)), .setRoot (some ("Other", 31)), .setRoot (some ("Root", 32)), .setAdminData (some 5),
   .setFileInfoComment (some 6), .setIntroduction (some 7), .setAttrs (some "t") (some "x")]

/-! ## C13 -/

/-- **C13** Whatever was done before, after `clear()` the document is in the state of a newly constructed one, so
everything that follows happens as on a new document. -/
theorem C13_clear_registries (before after : List Op) :
    run (before ++ [.clear]) = fresh ∧ run (before ++ .clear :: after) = run after := by
  refine ⟨by rw [run_snoc]; rfl, ?_⟩
  have : before ++ Op.clear :: after = (before ++ [.clear]) ++ after := by simp
  rw [this]
  unfold run
  rw [List.foldl_append]
  have h : List.foldl step fresh (before ++ [.clear]) = fresh := by
    rw [List.foldl_append]; rfl
  rw [h]

example : run demoReg ≠ fresh := by decide +kernel
example : run (demoReg ++ [.clear]) = fresh := (C13_clear_registries demoReg []).1

/-- what a call says about one of the plain attributes of a document; nothing, if it is about something else -/
def aboutAdminData : Op → Option (Option Nat)
  | .setAdminData (some v) => some (some v)
  | .removeAdminData | .clear => some none
  | _ => none
def aboutComment : Op → Option (Option Nat)
  | .setFileInfoComment v => some v
  | .clear => some none
  | _ => none
def aboutIntroduction : Op → Option (Option Nat)
  | .setIntroduction v => some v
  | .clear => some none
  | _ => none
def aboutSchema : Op → Option (Option String)
  | .setSchema v => some v
  | .setRelease r => (releases.lookup r).map fun x => some ("http://autosar.org/schema/r4.0 " ++ x)
  | .clear => some none
  | _ => none
def aboutUuid : Op → Option (Option String)
  | .setAttrs _ v => some v
  | .clear => some none
  | _ => none
def aboutTimestamp : Op → Option (Option String)
  | .setAttrs v _ => some v
  | .clear => some none
  | _ => none

/-- the last thing said in a history -/
def lastWord {α : Type} (about : Op → Option (Option α)) (ops : List Op) : Option α := (ops.reverse.findSome? about).getD none

/-- **C13** Between two `clear()`s each plain attribute is what the last call about it says: `removeAdminData` and `clear` empty it,
`setAdminData(None)` says nothing. -/
theorem C13_attributes (ops : List Op) :
    (run ops).adminData = lastWord aboutAdminData ops ∧ (run ops).fileInfoComment = lastWord aboutComment ops ∧
    (run ops).introduction = lastWord aboutIntroduction ops ∧ (run ops).schema_location = lastWord aboutSchema ops ∧
    (run ops).uuid = lastWord aboutUuid ops ∧ (run ops).timestamp = lastWord aboutTimestamp ops := by
  induction ops using List.reverseRecOn with
  | nil => exact ⟨rfl, rfl, rfl, rfl, rfl, rfl⟩
  | append_singleton ops op ih =>
    have hl : ∀ {α : Type} (about : Op → Option (Option α)), lastWord about (ops ++ [op]) = (about op).getD (lastWord about ops) := by
      intro α about
      unfold lastWord
      rw [List.reverse_append, List.reverse_singleton, List.singleton_append, List.findSome?_cons]
      cases about op <;> rfl
    rw [run_snoc]
    simp only [hl]
    generalize run ops = d at ih ⊢
    cases op with
    | dataTypeMap a i => cases a <;> cases i <;> exact ih
    | addSystem n o =>
      rw [step]
      unfold Registry.addSystem
      split <;> exact ih
    | setAdminData v =>
      cases v with
      | none => exact ih
      | some v => exact ⟨rfl, ih.2⟩
    | removeAdminData => exact ⟨rfl, ih.2⟩
    | setFileInfoComment v => exact ⟨ih.1, rfl, ih.2.2⟩
    | setIntroduction v => exact ⟨ih.1, ih.2.1, rfl, ih.2.2.2⟩
    | setSchema v => exact ⟨ih.1, ih.2.1, ih.2.2.1, rfl, ih.2.2.2.2⟩
    | setAttrs t u => exact ⟨ih.1, ih.2.1, ih.2.2.1, ih.2.2.2.1, rfl, rfl⟩
    | clear => exact ⟨rfl, rfl, rfl, rfl, rfl, rfl⟩
    | behaviorMap i b => exact ih
    | addObject o => exact ih
    | addComposition c =>
      rw [step]
      unfold Registry.addComposition
      repeat' split
      all_goals exact ih
    | setRoot r =>
      rw [step]
      cases hr : d.setRoot r with
      | error e => exact ih
      | ok d' =>
        unfold Registry.setRoot at hr
        split at hr
        · cases hr; exact ih
        · split at hr
          · split at hr
            · cases hr
            · cases hr; exact ih
          · cases hr; exact ih
    | setRelease r =>
      rw [step]
      unfold Registry.setARRelease
      cases hr : releases.lookup r with
      | none => simpa [aboutAdminData, aboutComment, aboutIntroduction, aboutSchema, aboutUuid, aboutTimestamp, hr] using ih
      | some x => simpa [aboutAdminData, aboutComment, aboutIntroduction, aboutSchema, aboutUuid, aboutTimestamp, hr] using ⟨ih.1, ih.2.1, ih.2.2.1, ih.2.2.2.2⟩

example : lastWord aboutAdminData (demoReg ++ [.setAdminData none]) = some 5 ∧ lastWord aboutAdminData (demoReg ++ [.removeAdminData]) = none ∧
    lastWord aboutIntroduction demoReg = some 7 ∧ lastWord aboutIntroduction (demoReg ++ [.clear, .setSchema (some "s")]) = none := by decide +kernel

/-! ## C14 -/

/-- **C14** The objects listed for a UUID are exactly the objects registered with that UUID since the last
`clear()`, in registration order. -/
theorem C14_objects (ops : List Op) (u : String) :
    UUIDMgr.getObjects (run ops).uuid_mgr u = (objectsOf (since ops)).filter (fun o => o.uuid = some u) :=
  (hist_run ops).uuid u

/-- **C14** Objects without UUID are never listed. -/
theorem C14_no_uuid (ops : List Op) (u : String) (o : UObj) (h : o ∈ UUIDMgr.getObjects (run ops).uuid_mgr u) :
    o.uuid = some u := by
  rw [C14_objects] at h
  simpa using (List.mem_filter.mp h).2

/-- **C14 (partial)** The duplicate query lists, without repetition, exactly the UUIDs carried by at least *one*
registered object — in particular all duplicates.  Missing: it should list only those carried by two
(`C14_duplicates_broken`). -/
theorem C14_duplicates_partial (ops : List Op) :
    (UUIDMgr.getDuplicateUUIDs (run ops).uuid_mgr).Nodup
    ∧ ∀ u, u ∈ UUIDMgr.getDuplicateUUIDs (run ops).uuid_mgr ↔ ∃ o ∈ objectsOf (since ops), o.uuid = some u := by
  have h := hist_run ops
  have e : UUIDMgr.getDuplicateUUIDs (run ops).uuid_mgr = (run ops).uuid_mgr.map (·.1) := by
    unfold UUIDMgr.getDuplicateUUIDs
    split
    · rfl
    · rename_i hl
      have : (run ops).uuid_mgr = [] := List.length_eq_zero_iff.mp (by omega)
      simp [this]
  rw [e]
  exact ⟨h.uuidn, h.uuidk⟩

/-- **C14 fails** for the duplicate query: a UUID carried by a single object is listed. -/
theorem C14_duplicates_broken : ∃ ops u, u ∈ UUIDMgr.getDuplicateUUIDs (run ops).uuid_mgr
    ∧ ((objectsOf (since ops)).filter (fun o => o.uuid = some u)).length = 1 :=
  ⟨[.addObject ⟨1, some "u"⟩], "u", by decide +kernel, by decide +kernel⟩

/-- **C14** The UUID checker tool filters again, so its report contains, without repetition, exactly the UUIDs
carried by two or more registered objects. -/
theorem C14_cli_report (ops : List Op) :
    (UUIDMgr.cliReport (run ops).uuid_mgr).Nodup
    ∧ ∀ u, u ∈ UUIDMgr.cliReport (run ops).uuid_mgr ↔ 2 ≤ ((objectsOf (since ops)).filter (fun o => o.uuid = some u)).length := by
  obtain ⟨hn, hm⟩ := C14_duplicates_partial ops
  refine ⟨hn.filter _, fun u => ?_⟩
  rw [UUIDMgr.cliReport, List.mem_filter, hm, C14_objects]
  simp only [decide_eq_true_eq]
  constructor
  · exact fun h => h.2
  · intro h
    refine ⟨?_, h⟩
    cases hf : (objectsOf (since ops)).filter (fun o => decide (o.uuid = some u)) with
    | nil => rw [hf] at h; simp at h
    | cons o l =>
      have : o ∈ (objectsOf (since ops)).filter (fun o => decide (o.uuid = some u)) := by rw [hf]; exact List.mem_cons_self ..
      exact ⟨o, (List.mem_filter.mp this).1, by simpa using (List.mem_filter.mp this).2⟩

example : UUIDMgr.getObjects (run demoReg).uuid_mgr "u" = [⟨1, some "u"⟩, ⟨3, some "u"⟩] := by decide +kernel
example : UUIDMgr.cliReport (run demoReg).uuid_mgr = ["u"] := by decide +kernel

/-! ## C15 -/

/-- **C15** An application type is converted by resolving the implementation text of the last complete map added
for it since the last `clear()`; if there is none, `IndexError`. -/
theorem C15_to_implementation (find : String → Except PyErr (Option Nat)) (ops : List Op) (a : String) :
    (run ops).convertToImplementationDataType find a
      = match lastFor (maps (since ops)) (some a) with
        | some (some i) => find i
        | some none => .error .attributeError
        | none => .error .indexError := by
  unfold convertToImplementationDataType
  rw [(hist_run ops).appl]
  cases h : lastFor (maps (since ops)) (some a) with
  | none => rfl
  | some i => cases i <;> rfl

/-- **C15** The converse direction. -/
theorem C15_to_application (find : String → Except PyErr (Option Nat)) (ops : List Op) (i : String) :
    (run ops).convertToApplicationDataType find i
      = match lastFor ((maps (since ops)).map fun e => (e.2, e.1)) (some i) with
        | some (some a) => find a
        | some none => .error .attributeError
        | none => .error .indexError := by
  unfold convertToApplicationDataType
  rw [(hist_run ops).impl]
  cases h : lastFor ((maps (since ops)).map fun e => (e.2, e.1)) (some i) with
  | none => rfl
  | some a => cases a <;> rfl

theorem lastFor_mem {κ α : Type} [DecidableEq κ] {l : List (κ × α)} {k : κ} {v : α} (h : lastFor l k = some v) :
    (k, v) ∈ l := by
  simp only [lastFor, Option.map_eq_some_iff] at h
  obtain ⟨e, he, rfl⟩ := h
  have h1 := List.mem_of_find?_eq_some he
  have h2 := List.find?_some he
  simp only [decide_eq_true_eq] at h2
  subst h2
  simpa using h1

theorem lastFor_of_mem {κ α : Type} [DecidableEq κ] {l : List (κ × α)} {k : κ} {v : α} (h : (k, v) ∈ l)
    (hu : ∀ v', (k, v') ∈ l → v' = v) : lastFor l k = some v := by
  cases hl : lastFor l k with
  | some v' => rw [hu v' (lastFor_mem hl)]
  | none =>
    simp only [lastFor, Option.map_eq_none_iff, List.find?_eq_none, List.mem_reverse] at hl
    exact absurd (by simp) (hl _ h)

/-- **C15** If the registered maps are a bijection between the mapped application and implementation types, the two
directions are inverse to each other: each map registered is used in both directions. -/
theorem C15_inverse (find : String → Except PyErr (Option Nat)) (ops : List Op)
    (hbij : ∀ e ∈ maps (since ops), ∀ e' ∈ maps (since ops), e.1 = e'.1 ↔ e.2 = e'.2)
    (a i : String) (h : (some a, some i) ∈ maps (since ops)) :
    (run ops).convertToImplementationDataType find a = find i
    ∧ (run ops).convertToApplicationDataType find i = find a := by
  have h1 : lastFor (maps (since ops)) (some a) = some (some i) :=
    lastFor_of_mem h fun v hv => (hbij _ hv _ h).mp rfl
  have h2 : lastFor ((maps (since ops)).map fun e => (e.2, e.1)) (some i) = some (some a) := by
    refine lastFor_of_mem (List.mem_map.mpr ⟨_, h, rfl⟩) fun v hv => ?_
    obtain ⟨e, he, heq⟩ := List.mem_map.mp hv
    simp only [Prod.mk.injEq] at heq
    rw [← heq.2]
    exact (hbij _ he _ h).mpr heq.1
  rw [C15_to_implementation, C15_to_application, h1, h2]
  exact ⟨rfl, rfl⟩

example : ∀ e ∈ maps (since [.dataTypeMap (some (some "/A/a")) (some (some "/I/i")), .dataTypeMap (some (some "/A/b")) (some (some "/I/j"))]),
    ∀ e' ∈ maps (since [.dataTypeMap (some (some "/A/a")) (some (some "/I/i")), .dataTypeMap (some (some "/A/b")) (some (some "/I/j"))]),
      e.1 = e'.1 ↔ e.2 = e'.2 := by decide +kernel
/-- without the bijection the directions need not be inverse: `a ↦ i` but `i ↦ b` -/
example (find : String → Except PyErr (Option Nat)) :
    (run demoReg).convertToImplementationDataType find "/A/a" = find "/I/i"
    ∧ (run demoReg).convertToApplicationDataType find "/I/i" = find "/A/b" := ⟨rfl, rfl⟩

/-! ## C48 implementations and behaviours -/

/-- **C48** The behaviour of an implementation is resolved from the last map registered for that implementation,
the implementation of a behaviour from the last map registered for that behaviour; unmapped ones give `None`. -/
theorem C48_behavior_map (find : String → Except PyErr (Option Nat)) (ops : List Op) (x : String) :
    (run ops).getBehavior find x = (match lastFor (behaviors (since ops)) x with | some b => find b | none => .ok none)
    ∧ (run ops).getImplementation find x
      = (match lastFor ((behaviors (since ops)).map fun e => (e.2, e.1)) x with | some i => find i | none => .ok none) := by
  constructor
  · unfold getBehavior; rw [(hist_run ops).beh]; cases lastFor (behaviors (since ops)) x <;> rfl
  · unfold getImplementation; rw [(hist_run ops).ibeh]
    cases lastFor ((behaviors (since ops)).map fun e => (e.2, e.1)) x <;> rfl

example : lastFor (behaviors (since demoReg)) "/Impl" = some "/Beh" := by decide +kernel

/-! ## C16 -/

/-- **C16 fails** for every document that was read from a file or built through `setCategory`: there categories are
literal objects, references are never followed and the reference itself is returned. -/
theorem C16_not_followed_broken :
    (∀ (env : String → Option DType) (n : Nat) (t : DType) (s : String), t.isImplOrBase = true → t.category = .object s →
      getDataType env (n + 1) (some t) = .type t)
    ∧ ∃ (env : String → Option DType) (t u : DType), Chain env t u ∧ Concrete u ∧ ¬ Concrete t
      ∧ ∀ n, getDataType env (n + 1) (some t) = .type t ∧ t ≠ u := by
  have h : ∀ (env : String → Option DType) (n : Nat) (t : DType) (s : String), t.isImplOrBase = true → t.category = .object s →
      getDataType env (n + 1) (some t) = .type t := by
    intro env n t s h1 h2; simp [getDataType, h1, h2, Category.eqStr]
  refine ⟨h, fun r => if r = "/T/u8" then some ⟨true, .object "VALUE", none, .unset, none⟩ else none,
    ⟨true, .object "TYPE_REFERENCE", some "/T/u8", .unset, none⟩, ⟨true, .object "VALUE", none, .unset, none⟩, ?_, ?_, ?_, ?_⟩
  · exact .step (r := "/T/u8") (u := ⟨true, .object "VALUE", none, .unset, none⟩) rfl (by simp [target, catText]) (by simp) (.refl _)
  · simp [Concrete, catText]
  · simp [Concrete, catText]
  · exact fun n => ⟨h _ n _ "TYPE_REFERENCE" rfl rfl, by simp⟩

/-- **C16 fails** for cyclic references: the resolution does not end within any number of calls. -/
theorem C16_cycle_broken : ∃ (env : String → Option DType) (t : DType), Bare t ∧ target t = some "/T/t" ∧ env "/T/t" = some t
    ∧ ∀ n, getDataType env n (some t) = .timeout := by
  refine ⟨fun r => if r = "/T/t" then some ⟨true, .bare "TYPE_REFERENCE", some "/T/t", .unset, none⟩ else none,
    ⟨true, .bare "TYPE_REFERENCE", some "/T/t", .unset, none⟩, by simp [Bare], by simp [target, catText], by simp, ?_⟩
  intro n
  induction n with
  | zero => rfl
  | succ n ih => simpa [getDataType, Category.eqStr] using ih

theorem bare_eqStr {c : Category} (h : ∀ s, c ≠ .object s) (s : String) : c.eqStr s = decide (catText c = some s) := by
  cases c with
  | unset => simp [Category.eqStr, catText]
  | object t => exact absurd rfl (h t)
  | bare t => simp [Category.eqStr, catText, beq_eq_decide]

/-- **C16 (partial)** With categories stored as plain strings, the resolution follows a chain of references of any
length to the concrete type at its end.  Missing: categories as the parser stores them
(`C16_not_followed_broken`) and cycles (`C16_cycle_broken`). -/
theorem C16_chain_partial (env : String → Option DType) (hb : ∀ r t, env r = some t → Bare t) (t u : DType) (ht : Bare t)
    (hc : Chain env t u) (hu : Concrete u) (hui : u.isImplOrBase = true) :
    ∃ n, ∀ m, n ≤ m → getDataType env m (some t) = .type u := by
  induction hc with
  | refl t =>
    refine ⟨1, fun m hm => ?_⟩
    obtain ⟨k, rfl⟩ : ∃ k, m = k + 1 := ⟨m - 1, by omega⟩
    obtain ⟨h1, h2⟩ := hu
    simp only [getDataType, hui, if_true, bare_eqStr ht.1, bare_eqStr ht.2, decide_eq_true_eq, h1, if_false,
      ← Bool.decide_and, h2]
  | @step t v w r hi hr hv _ ih =>
    obtain ⟨n, hn⟩ := ih (hb _ _ hv) hu hui
    refine ⟨n + 1, fun m hm => ?_⟩
    obtain ⟨k, rfl⟩ : ∃ k, m = k + 1 := ⟨m - 1, by omega⟩
    have hk := hn k (by omega)
    simp only [getDataType, hi, if_true, bare_eqStr ht.1, bare_eqStr ht.2, decide_eq_true_eq, ← Bool.decide_and]
    unfold target at hr
    split at hr
    · rename_i h1; simp only [h1, if_true, hr, hv]; exact hk
    · rename_i h1
      split at hr
      · rename_i h2; simp only [h2, and_self, if_true, hr, hv]; exact hk
      · cases hr

/-- **C16** Whenever the resolution returns a type, that type is reached from the argument by following
references, whatever the categories are. -/
theorem C16_sound (env : String → Option DType) (n : Nat) (t u : DType) (h : getDataType env n (some t) = .type u) :
    Chain env t u := by
  induction n generalizing t with
  | zero => cases h
  | succ n ih =>
    have ceq : ∀ {c : Category} {s}, c.eqStr s = true → catText c = some s := by
      intro c s hc; cases c <;> simp_all [Category.eqStr, catText]
    have go : ∀ r, t.isImplOrBase = true → target t = some r → getDataType env n (env r) = .type u → Chain env t u := by
      intro r hi hr hg
      cases hv : env r with
      | none => rw [hv] at hg; cases n <;> cases hg
      | some v => rw [hv] at hg; exact .step hi hr hv (ih v hg)
    simp only [getDataType] at h
    split at h
    · rename_i hi
      split at h
      · rename_i h1
        cases hr : t.implRef with
        | none => rw [hr] at h; cases h
        | some r => rw [hr] at h; exact go r hi (by simp [target, ceq h1, hr]) h
      · split at h
        · rename_i h1 h2
          simp only [Bool.and_eq_true] at h2
          cases hr : t.baseRef with
          | none => rw [hr] at h; cases h
          | some r => rw [hr] at h; exact go r hi (by simp [target, ceq h2.1, ceq h2.2, hr]) h
        · cases h; exact .refl _
    · cases h

example : ∃ (env : String → Option DType) (t u : DType), (∀ r t, env r = some t → Bare t) ∧ Bare t ∧ Chain env t u ∧ t ≠ u
    ∧ Concrete u ∧ u.isImplOrBase = true := by
  refine ⟨fun r => if r = "/T/a" then some ⟨true, .bare "VALUE", none, .unset, none⟩ else none,
    ⟨true, .bare "DATA_REFERENCE", none, .bare "VALUE", some "/T/a"⟩, ⟨true, .bare "VALUE", none, .unset, none⟩, ?_, by simp [Bare], ?_, by simp, by simp [Concrete, catText], rfl⟩
  · intro r t h; dsimp only at h; split at h
    · cases h; simp [Bare]
    · cases h
  · exact .step (r := "/T/a") rfl (by simp [target, catText]) (by simp) (.refl _)

/-! ## C17 -/

/-- **C17** The system / composition registered under a name is the first one registered under it since the last
`clear()`; looking up a composition nobody registered raises `KeyError`. -/
theorem C17_first_wins (ops : List Op) (n : String) :
    (run ops).systems.lookup n = firstFor (systemsOf (since ops)) n
    ∧ (run ops).getComposition n = (match firstFor (compositionsOf (since ops)) n with | some o => .ok o | none => .error .keyError) := by
  refine ⟨(hist_run ops).sys n, ?_⟩
  unfold getComposition; rw [(hist_run ops).comp]
  cases firstFor (compositionsOf (since ops)) n <;> rfl

theorem mem_of_lookup {α : Type} {l : List (String × α)} {n : String} {v : α} (h : l.lookup n = some v) : (n, v) ∈ l := by
  induction l with
  | nil => cases h
  | cons e r ih =>
    obtain ⟨a, b⟩ := e
    by_cases hn : n = a
    · subst hn; simp at h; subst h; exact List.mem_cons_self ..
    · simp only [List.lookup_cons, beq_eq_false_iff_ne.mpr hn] at h; exact List.mem_cons_of_mem _ (ih h)

theorem lookup_of_mem_nodup {α : Type} {l : List (String × α)} {n : String} {v : α} (hn : (l.map (·.1)).Nodup) (h : (n, v) ∈ l) :
    l.lookup n = some v := by
  induction l with
  | nil => cases h
  | cons e r ih =>
    obtain ⟨a, b⟩ := e
    simp only [List.map_cons, List.nodup_cons] at hn
    rcases List.mem_cons.mp h with h' | h'
    · cases h'; simp
    · have : n ≠ a := by rintro rfl; exact hn.1 (List.mem_map_of_mem (f := (·.1)) h')
      simp only [List.lookup_cons, beq_eq_false_iff_ne.mpr this]; exact ih hn.2 h'

/-- **C17** The systems listed are exactly the first registrations of each name, once each, sorted by name. -/
theorem C17_systems_listing (ops : List Op) :
    (∀ n o, (n, o) ∈ (run ops).getSystems ↔ firstFor (systemsOf (since ops)) n = some o)
    ∧ ((run ops).getSystems.map (·.1)).Nodup
    ∧ (run ops).getSystems.Pairwise (fun a b => a.1 ≤ b.1) := by
  have h := hist_run ops
  have hp : ((run ops).getSystems).Perm (run ops).systems := sortBy_perm _ _
  refine ⟨fun n o => ?_, (hp.map _).nodup_iff.mpr h.sysk, sortBy_sorted _ _⟩
  rw [hp.mem_iff, ← h.sys]
  exact ⟨lookup_of_mem_nodup h.sysk, mem_of_lookup⟩

/-- **C17** The root composition is the first one set since the last `clear()`.  Setting another one under a
different name raises `ValueError`; either way the first stays in place. -/
theorem C17_root (ops : List Op) (n : String) (o : Nat) :
    (run ops).root = (rootsOf (since ops)).head?
    ∧ (∀ m p, (run ops).root = some (m, p) →
        ((run ops).setRoot (some (n, o)) = .error .valueError ↔ n ≠ m)
        ∧ (run (ops ++ [.setRoot (some (n, o))])).root = some (m, p))
    ∧ ((run ops).root = none → (run (ops ++ [.setRoot (some (n, o))])).root = some (n, o)) := by
  refine ⟨(hist_run ops).root, ?_, ?_⟩
  · intro m p hr
    constructor
    · simp only [Registry.setRoot, hr]
      by_cases hnm : n = m <;> simp [hnm]
    · rw [run_snoc]
      simp only [step, Registry.setRoot, hr]
      by_cases hnm : n = m <;> simp [hnm, hr]
  · intro hr; rw [run_snoc]; simp [step, Registry.setRoot, hr]

example : (run demoReg).getSystems = [("R", 12), ("S", 10)] := by decide +kernel
example : (run demoReg).root = some ("Root", 30) ∧ (run demoReg).getComposition "C" = .ok 20 := by decide +kernel

/-! ## C18 -/

/-- **C18** `setARRelease` succeeds exactly for the sixteen published releases and then sets the schema location
(and nothing else); for any other text it raises `ValueError`, and the document stays as it is. -/
theorem C18_release (d : Registry) (r : String) :
    (∀ x, (r, x) ∈ releases → d.setARRelease r = .ok { d with schema_location := some ("http://autosar.org/schema/r4.0 " ++ x) })
    ∧ ((∀ x, (r, x) ∉ releases) → d.setARRelease r = .error .valueError ∧ step d (.setRelease r) = d) := by
  constructor
  · intro x hx
    have := lookup_of_mem_nodup (l := releases) (by decide +kernel) hx
    simp [setARRelease, this]
  · intro h
    have : releases.lookup r = none := by
      cases hl : releases.lookup r with
      | none => rfl
      | some x => exact absurd (mem_of_lookup hl) (h x)
    simp [setARRelease, step, this]

/-- **C18** Different releases select different schemas. -/
theorem C18_injective (d d1 d2 : Registry) (r1 r2 : String) (h1 : d.setARRelease r1 = .ok d1) (h2 : d.setARRelease r2 = .ok d2)
    (he : d1.schema_location = d2.schema_location) : r1 = r2 := by
  unfold setARRelease at h1 h2
  cases hl1 : releases.lookup r1 with
  | none => simp [hl1] at h1
  | some x1 => cases hl2 : releases.lookup r2 with
    | none => simp [hl2] at h2
    | some x2 =>
      simp only [hl1, hl2, Except.ok.injEq] at h1 h2
      subst h1; subst h2
      simp only [Option.some.injEq] at he
      have hx : x1 = x2 := by
        have := congrArg String.toList he
        simp only [String.toList_append, List.append_cancel_left_eq] at this
        exact String.toList_inj.mp this
      subst hx
      have key : ∀ e ∈ releases, ∀ e' ∈ releases, e.2 = e'.2 → e.1 = e'.1 := by decide +kernel
      exact key _ (mem_of_lookup hl1) _ (mem_of_lookup hl2) rfl

example : (run demoReg).schema_location = some "http://autosar.org/schema/r4.0 AUTOSAR_00052.xsd" := by decide +kernel
example : ∀ x, ("4.5.0", x) ∉ releases := by
  intro x h
  have h' : "4.5.0" ∈ releases.map (·.1) := List.mem_map_of_mem (f := (·.1)) h
  exact absurd h' (by decide +kernel)

end Verif.Props
