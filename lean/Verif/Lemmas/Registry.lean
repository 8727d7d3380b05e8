import Verif.Spec.Registry
import Mathlib.Data.List.Induction
namespace Verif.Lemmas
open Verif.Model Verif.Spec Verif.Model.Registry

theorem lookup_dset {κ α : Type} [DecidableEq κ] [BEq κ] [LawfulBEq κ] (k : κ) (v : α) (l : List (κ × α)) (k' : κ) :
    (dset k v l).lookup k' = if k' = k then some v else l.lookup k' := by
  induction l with
  | nil =>
    by_cases h : k' = k
    · simp [dset, h]
    · simp [dset, List.lookup_cons, beq_eq_false_iff_ne.mpr h, h]
  | cons e r ih =>
    obtain ⟨a, b⟩ := e
    by_cases h : k = a
    · subst h
      by_cases h' : k' = k
      · simp [dset, h']
      · simp [dset, List.lookup_cons, beq_eq_false_iff_ne.mpr h', h']
    · by_cases h' : k' = a
      · subst h'; simp [dset, h, Ne.symm h]
      · simp [dset, h, List.lookup_cons, beq_eq_false_iff_ne.mpr h', ih]

theorem keys_dset {κ α : Type} [DecidableEq κ] (k : κ) (v : α) (l : List (κ × α)) :
    (dset k v l).map (·.1) = if k ∈ l.map (·.1) then l.map (·.1) else l.map (·.1) ++ [k] := by
  induction l with
  | nil => simp [dset]
  | cons e r ih =>
    obtain ⟨a, b⟩ := e
    by_cases h : k = a
    · subst h; simp [dset]
    · have e : dset k v ((a, b) :: r) = (a, b) :: dset k v r := by simp [dset, h]
      rw [e, List.map_cons, ih]
      by_cases hm : k ∈ r.map (·.1)
      · rw [if_pos hm, if_pos (by simp only [List.map_cons]; exact List.mem_cons_of_mem _ hm), List.map_cons]
      · rw [if_neg hm, if_neg (by simp only [List.map_cons, List.mem_cons, not_or]; exact ⟨h, hm⟩)]; rfl

theorem lookup_isSome_iff {κ α : Type} [BEq κ] [LawfulBEq κ] (l : List (κ × α)) (k : κ) :
    (l.lookup k).isSome = true ↔ k ∈ l.map (·.1) := by
  induction l with
  | nil => simp
  | cons e r ih =>
    obtain ⟨a, b⟩ := e
    by_cases h : k = a
    · subst h; simp
    · simp only [List.lookup_cons, beq_eq_false_iff_ne.mpr h, List.map_cons, List.mem_cons, h, false_or]; exact ih

theorem nodup_dset {κ α : Type} [DecidableEq κ] (k : κ) (v : α) (l : List (κ × α))
    (h : (l.map (·.1)).Nodup) : ((dset k v l).map (·.1)).Nodup := by
  rw [keys_dset]
  split
  · exact h
  · rename_i hk
    rw [List.nodup_append]
    refine ⟨h, by simp, ?_⟩
    intro a ha b hb
    simp only [List.mem_singleton] at hb
    subst hb; intro e; subst e; exact hk ha

theorem lastFor_snoc {κ α : Type} [DecidableEq κ] (l : List (κ × α)) (k : κ) (v : α) (k' : κ) :
    lastFor (l ++ [(k, v)]) k' = if k' = k then some v else lastFor l k' := by
  simp only [lastFor, List.reverse_append, List.reverse_cons, List.reverse_nil, List.nil_append,
    List.singleton_append, List.find?_cons]
  by_cases h : k = k'
  · simp [h]
  · simp [h, Ne.symm h]

theorem firstFor_snoc {κ α : Type} [DecidableEq κ] (l : List (κ × α)) (k : κ) (v : α) (k' : κ) :
    firstFor (l ++ [(k, v)]) k' = match firstFor l k' with
      | some x => some x
      | none => if k' = k then some v else none := by
  simp only [firstFor, List.find?_append]
  cases h : l.find? (fun e => decide (e.1 = k')) with
  | some e => simp
  | none =>
    by_cases hk : k = k'
    · simp [hk]
    · simp [hk, Ne.symm hk]

theorem since_snoc (ops : List Op) (op : Op) :
    since (ops ++ [op]) = match op with | .clear => [] | _ => since ops ++ [op] := by
  induction ops with
  | nil => cases op <;> simp [since]
  | cons a r ih =>
    simp only [List.cons_append, since, ih]
    cases op <;> simp [List.any_append] <;> split <;> simp_all <;> cases a <;> simp

theorem run_snoc (ops : List Op) (op : Op) : run (ops ++ [op]) = step (run ops) op := by
  simp [run]

/-- what the fields contain, in terms of the history -/
structure Hist (ops : List Op) (d : Registry) : Prop where
  appl : ∀ a, d.appl_impl.lookup a = lastFor (maps (since ops)) a
  impl : ∀ i, d.impl_appl.lookup i = lastFor ((maps (since ops)).map fun e => (e.2, e.1)) i
  beh : ∀ i, d.impl_behavior.lookup i = lastFor (behaviors (since ops)) i
  ibeh : ∀ b, d.behavior_impl.lookup b = lastFor ((behaviors (since ops)).map fun e => (e.2, e.1)) b
  sys : ∀ n, d.systems.lookup n = firstFor (systemsOf (since ops)) n
  sysk : (d.systems.map (·.1)).Nodup
  comp : ∀ n, d.compositions.lookup n = firstFor (compositionsOf (since ops)) n
  root : d.root = (rootsOf (since ops)).head?
  uuid : ∀ u, UUIDMgr.getObjects d.uuid_mgr u = (objectsOf (since ops)).filter (fun o => o.uuid = some u)
  uuidk : ∀ u, u ∈ d.uuid_mgr.map (·.1) ↔ ∃ o ∈ objectsOf (since ops), o.uuid = some u
  uuidn : (d.uuid_mgr.map (·.1)).Nodup

theorem hist_fresh : Hist [] fresh := by
  constructor <;> simp [since, maps, behaviors, systemsOf, compositionsOf, rootsOf, objectsOf, lastFor, firstFor,
    fresh, UUIDMgr.getObjects]

theorem getObjects_add (m : List (String × List UObj)) (o : UObj) (u : String) :
    UUIDMgr.getObjects (UUIDMgr.addObject m o) u
      = UUIDMgr.getObjects m u ++ (if o.uuid = some u then [o] else []) := by
  unfold UUIDMgr.addObject
  cases ho : o.uuid with
  | none => simp
  | some v =>
    simp only [Option.some.injEq]
    cases hl : m.lookup v with
    | none =>
      simp only [UUIDMgr.getObjects, lookup_dset]
      by_cases h : u = v
      · subst h; simp [hl]
      · simp [h, Ne.symm h]
    | some l =>
      simp only [UUIDMgr.getObjects, lookup_dset]
      by_cases h : u = v
      · subst h; simp [hl]
      · simp [h, Ne.symm h]

theorem keys_add (m : List (String × List UObj)) (o : UObj) (u : String) :
    u ∈ (UUIDMgr.addObject m o).map (·.1) ↔ u ∈ m.map (·.1) ∨ o.uuid = some u := by
  unfold UUIDMgr.addObject
  cases ho : o.uuid with
  | none => simp
  | some v =>
    have key : ∀ l, u ∈ (dset v l m).map (·.1) ↔ u ∈ m.map (·.1) ∨ v = u := by
      intro l; rw [keys_dset]
      split
      · rename_i h
        constructor
        · exact Or.inl
        · rintro (h' | rfl)
          · exact h'
          · exact h
      · rw [List.mem_append, List.mem_singleton]; exact or_congr_right eq_comm
    simp only [Option.some.injEq]
    cases m.lookup v <;> exact key _

theorem nodup_add (m : List (String × List UObj)) (o : UObj) (h : (m.map (·.1)).Nodup) :
    ((UUIDMgr.addObject m o).map (·.1)).Nodup := by
  unfold UUIDMgr.addObject
  split
  · exact h
  · split <;> exact nodup_dset _ _ _ h

theorem hist_step {ops : List Op} {d : Registry} (h : Hist ops d) (op : Op) : Hist (ops ++ [op]) (step d op) := by
  have hs := since_snoc ops op
  cases op with
  | clear =>
    simp only at hs
    have hf := hist_fresh
    constructor <;> (try rw [hs]) <;> first
      | exact hf.appl | exact hf.impl | exact hf.beh | exact hf.ibeh | exact hf.sys | exact hf.sysk
      | exact hf.comp | exact hf.root | exact hf.uuid | exact hf.uuidk
  | dataTypeMap a i =>
    simp only at hs
    obtain _ | a := a
    · exact ⟨by simpa [hs, maps, step, addDataTypeMap] using h.appl, by simpa [hs, maps, step, addDataTypeMap] using h.impl, by simpa [hs, behaviors, step, addDataTypeMap] using h.beh, by simpa [hs, behaviors, step, addDataTypeMap] using h.ibeh, by simpa [hs, systemsOf, step, addDataTypeMap] using h.sys, h.sysk, by simpa [hs, compositionsOf, step, addDataTypeMap] using h.comp, by simpa [hs, rootsOf, step, addDataTypeMap] using h.root, by simpa [hs, objectsOf, step, addDataTypeMap] using h.uuid, by simpa [hs, objectsOf, step, addDataTypeMap] using h.uuidk, h.uuidn⟩
    · obtain _ | i := i
      · exact ⟨by simpa [hs, maps, step, addDataTypeMap] using h.appl, by simpa [hs, maps, step, addDataTypeMap] using h.impl, by simpa [hs, behaviors, step, addDataTypeMap] using h.beh, by simpa [hs, behaviors, step, addDataTypeMap] using h.ibeh, by simpa [hs, systemsOf, step, addDataTypeMap] using h.sys, h.sysk, by simpa [hs, compositionsOf, step, addDataTypeMap] using h.comp, by simpa [hs, rootsOf, step, addDataTypeMap] using h.root, by simpa [hs, objectsOf, step, addDataTypeMap] using h.uuid, by simpa [hs, objectsOf, step, addDataTypeMap] using h.uuidk, h.uuidn⟩
      · have hm : maps (since (ops ++ [.dataTypeMap (some a) (some i)])) = maps (since ops) ++ [(a, i)] := by
          simp [hs, maps]
        refine ⟨?_, ?_, by simpa [hs, behaviors, step, addDataTypeMap] using h.beh, by simpa [hs, behaviors, step, addDataTypeMap] using h.ibeh, by simpa [hs, systemsOf, step, addDataTypeMap] using h.sys, h.sysk, by simpa [hs, compositionsOf, step, addDataTypeMap] using h.comp, by simpa [hs, rootsOf, step, addDataTypeMap] using h.root, by simpa [hs, objectsOf, step, addDataTypeMap] using h.uuid, by simpa [hs, objectsOf, step, addDataTypeMap] using h.uuidk, h.uuidn⟩
        · intro x
          rw [hm, lastFor_snoc, ← h.appl]
          simp [step, addDataTypeMap, lookup_dset]
        · intro x
          rw [hm, List.map_append, List.map_singleton, lastFor_snoc, ← h.impl]
          simp [step, addDataTypeMap, lookup_dset]
  | behaviorMap i b =>
    simp only at hs
    have hm : behaviors (since (ops ++ [.behaviorMap i b])) = behaviors (since ops) ++ [(i, b)] := by
      simp [hs, behaviors]
    refine ⟨by simpa [hs, maps, step, addImplementationBehaviorMap] using h.appl, by simpa [hs, maps, step, addImplementationBehaviorMap] using h.impl, ?_, ?_, by simpa [hs, systemsOf, step, addImplementationBehaviorMap] using h.sys, h.sysk, by simpa [hs, compositionsOf, step, addImplementationBehaviorMap] using h.comp, by simpa [hs, rootsOf, step, addImplementationBehaviorMap] using h.root, by simpa [hs, objectsOf, step, addImplementationBehaviorMap] using h.uuid, by simpa [hs, objectsOf, step, addImplementationBehaviorMap] using h.uuidk, h.uuidn⟩
    · intro x
      rw [hm, lastFor_snoc, ← h.beh]
      simp [step, addImplementationBehaviorMap, lookup_dset]
    · intro x
      rw [hm, List.map_append, List.map_singleton, lastFor_snoc, ← h.ibeh]
      simp [step, addImplementationBehaviorMap, lookup_dset]
  | addObject o =>
    simp only at hs
    have hm : objectsOf (since (ops ++ [.addObject o])) = objectsOf (since ops) ++ [o] := by
      simp [hs, objectsOf]
    refine ⟨by simpa [hs, maps, step] using h.appl, by simpa [hs, maps, step] using h.impl, by simpa [hs, behaviors, step] using h.beh, by simpa [hs, behaviors, step] using h.ibeh, by simpa [hs, systemsOf, step] using h.sys, h.sysk, by simpa [hs, compositionsOf, step] using h.comp, by simpa [hs, rootsOf, step] using h.root, ?_, ?_, nodup_add _ _ h.uuidn⟩
    · intro u
      rw [hm, List.filter_append, ← h.uuid]
      simp only [step, getObjects_add]
      by_cases hu : o.uuid = some u <;> simp [hu]
    · intro u
      rw [hm]
      simp only [step, keys_add, h.uuidk, List.mem_append, List.mem_singleton]
      constructor
      · rintro (⟨o', h1, h2⟩ | h1)
        · exact ⟨o', .inl h1, h2⟩
        · exact ⟨o, .inr rfl, h1⟩
      · rintro ⟨o', h1 | rfl, h2⟩
        · exact .inl ⟨o', h1, h2⟩
        · exact .inr h2
  | addSystem n o =>
    simp only at hs
    have hm : systemsOf (since (ops ++ [.addSystem n o])) = systemsOf (since ops) ++ [(n, o)] := by
      simp [hs, systemsOf]
    have hsys : ∀ x, (d.addSystem n o).systems.lookup x = firstFor (systemsOf (since ops) ++ [(n, o)]) x := by
      intro x
      rw [firstFor_snoc, ← h.sys]
      unfold Registry.addSystem
      split
      · rename_i hsome
        cases hx : d.systems.lookup x with
        | some v => rfl
        | none =>
          by_cases hxn : x = n
          · subst hxn; simp [hx] at hsome
          · simp [hxn]
      · rename_i hnone
        simp only [lookup_dset]
        by_cases hxn : x = n
        · subst hxn
          cases hx : d.systems.lookup x with
          | some v => simp [hx] at hnone
          | none => simp
        · simp only [hxn, if_false]; cases d.systems.lookup x <;> rfl
    have hk : ((d.addSystem n o).systems.map (·.1)).Nodup := by
      unfold Registry.addSystem
      split
      · exact h.sysk
      · exact nodup_dset _ _ _ h.sysk
    have e : ∀ {α : Type} (f : Registry → α), (∀ l, f { d with systems := l } = f d) → f (step d (.addSystem n o)) = f d := by
      intro α f hf; simp only [step, Registry.addSystem]; split
      · rfl
      · exact hf _
    refine ⟨?_, ?_, ?_, ?_, ?_, hk, ?_, ?_, ?_, ?_, ?_⟩
    · rw [e (·.appl_impl) (fun _ => rfl)]; simpa [hs, maps] using h.appl
    · rw [e (·.impl_appl) (fun _ => rfl)]; simpa [hs, maps] using h.impl
    · rw [e (·.impl_behavior) (fun _ => rfl)]; simpa [hs, behaviors] using h.beh
    · rw [e (·.behavior_impl) (fun _ => rfl)]; simpa [hs, behaviors] using h.ibeh
    · rw [hm]; exact hsys
    · rw [e (·.compositions) (fun _ => rfl)]; simpa [hs, compositionsOf] using h.comp
    · rw [e (·.root) (fun _ => rfl)]; simpa [hs, rootsOf] using h.root
    · rw [e (·.uuid_mgr) (fun _ => rfl)]; simpa [hs, objectsOf] using h.uuid
    · rw [e (·.uuid_mgr) (fun _ => rfl)]; simpa [hs, objectsOf] using h.uuidk
    · rw [e (·.uuid_mgr) (fun _ => rfl)]; exact h.uuidn
  | addComposition c =>
    simp only at hs
    have e : ∀ {α : Type} (f : Registry → α), (∀ l, f { d with compositions := l } = f d) → f (step d (.addComposition c)) = f d := by
      intro α f hf
      obtain _ | ⟨n, o⟩ := c
      · rfl
      · simp only [step, Registry.addComposition]; split
        · rfl
        · exact hf _
    have hcomp : ∀ x, (step d (.addComposition c)).compositions.lookup x = firstFor (compositionsOf (since (ops ++ [.addComposition c]))) x := by
      intro x
      obtain _ | ⟨n, o⟩ := c
      · simpa [hs, compositionsOf, step, Registry.addComposition] using h.comp x
      · have hm : compositionsOf (since (ops ++ [.addComposition (some (n, o))])) = compositionsOf (since ops) ++ [(n, o)] := by
          simp [hs, compositionsOf]
        rw [hm, firstFor_snoc, ← h.comp]
        simp only [step, Registry.addComposition]
        split
        · rename_i hsome
          cases hx : d.compositions.lookup x with
          | some v => rfl
          | none =>
            by_cases hxn : x = n
            · subst hxn; simp [hx] at hsome
            · simp [hxn]
        · rename_i hnone
          simp only [lookup_dset]
          by_cases hxn : x = n
          · subst hxn
            cases hx : d.compositions.lookup x with
            | some v => simp [hx] at hnone
            | none => simp
          · simp only [hxn, if_false]; cases d.compositions.lookup x <;> rfl
    refine ⟨?_, ?_, ?_, ?_, ?_, ?_, hcomp, ?_, ?_, ?_, ?_⟩
    · rw [e (·.appl_impl) (fun _ => rfl)]; simpa [hs, maps] using h.appl
    · rw [e (·.impl_appl) (fun _ => rfl)]; simpa [hs, maps] using h.impl
    · rw [e (·.impl_behavior) (fun _ => rfl)]; simpa [hs, behaviors] using h.beh
    · rw [e (·.behavior_impl) (fun _ => rfl)]; simpa [hs, behaviors] using h.ibeh
    · rw [e (·.systems) (fun _ => rfl)]; simpa [hs, systemsOf] using h.sys
    · rw [e (·.systems) (fun _ => rfl)]; exact h.sysk
    · rw [e (·.root) (fun _ => rfl)]; simpa [hs, rootsOf] using h.root
    · rw [e (·.uuid_mgr) (fun _ => rfl)]; simpa [hs, objectsOf] using h.uuid
    · rw [e (·.uuid_mgr) (fun _ => rfl)]; simpa [hs, objectsOf] using h.uuidk
    · rw [e (·.uuid_mgr) (fun _ => rfl)]; exact h.uuidn
  | setRoot r =>
    simp only at hs
    have e : ∀ {α : Type} (f : Registry → α), (∀ l, f { d with root := l } = f d) → f (step d (.setRoot r)) = f d := by
      intro α f hf
      obtain _ | ⟨n, o⟩ := r
      · rfl
      · cases hr : d.root with
        | some q =>
          simp only [step, Registry.setRoot, hr]
          by_cases hq : n = q.1 <;> simp [hq]
        | none => simp only [step, Registry.setRoot, hr]; exact hf _
    have hroot : (step d (.setRoot r)).root = (rootsOf (since (ops ++ [.setRoot r]))).head? := by
      obtain _ | ⟨n, o⟩ := r
      · simpa [hs, rootsOf, step, Registry.setRoot] using h.root
      · have hm : rootsOf (since (ops ++ [.setRoot (some (n, o))])) = rootsOf (since ops) ++ [(n, o)] := by
          simp [hs, rootsOf]
        rw [hm, List.head?_append, ← h.root]
        cases hr : d.root with
        | some q =>
          simp only [step, Registry.setRoot, hr]
          by_cases hq : n = q.1 <;> simp [hq, hr]
        | none => simp [step, Registry.setRoot, hr]
    refine ⟨?_, ?_, ?_, ?_, ?_, ?_, ?_, hroot, ?_, ?_, ?_⟩
    · rw [e (·.appl_impl) (fun _ => rfl)]; simpa [hs, maps] using h.appl
    · rw [e (·.impl_appl) (fun _ => rfl)]; simpa [hs, maps] using h.impl
    · rw [e (·.impl_behavior) (fun _ => rfl)]; simpa [hs, behaviors] using h.beh
    · rw [e (·.behavior_impl) (fun _ => rfl)]; simpa [hs, behaviors] using h.ibeh
    · rw [e (·.systems) (fun _ => rfl)]; simpa [hs, systemsOf] using h.sys
    · rw [e (·.systems) (fun _ => rfl)]; exact h.sysk
    · rw [e (·.compositions) (fun _ => rfl)]; simpa [hs, compositionsOf] using h.comp
    · rw [e (·.uuid_mgr) (fun _ => rfl)]; simpa [hs, objectsOf] using h.uuid
    · rw [e (·.uuid_mgr) (fun _ => rfl)]; simpa [hs, objectsOf] using h.uuidk
    · rw [e (·.uuid_mgr) (fun _ => rfl)]; exact h.uuidn
  | setRelease r =>
    simp only at hs
    have e : ∀ {α : Type} (f : Registry → α), (∀ l, f { d with schema_location := l } = f d) → f (step d (.setRelease r)) = f d := by
      intro α f hf
      simp only [step, setARRelease]
      cases releases.lookup r with
      | none => rfl
      | some x => exact hf _
    refine ⟨?_, ?_, ?_, ?_, ?_, ?_, ?_, ?_, ?_, ?_, ?_⟩
    · rw [e (·.appl_impl) (fun _ => rfl)]; simpa [hs, maps] using h.appl
    · rw [e (·.impl_appl) (fun _ => rfl)]; simpa [hs, maps] using h.impl
    · rw [e (·.impl_behavior) (fun _ => rfl)]; simpa [hs, behaviors] using h.beh
    · rw [e (·.behavior_impl) (fun _ => rfl)]; simpa [hs, behaviors] using h.ibeh
    · rw [e (·.systems) (fun _ => rfl)]; simpa [hs, systemsOf] using h.sys
    · rw [e (·.systems) (fun _ => rfl)]; exact h.sysk
    · rw [e (·.compositions) (fun _ => rfl)]; simpa [hs, compositionsOf] using h.comp
    · rw [e (·.root) (fun _ => rfl)]; simpa [hs, rootsOf] using h.root
    · rw [e (·.uuid_mgr) (fun _ => rfl)]; simpa [hs, objectsOf] using h.uuid
    · rw [e (·.uuid_mgr) (fun _ => rfl)]; simpa [hs, objectsOf] using h.uuidk
    · rw [e (·.uuid_mgr) (fun _ => rfl)]; exact h.uuidn
  | setAdminData v =>
    simp only at hs
    cases v <;>
    exact ⟨by simpa [hs, maps, step] using h.appl, by simpa [hs, maps, step] using h.impl, by simpa [hs, behaviors, step] using h.beh, by simpa [hs, behaviors, step] using h.ibeh, by simpa [hs, systemsOf, step] using h.sys, h.sysk, by simpa [hs, compositionsOf, step] using h.comp, by simpa [hs, rootsOf, step] using h.root, by simpa [hs, objectsOf, step] using h.uuid, by simpa [hs, objectsOf, step] using h.uuidk, h.uuidn⟩
  | removeAdminData | setFileInfoComment v | setIntroduction v | setSchema v | setAttrs v u =>
    simp only at hs
    exact ⟨by simpa [hs, maps, step] using h.appl, by simpa [hs, maps, step] using h.impl, by simpa [hs, behaviors, step] using h.beh, by simpa [hs, behaviors, step] using h.ibeh, by simpa [hs, systemsOf, step] using h.sys, h.sysk, by simpa [hs, compositionsOf, step] using h.comp, by simpa [hs, rootsOf, step] using h.root, by simpa [hs, objectsOf, step] using h.uuid, by simpa [hs, objectsOf, step] using h.uuidk, h.uuidn⟩

theorem hist_run (ops : List Op) : Hist ops (run ops) := by
  induction ops using List.reverseRecOn with
  | nil => exact hist_fresh
  | append_singleton ops op ih => rw [run_snoc]; exact hist_step ih op

end Verif.Lemmas
