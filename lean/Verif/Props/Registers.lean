import Verif.Lemmas.Registers
import Verif.Props.Uuid
/-!
# C61: what the registries of a document contain, in terms of the files
-/
namespace Verif.Props
open Verif Verif.Model Verif.Gen Verif.Spec Verif.Lemmas

/-- the calls that a function picks -/
theorem pick_others {β : Type} {f : DocCall → Option β} (h : ∀ u c ns, f (.object u c ns) = none) (cs : List DocCall) :
    cs.filterMap f = (others cs).filterMap f := by
  induction cs with
  | nil => rfl
  | cons c l ih =>
    cases c with
    | object u c ns => simp only [List.filterMap_cons, h, others, List.filter_cons, isOther, Bool.false_eq_true, if_false]; exact ih
    | _ => simp only [List.filterMap_cons, others, List.filter_cons, isOther, if_true]; rw [ih]; rfl

/-- the references that are kept do not matter for a function that does not look at them -/
theorem pick_keep {β : Type} {f : DocCall → Option β} (h : ∀ c ns r, f (.behavior c ns r) = none) (known : List (List Str × Str)) (cs : List DocCall) :
    (keepRefs known cs).filterMap f = cs.filterMap f := by
  induction cs generalizing known with
  | nil => rfl
  | cons c l ih =>
    cases c with
    | behavior c ns r => cases r <;> simp only [keepRefs, List.filterMap_cons, h, ih]
    | _ => simp only [keepRefs, List.filterMap_cons, ih]

/-- what a function picks from the calls of some files -/
theorem pick_files {β : Type} {f : DocCall → Option β} {g : List Str × Xml → List β} {T : List Key} {sc : RKind → Xml → Bool} (xs : List Xml)
    (h1 : ∀ u c ns, f (.object u c ns) = none) (h2 : ∀ c ns r, f (.behavior c ns r) = none)
    (h : ∀ e, (elementCalls e).filterMap f = if T.contains e.2.tag then g e else []) :
    (filesCalls sc xs).filterMap f = (tagged T xs).flatMap g := by
  rw [pick_others h1, files_calls, pick_keep h2, tagged]
  generalize xs.flatMap fileElements = l
  induction l with
  | nil => rfl
  | cons e l ih =>
    rw [List.flatMap_cons, List.filterMap_append, ih, h, List.filter_cons]
    split
    · rw [List.flatMap_cons]
    · rfl

/-- the first object registered under a name -/
theorem first_pick {g : DocCall → Option (List Str)} (n : String) (cs : List DocCall) (k : Nat) :
    match (cs.filterMap g).find? (fun p => String.ofList (lastName p) == n) with
    | none => firstFor ((cs.zipIdx k).filterMap fun e => (g e.1).map fun ns => (callName ns, e.2)) n = none
    | some p => ∃ i, firstFor ((cs.zipIdx k).filterMap fun e => (g e.1).map fun ns => (callName ns, e.2)) n = some (i + k) ∧ (cs[i]?).bind g = some p := by
  induction cs generalizing k with
  | nil => rfl
  | cons c l ih =>
    have ih := ih (k + 1)
    simp only [List.zipIdx_cons, List.filterMap_cons]
    cases hc : g c with
    | none =>
      simp only [Option.map_none]
      split
      · rename_i he; rw [he] at ih; exact ih
      · rename_i p he
        rw [he] at ih
        obtain ⟨i, h1, h2⟩ := ih
        exact ⟨i + 1, by rw [h1]; congr 1; omega, by simpa using h2⟩
    | some ns =>
      simp only [Option.map_some, List.find?_cons]
      have e : ∀ r : List (String × Nat), firstFor ((callName ns, k) :: r) n = if callName ns = n then some k else firstFor r n := by
        intro r
        simp only [firstFor, List.find?_cons]
        by_cases h : callName ns = n
        · simp [h]
        · simp [h]
      rw [e]
      by_cases h : callName ns = n
      · have h' : (String.ofList (lastName ns) == n) = true := beq_iff_eq.2 h
        rw [h', if_pos h]
        exact ⟨0, by simp, by simpa using hc⟩
      · have h' : (String.ofList (lastName ns) == n) = false := beq_eq_false_iff_ne.2 h
        rw [h', if_neg h]
        simp only
        split
        · rename_i he; rw [he] at ih; exact ih
        · rename_i p he
          rw [he] at ih
          obtain ⟨i, h1, h2⟩ := ih
          exact ⟨i + 1, by rw [h1]; congr 1; omega, by simpa using h2⟩

def pickSystem : DocCall → Option (List Str)
  | .system ns => some ns
  | _ => none

def pickComposition : DocCall → Option (List Str)
  | .composition ns => some ns
  | _ => none

def pickRoot : DocCall → Option (List Str)
  | .root ns => some ns
  | _ => none

theorem systems_ops (cs : List DocCall) (k : Nat) :
    systemsOf ((cs.zipIdx k).map fun e => e.1.op e.2) = (cs.zipIdx k).filterMap fun e => (pickSystem e.1).map fun ns => (callName ns, e.2) := by
  rw [systemsOf, List.filterMap_map]
  congr 1
  funext e
  obtain ⟨c, i⟩ := e
  cases c with
  | behavior c ns r => cases r <;> rfl
  | _ => rfl

theorem compositions_ops (cs : List DocCall) (k : Nat) :
    compositionsOf ((cs.zipIdx k).map fun e => e.1.op e.2) = (cs.zipIdx k).filterMap fun e => (pickComposition e.1).map fun ns => (callName ns, e.2) := by
  rw [compositionsOf, List.filterMap_map]
  congr 1
  funext e
  obtain ⟨c, i⟩ := e
  cases c with
  | behavior c ns r => cases r <;> rfl
  | _ => rfl

theorem roots_ops (cs : List DocCall) (k : Nat) :
    rootsOf ((cs.zipIdx k).map fun e => e.1.op e.2) = (cs.zipIdx k).filterMap fun e => (pickRoot e.1).map fun ns => (callName ns, e.2) := by
  rw [rootsOf, List.filterMap_map]
  congr 1
  funext e
  obtain ⟨c, i⟩ := e
  cases c with
  | behavior c ns r => cases r <;> rfl
  | _ => rfl

theorem path_system {cs : List DocCall} {i : Nat} {p : List Str} (h : (cs[i]?).bind pickSystem = some p) : objectPath cs i = some p := by
  rw [objectPath]
  cases hc : cs[i]? with
  | none => rw [hc] at h; cases h
  | some c => rw [hc] at h; cases c <;> first | exact h | cases h

theorem path_composition {cs : List DocCall} {i : Nat} {p : List Str} (h : (cs[i]?).bind pickComposition = some p) : objectPath cs i = some p := by
  rw [objectPath]
  cases hc : cs[i]? with
  | none => rw [hc] at h; cases h
  | some c => rw [hc] at h; cases c <;> first | exact h | cases h

theorem path_root {cs : List DocCall} {i : Nat} {p : List Str} (h : (cs[i]?).bind pickRoot = some p) : objectPath cs i = some p := by
  rw [objectPath]
  cases hc : cs[i]? with
  | none => rw [hc] at h; cases h
  | some c => rw [hc] at h; cases c <;> first | exact h | cases h

/-- the calls for an element, by its tag -/
theorem pick_element {β : Type} {f : DocCall → Option β} {R : List β} {T : List Key} (e : List Str × Xml)
    (h1 : e.2.tag = k!"SYSTEM" → (rootCalls e.1 e.2 ++ [DocCall.system e.1]).filterMap f = if T.contains k!"SYSTEM" then R else [])
    (h2 : [DocCall.composition e.1].filterMap f = if T.contains k!"COMPOSITION-SW-COMPONENT-TYPE" then R else [])
    (h3 : [DocCall.behavior k!"SwcImplementation" e.1 (childText k!"BEHAVIOR-REF" e.2)].filterMap f = if T.contains k!"SWC-IMPLEMENTATION" then R else [])
    (h4 : [DocCall.behavior k!"BswImplementation" e.1 (childText k!"BEHAVIOR-REF" e.2)].filterMap f = if T.contains k!"BSW-IMPLEMENTATION" then R else [])
    (h5 : (mapCalls e.2).filterMap f = if T.contains k!"DATA-TYPE-MAPPING-SET" then R else [])
    (h6 : (T.all fun t => [k!"SYSTEM", k!"COMPOSITION-SW-COMPONENT-TYPE", k!"SWC-IMPLEMENTATION", k!"BSW-IMPLEMENTATION", k!"DATA-TYPE-MAPPING-SET"].contains t) = true) :
    (elementCalls e).filterMap f = if T.contains e.2.tag then R else [] := by
  rw [elementCalls]
  by_cases t1 : e.2.tag = k!"SYSTEM"
  · rw [if_pos t1, h1 t1, t1]
  rw [if_neg t1]
  by_cases t2 : e.2.tag = k!"COMPOSITION-SW-COMPONENT-TYPE"
  · rw [if_pos t2, h2, t2]
  rw [if_neg t2]
  by_cases t3 : e.2.tag = k!"SWC-IMPLEMENTATION"
  · rw [if_pos t3, h3, t3]
  rw [if_neg t3]
  by_cases t4 : e.2.tag = k!"BSW-IMPLEMENTATION"
  · rw [if_pos t4, h4, t4]
  rw [if_neg t4]
  by_cases t5 : e.2.tag = k!"DATA-TYPE-MAPPING-SET"
  · rw [if_pos t5, h5, t5]
  rw [if_neg t5]
  have : T.contains e.2.tag = false := by
    rw [List.contains_eq_mem, decide_eq_false_iff_not]
    intro hm
    have := List.all_eq_true.1 h6 _ hm
    simp [t1, t2, t3, t4, t5] at this
  rw [this]; rfl

theorem pick_maps {β : Type} {f : DocCall → Option β} (h : ∀ a i, f (.map a i) = none) (x : Xml) : (mapCalls x).filterMap f = [] := by
  rw [List.filterMap_eq_nil_iff]
  intro c hc
  obtain ⟨y, _, rfl⟩ := List.mem_map.1 hc
  exact h _ _

theorem pick_root_calls {β : Type} {f : DocCall → Option β} (h : ∀ ns, f (.root ns) = none) (ns : List Str) (x : Xml) : (rootCalls ns x).filterMap f = [] := by
  rw [List.filterMap_eq_nil_iff]
  intro c hc
  obtain ⟨y, _, rfl⟩ := List.mem_map.1 hc
  exact h _

theorem systems_files {sc : RKind → Xml → Bool} (xs : List Xml) : (filesCalls sc xs).filterMap pickSystem = (tagged [k!"SYSTEM"] xs).map Prod.fst := by
  rw [pick_files (g := fun e => [e.1]) (T := [k!"SYSTEM"]) xs (fun _ _ _ => rfl) (fun _ _ _ => rfl)]
  · rw [← List.flatMap_pure_eq_map]; rfl
  · intro e
    refine pick_element e ?_ ?_ ?_ ?_ ?_ ?_
    · intro _
      rw [List.filterMap_append, pick_root_calls fun _ => rfl]; rfl
    · rfl
    · rfl
    · rfl
    · exact pick_maps (fun _ _ => rfl) _
    · decide

theorem compositions_files {sc : RKind → Xml → Bool} (xs : List Xml) :
    (filesCalls sc xs).filterMap pickComposition = (tagged [k!"COMPOSITION-SW-COMPONENT-TYPE"] xs).map Prod.fst := by
  rw [pick_files (g := fun e => [e.1]) (T := [k!"COMPOSITION-SW-COMPONENT-TYPE"]) xs (fun _ _ _ => rfl) (fun _ _ _ => rfl)]
  · rw [← List.flatMap_pure_eq_map]; rfl
  · intro e
    refine pick_element e ?_ ?_ ?_ ?_ ?_ ?_
    · intro _
      rw [List.filterMap_append, pick_root_calls fun _ => rfl]; rfl
    · rfl
    · rfl
    · rfl
    · exact pick_maps (fun _ _ => rfl) _
    · decide

theorem roots_files {sc : RKind → Xml → Bool} (xs : List Xml) : (filesCalls sc xs).filterMap pickRoot = rootPaths xs := by
  rw [pick_files (g := fun e => (((e.2.kids.filter fun g => g.tag == k!"ROOT-SOFTWARE-COMPOSITIONS").flatMap fun g =>
      g.kids.filter fun y => y.tag == k!"ROOT-SW-COMPOSITION-PROTOTYPE").head?.map fun y => e.1 ++ [nameIn y]).toList) (T := [k!"SYSTEM"]) xs (fun _ _ _ => rfl) (fun _ _ _ => rfl)]
  · rw [rootPaths]
    generalize tagged [k!"SYSTEM"] xs = l
    induction l with
    | nil => rfl
    | cons e l ih =>
      rw [List.flatMap_cons, List.filterMap_cons, ih]
      cases ((e.2.kids.filter fun g => g.tag == k!"ROOT-SOFTWARE-COMPOSITIONS").flatMap fun g => g.kids.filter fun y => y.tag == k!"ROOT-SW-COMPOSITION-PROTOTYPE").head? <;> rfl
  · intro e
    refine pick_element e ?_ ?_ ?_ ?_ ?_ ?_
    · intro _
      rw [List.filterMap_append, rootCalls]
      cases ((e.2.kids.filter fun g => g.tag == k!"ROOT-SOFTWARE-COMPOSITIONS").flatMap fun g => g.kids.filter fun y => y.tag == k!"ROOT-SW-COMPOSITION-PROTOTYPE").head? <;> rfl
    · rfl
    · rfl
    · rfl
    · exact pick_maps (fun _ _ => rfl) _
    · decide

def pickMap : DocCall → Option (String × String)
  | .map (some a) (some i) => some (String.ofList a, String.ofList i)
  | _ => none

theorem maps_files {sc : RKind → Xml → Bool} (xs : List Xml) : (filesCalls sc xs).filterMap pickMap = typeMaps xs := by
  rw [pick_files (g := fun e => (mapCalls e.2).filterMap pickMap) (T := [k!"DATA-TYPE-MAPPING-SET"]) xs (fun _ _ _ => rfl) (fun _ _ _ => rfl)]
  · rw [typeMaps]
    refine flatMap_same fun e _ => ?_
    rw [mapCalls, List.filterMap_map]
    congr 1
    funext y
    simp only [Function.comp]
    cases childText k!"APPLICATION-DATA-TYPE-REF" y <;> cases childText k!"IMPLEMENTATION-DATA-TYPE-REF" y <;> rfl
  · intro e
    refine pick_element e ?_ ?_ ?_ ?_ ?_ ?_
    · intro _
      rw [List.filterMap_append, pick_root_calls fun _ => rfl]; rfl
    · rfl
    · rfl
    · rfl
    · rfl
    · decide

def pickBehavior : DocCall → Option (String × String)
  | .behavior _ ns (some r) => some (callPath ns, String.ofList r)
  | _ => none

theorem behaviors_files {sc : RKind → Xml → Bool} (xs : List Xml) : (filesCalls sc xs).filterMap pickBehavior = behaviorRefs xs := by
  rw [pick_others (fun _ _ _ => rfl), files_calls, behaviorRefs, tagged]
  generalize xs.flatMap fileElements = l
  have skip : ∀ (cs : List DocCall), (∀ c ns r, DocCall.behavior c ns r ∉ cs) → ∀ known ds,
      (keepRefs known (cs ++ ds)).filterMap pickBehavior = (keepRefs known ds).filterMap pickBehavior := by
    intro cs h known ds
    induction cs with
    | nil => rfl
    | cons c cs ih =>
      have ih := ih fun c ns r hm => h c ns r (by simp [hm])
      cases c with
      | behavior c ns r => exact absurd (by simp) (h c ns r)
      | _ => simp only [List.cons_append, keepRefs, List.filterMap_cons, pickBehavior, ih]
  generalize ([] : List (List Str × Str)) = known
  induction l generalizing known with
  | nil => rfl
  | cons e l ih =>
    rw [List.flatMap_cons, List.filter_cons, elementCalls]
    by_cases t1 : e.2.tag = k!"SYSTEM"
    · rw [if_pos t1, skip _ ?_, ih, t1]
      · rfl
      · intro c ns r hm
        rcases List.mem_append.1 hm with hm | hm
        · obtain ⟨y, _, e⟩ := List.mem_map.1 hm; cases e
        · simp at hm
    rw [if_neg t1]
    by_cases t2 : e.2.tag = k!"COMPOSITION-SW-COMPONENT-TYPE"
    · rw [if_pos t2, skip _ (by simp), ih, t2]; rfl
    rw [if_neg t2]
    by_cases t3 : e.2.tag = k!"SWC-IMPLEMENTATION"
    · rw [if_pos t3]
      have hc : ([k!"SWC-IMPLEMENTATION", k!"BSW-IMPLEMENTATION"] : List Key).contains e.2.tag = true := by rw [t3]; rfl
      have hd : decide (e.2.tag = k!"BSW-IMPLEMENTATION") = false := by rw [t3]; rfl
      rw [hc, if_pos rfl, refsOf, hd]
      cases childText k!"BEHAVIOR-REF" e.2 with
      | none => exact ih known
      | some r =>
        simp only [List.singleton_append, keepRefs, List.filterMap_cons, pickBehavior, Bool.false_eq_true, if_false]
        rw [if_neg (by decide), ih]; rfl
    rw [if_neg t3]
    by_cases t4 : e.2.tag = k!"BSW-IMPLEMENTATION"
    · rw [if_pos t4]
      have hc : ([k!"SWC-IMPLEMENTATION", k!"BSW-IMPLEMENTATION"] : List Key).contains e.2.tag = true := by rw [t4]; rfl
      have hd : decide (e.2.tag = k!"BSW-IMPLEMENTATION") = true := by rw [t4]; rfl
      rw [hc, if_pos rfl, refsOf, hd]
      cases childText k!"BEHAVIOR-REF" e.2 with
      | none =>
        simp only [List.singleton_append, keepRefs, List.filterMap_cons, if_true]
        cases known.lookup e.1 with
        | none => exact ih known
        | some r => simp only [pickBehavior, ih]; rfl
      | some r =>
        simp only [List.singleton_append, keepRefs, List.filterMap_cons, pickBehavior, if_true]
        rw [ih]; rfl
    rw [if_neg t4]
    have hc : ([k!"SWC-IMPLEMENTATION", k!"BSW-IMPLEMENTATION"] : List Key).contains e.2.tag = false := by simp [t3, t4]
    rw [hc, if_neg Bool.false_ne_true]
    by_cases t5 : e.2.tag = k!"DATA-TYPE-MAPPING-SET"
    · rw [if_pos t5, skip _ ?_, ih]
      intro c ns r hm
      obtain ⟨y, _, e⟩ := List.mem_map.1 hm; cases e
    · rw [if_neg t5]; exact ih known

/-! ## the theorems -/

theorem maps_ops (cs : List DocCall) (k : Nat) :
    maps ((cs.zipIdx k).map fun e => e.1.op e.2) = (cs.filterMap pickMap).map fun e => (some e.1, some e.2) := by
  induction cs generalizing k with
  | nil => rfl
  | cons c l ih =>
    have ih := ih (k + 1)
    rw [maps] at ih ⊢
    simp only [List.zipIdx_cons, List.map_cons, List.filterMap_cons]
    cases c with
    | behavior c ns r => cases r <;> exact ih
    | map a i =>
      cases a <;> cases i <;> simp only [DocCall.op, pickMap, Option.map_none, Option.map_some, List.map_cons] <;> first | exact ih | (congr 1)
    | _ => exact ih

theorem behaviors_ops (cs : List DocCall) (k : Nat) :
    behaviors ((cs.zipIdx k).map fun e => e.1.op e.2) = cs.filterMap pickBehavior := by
  induction cs generalizing k with
  | nil => rfl
  | cons c l ih =>
    have ih := ih (k + 1)
    rw [behaviors] at ih ⊢
    simp only [List.zipIdx_cons, List.map_cons, List.filterMap_cons]
    cases c with
    | behavior c ns r =>
      cases r with
      | none => exact ih
      | some r => simp only [DocCall.op, pickBehavior]; congr 1
    | _ => exact ih

theorem lastFor_some (l : List (String × String)) (a : String) :
    lastFor (l.map fun e => (some e.1, some e.2)) (some a) = (lastFor l a).map some := by
  simp only [lastFor, ← List.map_reverse, List.find?_map, Option.map_map]
  congr 1
  congr 1
  funext e
  simp

/-- **C61** The systems a document lists after loading: one for each short name of a `SYSTEM` in the packages of the files, in the order of the
names; it is the first one with this name. -/
theorem C61_systems (sc : RKind → Xml → Bool) (xs : List Xml) :
    ((registryOf (filesCalls sc xs)).getSystems.map (·.1)).Nodup ∧
    (registryOf (filesCalls sc xs)).getSystems.Pairwise (fun a b => a.1 ≤ b.1) ∧
    ∀ n p, (∃ i, (n, i) ∈ (registryOf (filesCalls sc xs)).getSystems ∧ objectPath (filesCalls sc xs) i = some p) ↔
      ((tagged [k!"SYSTEM"] xs).map Prod.fst).find? (fun p => String.ofList (lastName p) == n) = some p := by
  obtain ⟨h1, h2, h3⟩ := C17_systems_listing ((filesCalls sc xs).zipIdx.map fun e => e.1.op e.2)
  refine ⟨h2, h3, fun n p => ?_⟩
  have hf := first_pick (g := pickSystem) n (filesCalls sc xs) 0
  rw [systems_files, ← systems_ops] at hf
  simp only [registryOf, h1, calls_since]
  split at hf
  · rename_i he
    rw [he]
    constructor
    · rintro ⟨i, h, _⟩; rw [hf] at h; cases h
    · intro h; cases h
  · rename_i q he
    obtain ⟨i, h4, h5⟩ := hf
    rw [he, h4]
    have h5 := path_system h5
    constructor
    · rintro ⟨j, h, h6⟩
      simp only [Option.some.injEq, Nat.add_zero] at h
      subst h
      rw [h5] at h6; exact h6
    · intro h
      cases h
      exact ⟨i, rfl, h5⟩

/-- **C61** The composition known under a short name is the first `COMPOSITION-SW-COMPONENT-TYPE` in the packages of the files with this name. -/
theorem C61_compositions (sc : RKind → Xml → Bool) (xs : List Xml) (n : String) :
    match ((tagged [k!"COMPOSITION-SW-COMPONENT-TYPE"] xs).map Prod.fst).find? (fun p => String.ofList (lastName p) == n) with
    | none => (registryOf (filesCalls sc xs)).getComposition n = .error .keyError
    | some p => ∃ i, (registryOf (filesCalls sc xs)).getComposition n = .ok i ∧ objectPath (filesCalls sc xs) i = some p := by
  have h1 := (C17_first_wins ((filesCalls sc xs).zipIdx.map fun e => e.1.op e.2) n).2
  have hf := first_pick (g := pickComposition) n (filesCalls sc xs) 0
  rw [compositions_files, ← compositions_ops] at hf
  simp only [calls_since] at h1
  simp only [registryOf, h1]
  split at hf
  · rename_i he
    rw [he, hf]
  · rename_i q he
    obtain ⟨i, h4, h5⟩ := hf
    rw [he, h4]
    exact ⟨i, rfl, path_composition h5⟩

/-- **C61** The root composition of the document is the first one of the first `SYSTEM` that has one. -/
theorem C61_root (sc : RKind → Xml → Bool) (xs : List Xml) :
    match (rootPaths xs).head? with
    | none => (registryOf (filesCalls sc xs)).root = none
    | some p => ∃ i, (registryOf (filesCalls sc xs)).root = some (String.ofList (lastName p), i) ∧ objectPath (filesCalls sc xs) i = some p := by
  have h1 := (C17_root ((filesCalls sc xs).zipIdx.map fun e => e.1.op e.2) "" 0).1
  rw [calls_since, roots_ops] at h1
  simp only [registryOf, h1]
  rw [← roots_files (sc := sc)]
  generalize filesCalls sc xs = cs
  have go : ∀ k, match (cs.filterMap pickRoot).head? with
    | none => ((cs.zipIdx k).filterMap fun e => (pickRoot e.1).map fun ns => (callName ns, e.2)).head? = none
    | some p => ∃ i, ((cs.zipIdx k).filterMap fun e => (pickRoot e.1).map fun ns => (callName ns, e.2)).head? = some (String.ofList (lastName p), i + k) ∧ (cs[i]?).bind pickRoot = some p := by
    intro k
    induction cs generalizing k with
    | nil => rfl
    | cons c l ih =>
      have ih := ih (k + 1)
      simp only [List.zipIdx_cons, List.filterMap_cons]
      cases hc : pickRoot c with
      | none =>
        simp only [Option.map_none]
        split
        · rename_i he; rw [he] at ih; exact ih
        · rename_i p he
          rw [he] at ih
          obtain ⟨i, h1, h2⟩ := ih
          exact ⟨i + 1, by rw [h1]; congr 2; omega, by simpa using h2⟩
      | some ns => exact ⟨0, by simp [callName, lastName], by simpa using hc⟩
  have := go 0
  split
  · rename_i he; rw [he] at this; exact this
  · rename_i p he
    rw [he] at this
    obtain ⟨i, h1, h2⟩ := this
    exact ⟨i, h1, path_root h2⟩

/-- **C61** The behavior of an implementation is what the last reference for it in the files names, the implementation of a behavior the last
implementation that refers to it; `find` is the lookup of a path (C09). -/
theorem C61_behavior (sc : RKind → Xml → Bool) (xs : List Xml) (find : String → Except PyErr (Option Nat)) (x : String) :
    (registryOf (filesCalls sc xs)).getBehavior find x = (match lastFor (behaviorRefs xs) x with | some b => find b | none => .ok none) ∧
    (registryOf (filesCalls sc xs)).getImplementation find x =
      (match lastFor ((behaviorRefs xs).map fun e => (e.2, e.1)) x with | some i => find i | none => .ok none) := by
  have h := C48_behavior_map find ((filesCalls sc xs).zipIdx.map fun e => e.1.op e.2) x
  rw [calls_since, behaviors_ops, behaviors_files] at h
  exact h

/-- **C61** Data types are converted by the last `DATA-TYPE-MAP` in the files that mentions them. -/
theorem C61_types (sc : RKind → Xml → Bool) (xs : List Xml) (find : String → Except PyErr (Option Nat)) (t : String) :
    (registryOf (filesCalls sc xs)).convertToImplementationDataType find t =
      (match lastFor (typeMaps xs) t with | some i => find i | none => .error .indexError) ∧
    (registryOf (filesCalls sc xs)).convertToApplicationDataType find t =
      (match lastFor ((typeMaps xs).map fun e => (e.2, e.1)) t with | some a => find a | none => .error .indexError) := by
  have h1 := C15_to_implementation find ((filesCalls sc xs).zipIdx.map fun e => e.1.op e.2) t
  have h2 := C15_to_application find ((filesCalls sc xs).zipIdx.map fun e => e.1.op e.2) t
  rw [calls_since, maps_ops, maps_files] at h1 h2
  rw [lastFor_some] at h1
  have e : ((typeMaps xs).map fun e => (some e.1, some e.2)).map (fun e => (e.2, e.1)) = ((typeMaps xs).map fun e => (e.2, e.1)).map fun e => (some e.1, some e.2) := by
    simp [Function.comp_def]
  rw [e, lastFor_some] at h2
  refine ⟨?_, ?_⟩
  · rw [registryOf, h1]; cases lastFor (typeMaps xs) t <;> rfl
  · rw [registryOf, h2]; cases lastFor ((typeMaps xs).map fun e => (e.2, e.1)) t <;> rfl

/-! ### A case -/

/-- an element with a name -/
def regElem (t : Key) (n : String) (kids : List Xml) : Xml := .node t [] [] (.node k!"SHORT-NAME" [] n.toList [] :: kids)

/-- two systems with the same name, a composition, two implementations, a data type map -/
def regFile : Xml := .node k!"AUTOSAR" [] [] [.node k!"AR-PACKAGES" [] [] [regElem k!"AR-PACKAGE" "P" [
  .node k!"AR-PACKAGES" [] [] [regElem k!"AR-PACKAGE" "Q" [.node k!"ELEMENTS" [] [] [
    regElem k!"SYSTEM" "s" [.node k!"ROOT-SOFTWARE-COMPOSITIONS" [] [] [regElem k!"ROOT-SW-COMPOSITION-PROTOTYPE" "r" []]]]]],
  .node k!"ELEMENTS" [] [] [
    regElem k!"SYSTEM" "s" [], regElem k!"SYSTEM" "a" [],
    regElem k!"COMPOSITION-SW-COMPONENT-TYPE" "c" [],
    regElem k!"BSW-IMPLEMENTATION" "i" [.node k!"BEHAVIOR-REF" [(k!"DEST", "BSW-INTERNAL-BEHAVIOR".toList)] "/B/b".toList []],
    regElem k!"BSW-IMPLEMENTATION" "j" [.node k!"BEHAVIOR-REF" [(k!"DEST", "BSW-INTERNAL-BEHAVIOR".toList)] "/B/b".toList []],
    regElem k!"DATA-TYPE-MAPPING-SET" "m" [.node k!"DATA-TYPE-MAPS" [] [] [.node k!"DATA-TYPE-MAP" [] [] [
      .node k!"APPLICATION-DATA-TYPE-REF" [(k!"DEST", "APPLICATION-PRIMITIVE-DATA-TYPE".toList)] "/A/a".toList [],
      .node k!"IMPLEMENTATION-DATA-TYPE-REF" [(k!"DEST", "IMPLEMENTATION-DATA-TYPE".toList)] "/I/i".toList []]]]]]]]

/-- one of the implementations again -/
def regFile' : Xml := .node k!"AUTOSAR" [] [] [.node k!"AR-PACKAGES" [] [] [regElem k!"AR-PACKAGE" "P" [.node k!"ELEMENTS" [] [] [
  regElem k!"BSW-IMPLEMENTATION" "i" []]]]]

/-- the files load; what is in the registries -/
example : (loadAll Py.demo true (newDoc Py.demo) [regFile, regFile']).isOk = true ∧
    (((tagged [k!"SYSTEM"] [regFile, regFile']).map Prod.fst).map fun p => String.ofList (absolute p)) = ["/P/Q/s", "/P/s", "/P/a"] ∧
    ((registryOf (filesCalls (fun _ _ => false) [regFile, regFile'])).getSystems.map (·.1)) = ["a", "s"] ∧
    (rootPaths [regFile, regFile']).map (fun p => String.ofList (absolute p)) = ["/P/Q/s/r"] ∧
    behaviorRefs [regFile, regFile'] = [("/P/i", "/B/b"), ("/P/j", "/B/b"), ("/P/i", "/B/b")] ∧
    lastFor ((behaviorRefs [regFile, regFile']).map fun e => (e.2, e.1)) "/B/b" = some "/P/i" ∧
    typeMaps [regFile, regFile'] = [("/A/a", "/I/i")] := by decide +kernel

end Verif.Props
