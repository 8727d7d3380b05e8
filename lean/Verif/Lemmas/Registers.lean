import Verif.Spec.Registers
import Verif.Lemmas.UuidLower
/-!
# The calls that are not `addARObject`, in terms of the elements of the packages
-/
namespace Verif.Lemmas
open Verif Verif.Model Verif.Gen Verif.Spec

/-- calls other than `addARObject` -/
def isOther : DocCall → Bool
  | .object .. => false
  | _ => true

def others (cs : List DocCall) : List DocCall := cs.filter isOther

/-- methods that make such calls, or that call one -/
def loud : List Key := [k!"load", k!"readARPackage", pkgKey, k!"readARPackageElements_System", k!"readARPackageElements_CompositionSwComponentType",
  k!"readARPackageElements_SwcImplementation", k!"readARPackageElements_BswImplementation", k!"readARPackageElements_DataTypeMappingSet",
  k!"readRootSwCompositionPrototype_RootSwCompositionPrototype", k!"readDataTypeMaps_DataTypeMap"]

/-- classes with such calls -/
def loudClasses : List Key := [k!"System", k!"CompositionSwComponentType", k!"SwcImplementation", k!"BswImplementation", k!"DataTypeMap", k!"RootSwCompositionPrototype"]

def loudSlot (s : RSlot) : Bool := match s.item with
  | .objs alts => alts.any fun a => loud.contains a.2
  | _ => false

def quietBody (b : RBody) : Bool := !loudClasses.contains b.cls && b.slots.all fun s => !loudSlot s

theorem table_quiet : Gen.readTable.all (fun k b => loud.contains k || quietBody b) = true := by decide +kernel

theorem twice_quiet : twice.all (fun e => e.2.all fun s => !loudSlot s) = true := by decide +kernel

theorem find_pair {α : Type} {l : List (Key × α)} {k : Key} {v : α} (h : l.lookup k = some v) : (k, v) ∈ l := by
  induction l with
  | nil => cases h
  | cons e r ih =>
    obtain ⟨a, b⟩ := e
    by_cases hn : k = a
    · subst hn; simp at h; subst h; exact List.mem_cons_self ..
    · simp only [List.lookup_cons, beq_eq_false_iff_ne.mpr hn] at h; exact List.mem_cons_of_mem _ (ih h)

theorem quiet_body {k : Key} {b : RBody} (hk : loud.contains k = false) (hb : allReaders k = some b) : quietBody b = true := by
  rw [allReaders] at hb
  simp only [Option.map_eq_some_iff] at hb
  obtain ⟨b', hb, rfl⟩ := hb
  have hl : k ≠ k!"load" := by
    rintro rfl
    exact absurd hk (by decide)
  rw [readers, if_neg hl] at hb
  have h1 := (Bst.all_toList _ _).1 table_quiet _ (Bst.find?_mem hb)
  simp only [hk, Bool.false_or] at h1
  split
  · rename_i l hl
    simp only [quietBody, Bool.and_eq_true] at h1 ⊢
    refine ⟨h1.1, ?_⟩
    have := List.all_eq_true.1 twice_quiet _ (find_pair hl)
    exact this
  · exact h1

section
variable {sc : RKind → Xml → Bool}

theorem others_append {a b : List DocCall} : others (a ++ b) = others a ++ others b := List.filter_append ..

theorem others_flatMap {α : Type} {f : α → List DocCall} {l : List α} : others (l.flatMap f) = l.flatMap fun a => others (f a) := by
  induction l with
  | nil => rfl
  | cons a l ih => simp only [List.flatMap_cons, others_append, ih]

theorem others_note {c : Key} {ns : List Str} {y : Xml} : others (noteUuid c ns y) = [] := by
  rw [noteUuid]; split <;> rfl

theorem after_quiet {c : Key} {ns : List Str} {x : Xml} (h : loudClasses.contains c = false) : callsAfter c ns x = [] := by
  simp only [loudClasses, List.contains_eq_mem, List.mem_cons, decide_eq_false_iff_not, not_or, List.not_mem_nil, not_false_eq_true, and_true] at h
  simp only [callsAfter, h, if_false, or_self]

/-- the calls of a slot that calls no such method -/
theorem slot_quiet {n : Nat} {c : Key} {ns : List Str} {s : RSlot} (hs : loudSlot s = false)
    (ih : ∀ k ns x, loud.contains k = false → others (objCalls sc n k ns x) = []) (y : Xml) : others (slotCalls sc (objCalls sc n) c ns s y) = [] := by
  rw [slotCalls]
  split
  · split
    · exact others_note
    · rfl
  · rename_i alts he
    split
    · rfl
    · rename_i k hk
      refine ih k ns y ?_
      rw [loudSlot, he] at hs
      obtain ⟨t, ha⟩ := altOf_mem' hk
      simp only [List.any_eq_false] at hs
      simpa using hs _ ha
  · split
    · exact others_note
    · rfl

theorem flatMap_filter_nil {α β : Type} {p : α → Bool} {f : α → List β} {l : List α} (h : ∀ a ∈ l, p a = false → f a = []) :
    l.flatMap f = (l.filter p).flatMap f := by
  induction l with
  | nil => rfl
  | cons a l ih =>
    rw [List.flatMap_cons, List.filter_cons, ih fun a ha => h a (by simp [ha])]
    split
    · rw [List.flatMap_cons]
    · rename_i hp
      rw [h a (by simp) (by simpa using hp)]; rfl

/-- the calls of a method: those of the slots that matter -/
theorem body_others {n : Nat} {b : RBody} {ns : List Str} {x : Xml} (ih : ∀ k ns x, loud.contains k = false → others (objCalls sc n k ns x) = []) :
    others (bodyCalls sc (objCalls sc n) b ns x) = ((b.slots.filter loudSlot).flatMap fun s => (select s.path x).flatMap fun y =>
      others (slotCalls sc (objCalls sc n) b.cls (ownNames b ns x) s y)) ++ others (callsAfter b.cls (ownNames b ns x) x) := by
  rw [bodyCalls, others_append, others_flatMap]
  congr 1
  simp only [others_flatMap]
  refine flatMap_filter_nil fun s _ hs => ?_
  rw [List.flatMap_eq_nil_iff]
  exact fun y _ => slot_quiet hs ih y

theorem quiet_calls {n : Nat} {k : Key} {ns : List Str} {x : Xml} (hk : loud.contains k = false) : others (objCalls sc n k ns x) = [] := by
  induction n generalizing k ns x with
  | zero => rfl
  | succ n ih =>
    rw [objCalls]
    split
    · rfl
    · rename_i b hb
      have hq := quiet_body hk hb
      simp only [quietBody, Bool.and_eq_true, Bool.not_eq_true'] at hq
      rw [body_others fun k ns x h => ih h, after_quiet hq.1]
      have : b.slots.filter loudSlot = [] := by
        rw [List.filter_eq_nil_iff]
        intro s hs
        have := List.all_eq_true.1 hq.2 s hs
        simpa using this
      rw [this]; rfl

/-! ## the methods that matter -/

/-- reading the data type maps -/
def mapSlot : RSlot := { field := k!"dataTypeMaps", path := (.all k!"DATA-TYPE-MAPS" (.all k!"DATA-TYPE-MAP" .nil)), item := (.objs [(k!"DATA-TYPE-MAP", k!"readDataTypeMaps_DataTypeMap")]) }

/-- reading the root composition -/
def rootSlot : RSlot := { field := k!"rootSoftwareComposition", path := (.first [k!"ROOT-SOFTWARE-COMPOSITIONS", k!"ROOT-SW-COMPOSITION-PROTOTYPE"] .nil), item := (.objs [(k!"ROOT-SW-COMPOSITION-PROTOTYPE", k!"readRootSwCompositionPrototype_RootSwCompositionPrototype")]), elems := true, named := true, fresh := true }

/-- class, slots that matter, has a name -/
def bodyIs (k c : Key) (l : List RSlot) (named : Bool) : Bool :=
  (allReaders k).any fun b => b.cls == c && (b.slots.filter loudSlot == l) && (b.slots.any isName == named)

theorem load_is : bodyIs k!"load" k!"AUTOSAR" [subPkgSlot] false = true := by decide +kernel
theorem pkg_is : bodyIs pkgKey k!"ARPackage" [subPkgSlot, elSlot] true = true := by decide +kernel
theorem system_is : bodyIs k!"readARPackageElements_System" k!"System" [rootSlot] true = true := by decide +kernel
theorem composition_is : bodyIs k!"readARPackageElements_CompositionSwComponentType" k!"CompositionSwComponentType" [] true = true := by decide +kernel
theorem swc_is : bodyIs k!"readARPackageElements_SwcImplementation" k!"SwcImplementation" [] true = true := by decide +kernel
theorem bsw_is : bodyIs k!"readARPackageElements_BswImplementation" k!"BswImplementation" [] true = true := by decide +kernel
theorem set_is : bodyIs k!"readARPackageElements_DataTypeMappingSet" k!"DataTypeMappingSet" [mapSlot] true = true := by decide +kernel
theorem map_is : bodyIs k!"readDataTypeMaps_DataTypeMap" k!"DataTypeMap" [] false = true := by decide +kernel
theorem root_is : bodyIs k!"readRootSwCompositionPrototype_RootSwCompositionPrototype" k!"RootSwCompositionPrototype" [] true = true := by decide +kernel

theorem obj_others {n : Nat} {k c : Key} {l : List RSlot} {named : Bool} {ns : List Str} {x : Xml} (h : bodyIs k c l named = true) :
    others (objCalls sc (n + 1) k ns x) = (l.flatMap fun s => (select s.path x).flatMap fun y =>
      others (slotCalls sc (objCalls sc n) c (if named then ns ++ [nameIn x] else ns) s y)) ++ others (callsAfter c (if named then ns ++ [nameIn x] else ns) x) := by
  rw [bodyIs] at h
  rw [objCalls]
  cases hb : allReaders k with
  | none => rw [hb] at h; cases h
  | some b =>
    rw [hb] at h
    simp only [Option.any_some, Bool.and_eq_true, beq_iff_eq] at h
    obtain ⟨⟨h1, h2⟩, h3⟩ := h
    have hn : ownNames b ns x = if named then ns ++ [nameIn x] else ns := by rw [ownNames, h3, elemName_nameIn]
    simp only
    rw [body_others fun k ns x h => quiet_calls h, h1, h2, hn]

theorem one_slot {n : Nat} {c k t : Key} {ns : List Str} {s : RSlot} {y : Xml} (hs : s.item = .objs [(t, k)]) (ht : y.tag = t) :
    slotCalls sc (objCalls sc n) c ns s y = objCalls sc n k ns y := by
  simp only [slotCalls, hs, altOf, ht, if_true]

theorem select_pair (a b : Key) (x : Xml) (ha : a ≠ 0) (hb : b ≠ 0) : select (.all a (.all b .nil)) x =
    (x.kids.filter fun g => g.tag == a).flatMap fun g => g.kids.filter fun y => y.tag == b := by
  have e : ∀ t : Key, t ≠ 0 → tagIs t = fun g : Xml => g.tag == t := by
    intro t ht
    funext g
    simp [tagIs, ht]
  simp only [select, e a ha, e b hb, List.flatMap_singleton']

theorem sub_select (x : Xml) : select subPkgSlot.path x = packagesIn x := select_pair _ _ x (by decide) (by decide)

theorem el_select (x : Xml) : select elSlot.path x = elementsIn x := by
  have e : tagIs k!"ELEMENTS" = fun g : Xml => g.tag == k!"ELEMENTS" := by
    funext g; simp [tagIs]
  have e0 : ∀ g : Xml, g.kids.filter (tagIs 0) = g.kids := fun g => List.filter_eq_self.2 fun _ _ => rfl
  simp only [elSlot, select, e, elementsIn, e0, List.flatMap_singleton']

theorem refText_child (t : Key) (ht : t ≠ 0) (x : Xml) : refText t x = childText t x := by
  have e : tagIs t = fun g : Xml => g.tag == t := by
    funext g; simp [tagIs, ht]
  rw [refText, childText, e]

/-! ### the calls for an element -/

/-- the calls for the data type maps of an element -/
def mapCalls (x : Xml) : List DocCall :=
  ((x.kids.filter fun g => g.tag == k!"DATA-TYPE-MAPS").flatMap fun g => g.kids.filter fun y => y.tag == k!"DATA-TYPE-MAP").map fun y =>
    .map (childText k!"APPLICATION-DATA-TYPE-REF" y) (childText k!"IMPLEMENTATION-DATA-TYPE-REF" y)

/-- the call for the root composition -/
def rootCalls (ns : List Str) (x : Xml) : List DocCall :=
  ((x.kids.filter fun g => g.tag == k!"ROOT-SOFTWARE-COMPOSITIONS").flatMap fun g => g.kids.filter fun y => y.tag == k!"ROOT-SW-COMPOSITION-PROTOTYPE").head?.toList.map fun y =>
    .root (ns ++ [nameIn y])

/-- the calls for an element of a package -/
def elementCalls (e : List Str × Xml) : List DocCall :=
  if e.2.tag = k!"SYSTEM" then rootCalls e.1 e.2 ++ [.system e.1]
  else if e.2.tag = k!"COMPOSITION-SW-COMPONENT-TYPE" then [.composition e.1]
  else if e.2.tag = k!"SWC-IMPLEMENTATION" then [.behavior k!"SwcImplementation" e.1 (childText k!"BEHAVIOR-REF" e.2)]
  else if e.2.tag = k!"BSW-IMPLEMENTATION" then [.behavior k!"BswImplementation" e.1 (childText k!"BEHAVIOR-REF" e.2)]
  else if e.2.tag = k!"DATA-TYPE-MAPPING-SET" then mapCalls e.2
  else []

theorem depth_pair {a b : Key} {x y : Xml} (h : y ∈ (x.kids.filter fun g => g.tag == a).flatMap fun g => g.kids.filter fun y => y.tag == b) :
    y.tag = b ∧ y.depth < x.depth := by
  simp only [List.mem_flatMap, List.mem_filter, beq_iff_eq] at h
  obtain ⟨g, ⟨h1, _⟩, h2, h3⟩ := h
  exact ⟨h3, Nat.lt_trans (depth_kid h2) (depth_kid h1)⟩

theorem flatMap_same {α β : Type} {f g : α → List β} {l : List α} (h : ∀ a ∈ l, f a = g a) : l.flatMap f = l.flatMap g := by
  induction l with
  | nil => rfl
  | cons a l ih => rw [List.flatMap_cons, List.flatMap_cons, h a (by simp), ih fun b hb => h b (by simp [hb])]

theorem set_calls {n : Nat} {ns : List Str} {x : Xml} (hn : x.depth ≤ n) :
    others (objCalls sc n k!"readARPackageElements_DataTypeMappingSet" ns x) = mapCalls x := by
  cases n with
  | zero => have := depth_pos x; omega
  | succ n =>
    rw [obj_others set_is, mapCalls, ← List.flatMap_pure_eq_map]
    rw [after_quiet (by decide)]
    simp only [List.flatMap_cons, List.flatMap_nil, List.append_nil, others, List.filter_nil]
    have e : select mapSlot.path x = _ := select_pair k!"DATA-TYPE-MAPS" k!"DATA-TYPE-MAP" x (by decide) (by decide)
    rw [e]
    refine flatMap_same fun y hy => ?_
    obtain ⟨h1, h2⟩ := depth_pair hy
    rw [one_slot (s := mapSlot) rfl h1]
    cases n with
    | zero => have := depth_pos y; omega
    | succ n =>
      have := obj_others (sc := sc) (n := n) (ns := ns ++ [nameIn x]) (x := y) map_is
      rw [others] at this
      simp only [if_true]
      rw [this]
      have e : callsAfter k!"DataTypeMap" (ns ++ [nameIn x]) y = [.map (refText k!"APPLICATION-DATA-TYPE-REF" y) (refText k!"IMPLEMENTATION-DATA-TYPE-REF" y)] := rfl
      simp only [Bool.false_eq_true, if_false, List.flatMap_nil, List.nil_append, e, refText_child _ (show k!"APPLICATION-DATA-TYPE-REF" ≠ 0 by decide), refText_child _ (show k!"IMPLEMENTATION-DATA-TYPE-REF" ≠ 0 by decide)]
      rfl

theorem root_select (x : Xml) : select rootSlot.path x =
    ((x.kids.filter fun g => g.tag == k!"ROOT-SOFTWARE-COMPOSITIONS").flatMap fun g => g.kids.filter fun y => y.tag == k!"ROOT-SW-COMPOSITION-PROTOTYPE").head?.toList := by
  have e1 : tagIs k!"ROOT-SOFTWARE-COMPOSITIONS" = fun g : Xml => g.tag == k!"ROOT-SOFTWARE-COMPOSITIONS" := by
    funext g; simp [tagIs]
  have e2 : tagIs k!"ROOT-SW-COMPOSITION-PROTOTYPE" = fun g : Xml => g.tag == k!"ROOT-SW-COMPOSITION-PROTOTYPE" := by
    funext g; simp [tagIs]
  simp only [rootSlot, select, walk, e1, e2, List.flatMap_singleton']
  split
  · rename_i h; rw [h]; rfl
  · rename_i h; rw [h]; rfl

theorem system_calls {n : Nat} {ns : List Str} {x : Xml} (hn : x.depth ≤ n) :
    others (objCalls sc n k!"readARPackageElements_System" ns x) = rootCalls (ns ++ [nameIn x]) x ++ [.system (ns ++ [nameIn x])] := by
  cases n with
  | zero => have := depth_pos x; omega
  | succ n =>
    rw [obj_others system_is, rootCalls, ← List.flatMap_pure_eq_map]
    simp only [List.flatMap_cons, List.flatMap_nil, List.append_nil, if_true, root_select]
    congr 1
    refine flatMap_same fun y hy => ?_
    have hy : y ∈ (x.kids.filter fun g => g.tag == k!"ROOT-SOFTWARE-COMPOSITIONS").flatMap fun g => g.kids.filter fun y => y.tag == k!"ROOT-SW-COMPOSITION-PROTOTYPE" := by
      rw [Option.mem_toList] at hy
      exact List.mem_of_head? hy
    obtain ⟨h1, h2⟩ := depth_pair hy
    rw [one_slot (s := rootSlot) rfl h1]
    cases n with
    | zero => have := depth_pos y; omega
    | succ n =>
      rw [obj_others (sc := sc) (n := n) (ns := ns ++ [nameIn x]) (x := y) root_is]
      rfl

theorem composition_calls {n : Nat} {ns : List Str} {x : Xml} (hn : x.depth ≤ n) :
    others (objCalls sc n k!"readARPackageElements_CompositionSwComponentType" ns x) = [.composition (ns ++ [nameIn x])] := by
  cases n with
  | zero => have := depth_pos x; omega
  | succ n => rw [obj_others composition_is]; rfl

theorem impl_after {c : Key} {ns : List Str} {x : Xml} (h : c = k!"SwcImplementation" ∨ c = k!"BswImplementation") :
    others (callsAfter c ns x) = [.behavior c ns (childText k!"BEHAVIOR-REF" x)] := by
  have e : callsAfter c ns x = [.behavior c ns (refText k!"BEHAVIOR-REF" x)] := by
    rcases h with rfl | rfl <;> rfl
  rw [e, refText_child _ (show k!"BEHAVIOR-REF" ≠ 0 by decide)]
  rfl

theorem swc_calls {n : Nat} {ns : List Str} {x : Xml} (hn : x.depth ≤ n) :
    others (objCalls sc n k!"readARPackageElements_SwcImplementation" ns x) = [.behavior k!"SwcImplementation" (ns ++ [nameIn x]) (childText k!"BEHAVIOR-REF" x)] := by
  cases n with
  | zero => have := depth_pos x; omega
  | succ n => rw [obj_others swc_is, impl_after (.inl rfl)]; rfl

theorem bsw_calls {n : Nat} {ns : List Str} {x : Xml} (hn : x.depth ≤ n) :
    others (objCalls sc n k!"readARPackageElements_BswImplementation" ns x) = [.behavior k!"BswImplementation" (ns ++ [nameIn x]) (childText k!"BEHAVIOR-REF" x)] := by
  cases n with
  | zero => have := depth_pos x; omega
  | succ n => rw [obj_others bsw_is, impl_after (.inr rfl)]; rfl

/-- the elements that matter -/
def loudAlts : List (Key × Key) := [(k!"SYSTEM", k!"readARPackageElements_System"),
  (k!"COMPOSITION-SW-COMPONENT-TYPE", k!"readARPackageElements_CompositionSwComponentType"),
  (k!"SWC-IMPLEMENTATION", k!"readARPackageElements_SwcImplementation"), (k!"BSW-IMPLEMENTATION", k!"readARPackageElements_BswImplementation"),
  (k!"DATA-TYPE-MAPPING-SET", k!"readARPackageElements_DataTypeMappingSet")]

theorem loud_alts : (elementAlts.all fun a => a.1 != 0 && (!loud.contains a.2 || (loudAlts.map Prod.fst).contains a.1)) = true := by decide +kernel

theorem alts_loud : (loudAlts.all fun a => match altOf elementAlts a.1 with | some k => k == a.2 | none => false) = true := by decide +kernel

theorem alt_loud {t k : Key} (h : (t, k) ∈ loudAlts) : altOf elementAlts t = some k := by
  have := List.all_eq_true.1 alts_loud _ h
  simp only at this
  split at this
  · rename_i k' hk
    rw [hk, beq_iff_eq.1 this]
  · cases this

theorem element_calls {n : Nat} {ns : List Str} {c : Key} {e : Xml} (hn : e.depth ≤ n) :
    others (slotCalls sc (objCalls sc n) c ns elSlot e) = elementCalls (ns ++ [nameIn e], e) := by
  have go : ∀ t k, (t, k) ∈ loudAlts → e.tag = t → slotCalls sc (objCalls sc n) c ns elSlot e = objCalls sc n k ns e := by
    intro t k h1 h2
    have := alt_loud h1
    rw [← h2] at this
    simp only [slotCalls, elSlot, this]
  rw [elementCalls]
  by_cases h1 : e.tag = k!"SYSTEM"
  · rw [if_pos h1, go _ k!"readARPackageElements_System" (by decide) h1, system_calls hn]
  rw [if_neg h1]
  by_cases h2 : e.tag = k!"COMPOSITION-SW-COMPONENT-TYPE"
  · rw [if_pos h2, go _ k!"readARPackageElements_CompositionSwComponentType" (by decide) h2, composition_calls hn]
  rw [if_neg h2]
  by_cases h3 : e.tag = k!"SWC-IMPLEMENTATION"
  · rw [if_pos h3, go _ k!"readARPackageElements_SwcImplementation" (by decide) h3, swc_calls hn]
  rw [if_neg h3]
  by_cases h4 : e.tag = k!"BSW-IMPLEMENTATION"
  · rw [if_pos h4, go _ k!"readARPackageElements_BswImplementation" (by decide) h4, bsw_calls hn]
  rw [if_neg h4]
  by_cases h5 : e.tag = k!"DATA-TYPE-MAPPING-SET"
  · rw [if_pos h5, go _ k!"readARPackageElements_DataTypeMappingSet" (by decide) h5, set_calls hn]
  rw [if_neg h5]
  simp only [slotCalls, elSlot]
  split
  · rfl
  · rename_i k hk
    have h0 : ∀ a ∈ elementAlts, a.1 ≠ 0 := by
      intro a ha
      have := List.all_eq_true.1 loud_alts a ha
      simp only [Bool.and_eq_true, bne_iff_ne] at this
      exact this.1
    have := List.all_eq_true.1 loud_alts _ (altOf_pair h0 hk)
    simp only [Bool.and_eq_true, Bool.or_eq_true, Bool.not_eq_true'] at this
    refine quiet_calls (this.2.resolve_right ?_)
    simp [loudAlts, h1, h2, h3, h4, h5]

theorem readOrder_fuel {n m : Nat} {ns : List Str} {x : Xml} (h : x.depth ≤ n) (hm : x.depth ≤ m) : readOrder n ns x = readOrder m ns x := by
  induction n generalizing m ns x with
  | zero => have := depth_pos x; omega
  | succ n ih =>
    cases m with
    | zero => have := depth_pos x; omega
    | succ m =>
      rw [readOrder, readOrder]
      congr 1
      refine flatMap_same fun y hy => ?_
      have := (depth_pair hy).2
      exact ih (by omega) (by omega)

theorem in_elements {x e : Xml} (h : e ∈ elementsIn x) : e.depth < x.depth := by
  simp only [elementsIn, List.mem_flatMap, List.mem_filter] at h
  obtain ⟨g, ⟨h1, _⟩, h2⟩ := h
  exact Nat.lt_trans (depth_kid h2) (depth_kid h1)

theorem flatMap_congr_map {α β γ : Type} {f : α → β} {g : β → List γ} {l : List α} : (l.map f).flatMap g = l.flatMap fun a => g (f a) := by
  induction l with
  | nil => rfl
  | cons a l ih => simp only [List.map_cons, List.flatMap_cons, ih]

theorem package_calls {n : Nat} {ns : List Str} {x : Xml} (hn : x.depth ≤ n) :
    others (objCalls sc n pkgKey ns x) = (readOrder n (ns ++ [nameIn x]) x).flatMap elementCalls := by
  induction n generalizing ns x with
  | zero => have := depth_pos x; omega
  | succ n ih =>
    rw [obj_others pkg_is, readOrder, List.flatMap_append, flatMap_congr_map, List.flatMap_assoc]
    rw [after_quiet (by decide)]
    simp only [List.flatMap_cons, List.flatMap_nil, List.append_nil, if_true, sub_select, el_select]
    have e0 : others [] = [] := rfl
    rw [e0, List.append_nil]
    congr 1
    · refine flatMap_same fun y hy => ?_
      obtain ⟨h1, h2⟩ := depth_pair hy
      rw [one_slot (s := subPkgSlot) rfl h1]
      exact ih (by omega)
    · refine flatMap_same fun e he => ?_
      have := in_elements he
      exact element_calls (by omega)

theorem file_calls (x : Xml) : others (fileCalls sc x) = (fileElements x).flatMap elementCalls := by
  rw [fileCalls, fileElements]
  cases hd : x.depth with
  | zero => have := depth_pos x; omega
  | succ n =>
    rw [obj_others load_is, List.flatMap_assoc]
    rw [after_quiet (by decide)]
    have e0 : others [] = [] := rfl
    simp only [List.flatMap_cons, List.flatMap_nil, List.append_nil, sub_select, e0, Bool.false_eq_true, if_false]
    refine flatMap_same fun y hy => ?_
    obtain ⟨h1, h2⟩ := depth_pair hy
    rw [one_slot (s := subPkgSlot) rfl h1, package_calls (by omega), readOrder_fuel (m := n + 1) (by omega) (by omega)]
    rfl

/-- the calls other than `addARObject` for some files -/
theorem files_calls (xs : List Xml) : others (filesCalls sc xs) = keepRefs [] ((xs.flatMap fileElements).flatMap elementCalls) := by
  have keep : ∀ known cs, others (keepRefs known cs) = keepRefs known (others cs) := by
    intro known cs
    induction cs generalizing known with
    | nil => rfl
    | cons c l ih =>
      cases c with
      | object => simp only [keepRefs, others, isOther, List.filter_cons, Bool.false_eq_true, if_false]; exact ih known
      | behavior c ns r => cases r <;> (simp only [keepRefs, others, isOther, List.filter_cons, if_true]; congr 1; exact ih _)
      | _ => simp only [keepRefs, others, isOther, List.filter_cons, if_true]; congr 1; exact ih known
  rw [filesCalls, keep, others_flatMap, List.flatMap_assoc]
  congr 1
  exact flatMap_same fun x _ => file_calls x

end

end Verif.Lemmas
