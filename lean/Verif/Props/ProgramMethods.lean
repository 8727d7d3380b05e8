import Verif.Lemmas.Program
import Verif.Model.Accessors
import Verif.Model.Create
import Verif.Gen.CreateTable
/-!
# C85: the methods that a program calls exist
-/
namespace Verif.Props
open Verif Verif.Model Verif.Spec Verif.Lemmas

/-- does a name have the form `a.b` -/
def isPart : Nat → Key → Bool
  | 0, _ => false
  | n + 1, k => k % 256 == 46 || isPart n (k / 256)

/-- attributes without a plain set or add method: public attributes that are assigned (`ArObject.py:27-28`, `schema_location`), attributes
whose method does more than set or add (`Identifiable.setCategory` converts a text), or that have no method at all -/
def otherwise : List (Key × Key) :=
  [(k!"AUTOSAR", k!"schema_location"), (k!"SwValues", k!"vt"), (k!"DataConstrRule", k!"constrLevel"), (k!"DataConstrRule", k!"internalConstrs"),
   (k!"DataConstrRule", k!"physConstrs"), (k!"PPortPrototype", k!"providedComSpecs"), (k!"RPortPrototype", k!"requiredComSpecs"),
   (k!"FlexrayFifoConfiguration", k!"fifoRange"), (k!"FlexrayCommunicationController", k!"flexrayFifos"),
   (k!"CompositeNetworkRepresentation", k!"networkRepresentation"), (k!"InternalTriggeringPoint", k!"sw_impl_policy"),
   (k!"EndToEndTransformationISignalProps", k!"dataIds"), (k!"EndToEndProtectionVariablePrototype", k!"senderIRef")]

def otherwiseB (c f : Key) : Bool := [k!"timestamp", k!"uuid", k!"category"].contains f || otherwise.contains (c, f) || isPart 100 f

/-- a plain set or add method for an attribute -/
def methodB (s : RSlot) : Acc → Bool
  | .set f _ => f == s.field && !s.isList
  | .add f _ _ => f == s.field && s.isList
  | _ => false

/-- the check of `C85_methods` for one class -/
def methodsB (b : RBody) : Bool := b.slots.all fun s => s.field == 0 || s.named || s.item == .name || otherwiseB b.cls s.field ||
    (methodsOf b.cls).any fun e => methodB s e.2 && resolve b.cls e.1 == some e.2

theorem methodsB_all : (Gen.readTable.all fun _ b => methodsB b) = true := by decide +kernel

theorem methodsB_load : methodsB loadBody = true := by decide +kernel

/-- **C85** The calls exist: for every attribute that the reader fills, that is not created by name and not in the list above, the class of the object has a
method that does nothing but add a value to this list, or set this attribute. -/
theorem C85_methods (k : Key) (b : RBody) (hb : readers k = some b) (s : RSlot) (hs : s ∈ b.slots) (hf : s.field ≠ 0) (hn : s.named = false)
    (hi : s.item ≠ .name) (ho : otherwiseB b.cls s.field = false) :
    ∃ m, if s.isList then ∃ ign dedup, resolve b.cls m = some (.add s.field ign dedup) else ∃ ign, resolve b.cls m = some (.set s.field ign) := by
  have h : methodsB b = true := by
    unfold readers at hb
    split at hb
    · cases hb; exact methodsB_load
    · exact (Bst.all_toList _ _).1 methodsB_all _ (Bst.find?_mem hb)
  have h := List.all_eq_true.1 h s hs
  simp only [Bool.or_eq_true, beq_iff_eq, hf, hn, hi, ho, Bool.false_eq_true, false_or] at h
  obtain ⟨⟨m, acc⟩, _, h⟩ := List.any_eq_true.1 h
  rw [Bool.and_eq_true, beq_iff_eq] at h
  refine ⟨m, ?_⟩
  obtain ⟨h1, h2⟩ := h
  cases acc with
  | set f ign =>
    simp only [methodB] at h1
    rw [Bool.and_eq_true, beq_iff_eq, Bool.not_eq_true'] at h1
    rw [h1.2]
    exact ⟨ign, h1.1 ▸ h2⟩
  | add f ign dedup =>
    simp only [methodB] at h1
    rw [Bool.and_eq_true, beq_iff_eq] at h1
    rw [h1.2]
    exact ⟨ign, dedup, h1.1 ▸ h2⟩
  | get f => cases h1
  | other => cases h1

/-- attributes whose objects are created by a method that is not of the shape of `Model/Create.lean`: `createARPackage` (`Model/Namespaces.lean`),
`createHwPinGroup`, `createModeGroup`, `createEcucQuery` -/
def createdOtherwise : List Key := [k!"arPackages", k!"hwPinGroups", k!"modeGroup", k!"ecucQueries"]

/-- a create method of a class for an attribute and the class of the new object -/
def createB (c : Key) (s : RSlot) (t : Key) (r : CreateRow) : Bool :=
  r.target == t && r.pattern.add == s.elems && (if s.field == k!"elements" then r.attr == 0 else r.attr == s.field) && (ancestors c).contains r.cls

/-- the check of `C85_creates` for one class -/
def createsB (b : RBody) : Bool := b.slots.all fun s => !s.named || createdOtherwise.contains s.field || match s.item with
  | .objs al => al.all fun e => match readers e.2 with
    | none => true
    | some b' => Gen.createTable.any (createB b.cls s b'.cls)
  | _ => true

theorem createsB_all : (Gen.readTable.all fun _ b => createsB b) = true := by decide +kernel

theorem createsB_load : createsB loadBody = true := by decide +kernel

/-- **C85** For every attribute with objects created by name, and every class of such objects, the class of the object that has the attribute, or one of its
base classes, has a create method that makes objects of that class, puts them into this attribute, and into the element collection exactly if the
model says so. -/
theorem C85_creates (k : Key) (b : RBody) (hb : readers k = some b) (s : RSlot) (hs : s ∈ b.slots) (hn : s.named = true)
    (ho : s.field ∉ createdOtherwise) (al : List (Key × Key)) (hi : s.item = .objs al) (t k' : Key) (ht : altOf al t = some k') (b' : RBody)
    (hb' : readers k' = some b') :
    ∃ r ∈ Gen.createTable, r.cls ∈ ancestors b.cls ∧ r.target = b'.cls ∧ r.pattern.add = s.elems ∧
      (if s.field = k!"elements" then r.attr = 0 else r.attr = s.field) := by
  have h : createsB b = true := by
    unfold readers at hb
    split at hb
    · cases hb; exact createsB_load
    · exact (Bst.all_toList _ _).1 createsB_all _ (Bst.find?_mem hb)
  have h := List.all_eq_true.1 h s hs
  rw [hi, hn] at h
  have ho' : createdOtherwise.contains s.field = false := by simpa using ho
  simp only [ho', Bool.not_true, Bool.false_or] at h
  have h := List.all_eq_true.1 h (t, k') (altOf_elem ht)
  simp only [hb'] at h
  obtain ⟨r, hr, h⟩ := List.any_eq_true.1 h
  unfold createB at h
  simp only [Bool.and_eq_true, beq_iff_eq, List.contains_iff_mem] at h
  refine ⟨r, hr, h.2, h.1.1.1, h.1.1.2, ?_⟩
  have h := h.1.2
  split
  next h' => rw [if_pos h'] at h; simpa using h
  next h' => rw [if_neg h'] at h; simpa using h

/-! ## Examples -/

/-- the display name of a unit is not in the list of exceptions: there is a method that sets it and does nothing else -/
example : ∃ m ign, resolve k!"Unit" m = some (.set k!"displayName" ign) := by
  obtain ⟨b, hb, s, hs, hf, hn, hi, ho, hc, hl, hk⟩ : ∃ b, readers k!"readARPackageElements_Unit" = some b ∧ ∃ s ∈ b.slots, s.field ≠ 0 ∧ s.named = false ∧
      s.item ≠ .name ∧ otherwiseB b.cls s.field = false ∧ b.cls = k!"Unit" ∧ s.isList = false ∧ s.field = k!"displayName" := by
    have : (match readers k!"readARPackageElements_Unit" with
      | none => false
      | some b => b.slots.any fun s => s.field != 0 && !s.named && s.item != .name && !otherwiseB b.cls s.field && b.cls == k!"Unit" && !s.isList &&
          s.field == k!"displayName") = true := by decide +kernel
    split at this
    · cases this
    next b hb =>
      obtain ⟨s, hs, h⟩ := List.any_eq_true.1 this
      simp only [Bool.and_eq_true, bne_iff_ne, ne_eq, Bool.not_eq_true', beq_iff_eq] at h
      obtain ⟨⟨⟨⟨⟨⟨h1, h2⟩, h3⟩, h4⟩, h5⟩, h6⟩, h7⟩ := h
      exact ⟨b, hb, s, hs, h1, h2, h3, h4, h5, h6, h7⟩
  obtain ⟨m, h⟩ := C85_methods _ b hb s hs hf hn hi ho
  rw [hl, hc, hk] at h
  exact ⟨m, h⟩

/-- a package has a create method for units -/
example : ∃ r ∈ Gen.createTable, r.cls ∈ ancestors k!"ARPackage" ∧ r.target = k!"Unit" ∧ r.pattern.add = true := by
  have h : (match readers k!"readARPackages_ARPackage", readers k!"readARPackageElements_Unit" with
      | some b, some b' => b.cls == k!"ARPackage" && b'.cls == k!"Unit" && b.slots.any fun s => s.named && s.field == k!"elements" && s.elems &&
          match s.item with
          | .objs al => altOf al k!"UNIT" == some k!"readARPackageElements_Unit"
          | _ => false
      | _, _ => false) = true := by decide +kernel
  split at h
  next b b' hb hb' =>
    simp only [Bool.and_eq_true, beq_iff_eq] at h
    obtain ⟨⟨h1, h2⟩, h3⟩ := h
    obtain ⟨s, hs, h⟩ := List.any_eq_true.1 h3
    simp only [Bool.and_eq_true, beq_iff_eq] at h
    obtain ⟨⟨⟨h4, h5⟩, h6⟩, h7⟩ := h
    split at h7
    next al hal =>
      obtain ⟨r, hr, q1, q2, q3, _⟩ := C85_creates _ b hb s hs h4 (by rw [h5]; decide) al hal _ _ (by simpa using h7) b' hb'
      exact ⟨r, hr, h1 ▸ q1, q2.trans h2, q3.trans h6⟩
    next => cases h7
  next => cases h

end Verif.Props
