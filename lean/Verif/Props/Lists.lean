import Verif.Lemmas.ListsMain
import Verif.Props.FileOrder
/-!
# C89: lists are loaded completely
-/
namespace Verif.Props
open Verif Verif.Model Verif.Spec Verif.Lemmas

/-- **C89** Whatever a file contains, if it is loaded, then each object of the document is made of an element of the file by a method of the reader, and for each
attribute of the object that holds a list, each statement of this method that fills the attribute goes through all elements at some place, however many there
are, and puts what it makes of each into the list.  Except for the attributes in `cutLists` (`C89_broken`). -/
theorem C89_lists_partial (py : Py) (strict : Bool) (x : Xml) (d : MObj py.F) (hl : load py strict x = .ok d) (c : Key) (fs : List ((Key × Bool) × List (MObj py.F)))
    (ho : Within d (.mk c fs)) : ∃ n k b, ∃ e ∈ inOrder x, readObj py strict readers n k e = .ok (.mk c fs) ∧ readers k = some b ∧ b.cls = c ∧
      ∀ s ∈ b.slots, HoldsList c s.field → (k, s.field) ∉ cutLists → ∃ p t q, Repeats s.path e p t q ∧
        ∀ y ∈ select s.path e, ∃ m us, readItem py strict (readObj py strict readers m) s.item y = .ok us ∧ ∀ w ∈ us, w ∈ (MObj.mk c fs).get s.field := by
  unfold load at hl
  split at hl
  · cases hl
  rcases within_origin hl ho with ⟨s, h⟩ | ⟨m, j, y, hy, h⟩
  · cases h
  · obtain ⟨_, b, _, _, hb, _, he, _⟩ := readObj_succ h
    cases he
    exact ⟨m, j, b, y, hy, h, hb, rfl, fun s hs h1 h2 => obj_lists h hb hs h1 h2⟩

/-- **C89** An attribute that is `None` in new objects is still `None`, or has one value, after a file was loaded, whatever it contains. -/
theorem C89_single (py : Py) (strict : Bool) (x : Xml) (d : MObj py.F) (hl : load py strict x = .ok d) (o : MObj py.F) (ho : Within d o)
    (e : (Key × Bool) × List (MObj py.F)) (he : e ∈ o.fields) (h1 : HoldsOne o.cls e.1.1) : e.2.length ≤ 1 := by
  unfold load at hl
  split at hl
  · cases hl
  rcases within_origin hl ho with ⟨s, rfl⟩ | ⟨m, j, y, hy, h⟩
  · cases he
  · exact obj_single h he h1

/-- the hypotheses hold for the diagnostic connection in `requestXml`: its functional requests are a list, its physical request is not -/
example (py : Py) (strict : Bool) : ∃ b s, load py strict requestXml = .ok (requestDoc py.F) ∧ Within (requestDoc py.F) (requestObj py.F) ∧
    readers k!"readARPackageElements_DiagnosticConnection" = some b ∧ s ∈ b.slots ∧ s.field = k!"functionalRequestRefs" ∧
    HoldsList b.cls s.field ∧ (k!"readARPackageElements_DiagnosticConnection", s.field) ∉ cutLists ∧
    HoldsOne b.cls k!"physicalRequestRef" := by
  refine ⟨_, { field := k!"functionalRequestRefs", path := .all k!"FUNCTIONAL-REQUEST-REFS" (.all k!"FUNCTIONAL-REQUEST-REF" .nil), item := .prim .ref },
    (request_loaded py strict).1, (request_loaded py strict).2, rfl, ?_, rfl, ?_, by decide, ?_⟩
  · decide +kernel
  · unfold HoldsList; decide +kernel
  · unfold HoldsOne; decide +kernel

/-- a file with a signal whose protection has two data IDs -/
def dataIdsXml : Xml :=
  .node k!"AUTOSAR" [] [] [.node k!"AR-PACKAGES" [] [] [.node k!"AR-PACKAGE" [] [] [.leaf k!"SHORT-NAME" [] "P".toList,
    .node k!"ELEMENTS" [] [] [.node k!"I-SIGNAL" [] [] [.leaf k!"SHORT-NAME" [] "S".toList,
      .node k!"TRANSFORMATION-I-SIGNAL-PROPSS" [] [] [.node k!"END-TO-END-TRANSFORMATION-I-SIGNAL-PROPS" [] [] [
        .node k!"END-TO-END-TRANSFORMATION-I-SIGNAL-PROPS-VARIANTS" [] [] [.node k!"END-TO-END-TRANSFORMATION-I-SIGNAL-PROPS-CONDITIONAL" [] [] [
          .node k!"DATA-IDS" [] [] [.leaf k!"DATA-ID" [] "0x11".toList, .leaf k!"DATA-ID" [] "0x12".toList]]]]]]]]]]

/-- **C89** The other way round, for the attribute in `cutLists`: whatever a file contains, no more than one data ID is loaded. -/
theorem C89_cut (py : Py) (strict : Bool) (n : Nat) (x : Xml) (o : MObj py.F)
    (h : readObj py strict readers n k!"readISignalTransformationISignalProps_EndToEndTransformationISignalProps" x = .ok o)
    (e : (Key × Bool) × List (MObj py.F)) (he : e ∈ o.fields) (hf : e.1.1 = k!"dataIds") : e.2.length ≤ 1 := by
  obtain ⟨m, b, vss, rfl, hb, hm, rfl, _⟩ := readObj_succ h
  obtain ⟨s, hs, hk, hr⟩ := field_slot hm he
  have hB : (readers k!"readISignalTransformationISignalProps_EndToEndTransformationISignalProps").all (fun b => b.slots.all fun s =>
      !(s.field == k!"dataIds") || oneOnly s.path) = true := by decide +kernel
  rw [hb] at hB
  have := List.all_eq_true.1 hB s hs
  rw [← hk] at hf
  have hf : s.field = k!"dataIds" := hf
  rw [hf] at this
  exact slot_length hr (.inr (by simpa using this))

/-- the connection between the file and what is loaded of it -/
noncomputable def cutCheck (strict : Bool) : Bool := match load Py.demo strict dataIdsXml with
  | .ok d => match findIn ["P".toList, "S".toList] d with
    | some v => match v.get k!"transformationISignalProps" with
      | [w] => w.cls == k!"EndToEndTransformationISignalProps" && (w.get k!"dataIds").length == 1
      | _ => false
    | none => false
  | .error _ => false

/-- **C89, broken** Of the data IDs of the protection of a signal only the first is loaded, without a message. -/
theorem C89_broken (strict : Bool) : HoldsList k!"EndToEndTransformationISignalProps" k!"dataIds" ∧
    ∃ d v w, load Py.demo strict dataIdsXml = .ok d ∧ findIn ["P".toList, "S".toList] d = some v ∧ v.get k!"transformationISignalProps" = [w] ∧
      w.cls = k!"EndToEndTransformationISignalProps" ∧ (w.get k!"dataIds").length = 1 := by
  refine ⟨by unfold HoldsList; decide +kernel, ?_⟩
  have h : cutCheck strict = true := by cases strict <;> decide +kernel
  unfold cutCheck at h
  split at h
  · rename_i d hd
    split at h
    · rename_i v hv
      split at h
      · rename_i w hw
        simp only [Bool.and_eq_true, beq_iff_eq] at h
        exact ⟨d, v, w, hd, hv, hw, h.1, h.2⟩
      · cases h
    · cases h
  · cases h

end Verif.Props
