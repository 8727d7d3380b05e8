import Verif.Lemmas.Within
import Verif.Lemmas.Ports
import Verif.Props.Load
/-!
# Property C62: ports only have com specs they may have
-/
namespace Verif.Props
open Verif Verif.Model Verif.Spec Verif.Lemmas

/-- **C62** In a document that was loaded, in any mode, the com specs of every `PPortPrototype` and of every `RPortPrototype` are of the
classes these ports may have and refer to things of the right kind.  (What is missing: ports that provide and require, see
`C62_both_broken`.) -/
theorem C62_loaded_partial (py : Py) (strict : Bool) (x : Xml) (d p : MObj py.F) (h : load py strict x = .ok d) (hp : Within d p) :
    (p.cls = k!"PPortPrototype" → ∀ s ∈ p.get k!"providedComSpecs", ProvidedOk s) ∧
    (p.cls = k!"RPortPrototype" → ∀ s ∈ p.get k!"requiredComSpecs", RequiredOk s) := by
  rcases within_read (load_eq h) hp with ⟨s, rfl⟩ | ⟨m, j, y, hr⟩
  · exact ⟨fun h0 => absurd (show (0 : Key) = _ from h0) (by decide), fun h0 => absurd (show (0 : Key) = _ from h0) (by decide)⟩
  · refine ⟨fun hc s hs => ?_, fun hc s hs => ?_⟩
    · obtain ⟨_, _, _, b, h1, h2, h3, h4⟩ := members_sound table_provided (by decide +kernel) hr hc hs
      exact provided_ok h1 h2 h3 h4
    · obtain ⟨_, _, _, b, h1, h2, h3, h4⟩ := members_sound table_required (by decide +kernel) hr hc hs
      exact required_ok h1 h2 h3 h4

/-- **C62** By calls of `addProvidedComSpec` and `addRequiredComSpec`, in whatever order and whatever they are given, a `PPortPrototype`
and an `RPortPrototype` get exactly those com specs, in the order of the calls, that they may have: the others raise an exception and
change nothing. -/
theorem C62_added_partial {F : Type} (p : Port F) (cs : List (PortCall F)) :
    (p.kind = .p → ∃ l, (p.run cs).provided = p.provided ++ l ∧ l.Sublist ((cs.filter Prod.fst).map Prod.snd) ∧
      (∀ s, s ∈ l ↔ (true, s) ∈ cs ∧ ProvidedOk s) ∧ (p.run cs).required = p.required) ∧
    (p.kind = .r → ∃ l, (p.run cs).required = p.required ++ l ∧ l.Sublist ((cs.filter fun c => !c.1).map Prod.snd) ∧
      (∀ s, s ∈ l ↔ (false, s) ∈ cs ∧ RequiredOk s) ∧ (p.run cs).provided = p.provided) :=
  ⟨fun hk => run_provided hk cs, fun hk => run_required hk cs⟩

/-- **C62** An exception is a `ValueError`, or the port has no such method. -/
theorem C62_rejected {F : Type} (p : Port F) (s : MObj F) :
    (p.kind = .p → ¬ ProvidedOk s → p.addProvided s = .error .valueError) ∧ (p.kind = .r → ¬ RequiredOk s → p.addRequired s = .error .valueError) ∧
    (p.kind = .p → p.addRequired s = .error .attributeError) ∧ (p.kind = .r → p.addProvided s = .error .attributeError) := by
  refine ⟨fun hk hs => ?_, fun hk hs => ?_, fun hk => ?_, fun hk => ?_⟩
  · unfold Port.addProvided
    rw [hk]
    simp only
    rcases checkProvided_iff s with ⟨h, _⟩ | ⟨_, h⟩
    · exact absurd h hs
    · rw [h]
  · unfold Port.addRequired
    rw [hk]
    simp only
    rcases checkRequired_iff s with ⟨h, _⟩ | ⟨_, h⟩
    · exact absurd h hs
    · rw [h]
  · unfold Port.addRequired; rw [hk]
  · unfold Port.addProvided; rw [hk]

/-- a reference element -/
def refTo (t : Key) (dest path : String) : Xml := .node t [(k!"DEST", dest.toList)] path.toList []

/-- a file with a component with one port -/
def portFile (tag : Key) (kids : List Xml) : Xml := fileOf [pkgOf "P" [.node k!"ELEMENTS" [] [] [.node k!"APPLICATION-SW-COMPONENT-TYPE" [] [] [txt k!"SHORT-NAME" "A",
  .node k!"PORTS" [] [] [.node tag [] [] (txt k!"SHORT-NAME" "B" :: kids)]]]]]

/-- a com spec in the list of com specs provided -/
def providing (s : Xml) : List Xml := [.node k!"PROVIDED-COM-SPECS" [] [] [s]]

/-- a com spec in the list of com specs required -/
def requiring (s : Xml) : List Xml := [.node k!"REQUIRED-COM-SPECS" [] [] [s]]

/-- the com specs of the port -/
def specsOf {F : Type} (r : Except RErr (MObj F)) (f : Key) : Option (List Key) := match r with
  | .error _ => none
  | .ok d => (findIn ["P".toList, "A".toList] d).bind fun a => ((a.get k!"ports").head?.map fun p => (p.get f).map MObj.cls)

/-- files that can be loaded -/
example (py : Py) :
    specsOf (load py true (portFile k!"P-PORT-PROTOTYPE" (providing (.node k!"NONQUEUED-SENDER-COM-SPEC" [] [] [refTo k!"DATA-ELEMENT-REF" "VARIABLE-DATA-PROTOTYPE" "/I/e"]))))
      k!"providedComSpecs" = some [k!"NonqueuedSenderComSpec"] ∧
    specsOf (load py true (portFile k!"R-PORT-PROTOTYPE" (requiring (.node k!"CLIENT-COM-SPEC" [] [] [refTo k!"OPERATION-REF" "CLIENT-SERVER-OPERATION" "/I/o"]))))
      k!"requiredComSpecs" = some [k!"ClientComSpec"] := ⟨by rfl, by rfl⟩

/-- the same files with other destinations -/
example (py : Py) (strict : Bool) :
    load py strict (portFile k!"P-PORT-PROTOTYPE" (providing (.node k!"NONQUEUED-SENDER-COM-SPEC" [] [] [refTo k!"DATA-ELEMENT-REF" "PARAMETER-DATA-PROTOTYPE" "/I/e"]))) =
      .error (.py .valueError) ∧
    load py strict (portFile k!"R-PORT-PROTOTYPE" (requiring (.node k!"CLIENT-COM-SPEC" [] [] [refTo k!"OPERATION-REF" "VARIABLE-DATA-PROTOTYPE" "/I/o"]))) =
      .error (.py .valueError) := by cases strict <;> exact ⟨by rfl, by rfl⟩

/-- **C62 is false for ports that provide and require**: nothing is checked, in a file or in a call. -/
theorem C62_both_broken (py : Py) :
    specsOf (load py true (portFile k!"PR-PORT-PROTOTYPE" (providing (.node k!"NONQUEUED-SENDER-COM-SPEC" [] [] [])))) k!"providedComSpecs" =
      some [k!"NonqueuedSenderComSpec"] ∧ ¬ ProvidedOk (MObj.mk k!"NonqueuedSenderComSpec" [] : MObj py.F) ∧
    (∃ q, Port.addProvided { kind := .pr } (MObj.mk k!"NonqueuedSenderComSpec" [] : MObj py.F) = .ok q) := by
  refine ⟨by rfl, ?_, _, rfl⟩
  rintro (h | h)
  · exact h.2.1 rfl
  · exact absurd (show k!"NonqueuedSenderComSpec" ∈ _ from h) (by decide)

/-- **Files with a com spec for a port that requires nonvolatile data can not be loaded**, although the parser has a method for it and the writer
writes it: the port does not know the class. -/
theorem C62_nonvolatile_broken (py : Py) (strict : Bool) :
    load py strict (portFile k!"R-PORT-PROTOTYPE" (requiring (.node k!"NV-REQUIRE-COM-SPEC" [] [] [refTo k!"VARIABLE-REF" "VARIABLE-DATA-PROTOTYPE" "/I/e"]))) =
      .error (.py .valueError) ∧
    specsOf (load py strict (portFile k!"PR-PORT-PROTOTYPE" (requiring (.node k!"NV-REQUIRE-COM-SPEC" [] [] [refTo k!"VARIABLE-REF" "VARIABLE-DATA-PROTOTYPE" "/I/e"]))))
      k!"requiredComSpecs" = some [k!"NvRequireComSpec"] := by cases strict <;> exact ⟨by rfl, by rfl⟩

end Verif.Props
