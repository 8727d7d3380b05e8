import Verif.Lemmas.UnsavedTable
import Verif.Lemmas.Load
import Verif.Props.ProgramMethods
import Verif.Props.Built
/-!
# C86: every attribute that can be set is saved and loaded

It is not: `Gen.unsavedTable` lists, for each method of the reader, the attributes for which the class of the object has a set or add method, and that
are not read.
-/
namespace Verif.Props
open Verif Verif.Model Verif.Spec Verif.Lemmas

/-- **C86** Every attribute that a set or add method of the class sets is one the reader fills, for every method of the reader and the class of its
objects, except for the attributes in the list. -/
theorem C86_saved_partial (k : Key) (b : RBody) (hb : readers k = some b) (f : Key) (hs : Settable b.cls f) (hf : f ∉ unsaved k) : Fills b f := by
  have h : savedB k b = true := by
    unfold readers at hb
    split at hb
    next hk => cases hb; rw [hk]; exact savedB_load
    next => exact (Bst.all_toList _ _).1 savedB_all _ (Bst.find?_mem hb)
  obtain ⟨m, ign, h'⟩ := hs
  have : ∃ acc, (m, acc) ∈ methodsOf b.cls ∧ accField acc = some f := by
    rcases h' with h' | ⟨dd, h'⟩
    · exact ⟨_, resolve_mem h', rfl⟩
    · exact ⟨_, resolve_mem h', rfl⟩
  obtain ⟨acc, hm, ha⟩ := this
  have h := List.all_eq_true.1 h _ hm
  simp only [ha, Bool.or_eq_true, List.any_eq_true, List.contains_iff_mem, hf, or_false, beq_iff_eq] at h
  rcases h with ⟨s, hs, h⟩ | ⟨s, hs, h⟩
  · exact ⟨s, hs, .inl h⟩
  · exact ⟨s, hs, concernsB_sound h⟩

/-- **C86** Nothing in the list is superfluous: there is a method that sets the attribute, and it is not read. -/
theorem C86_unsaved (k f : Key) (h : f ∈ unsaved k) : ∃ b, readers k = some b ∧ Settable b.cls f ∧ ¬ Fills b f := by
  obtain ⟨b, hb, _, hs, h⟩ := unsaved_cases h
  exact ⟨b, hb, hs, fun ⟨s, hs, h'⟩ => h s hs h'⟩

/-! ## What happens to the attributes in the list -/

/-- **C86** Whatever a file contains, after it was loaded none of the objects in the document has a value in an attribute in the list. -/
theorem C86_never_loaded (py : Py) (strict : Bool) (x : Xml) (d : MObj py.F) (hl : load py strict x = .ok d) (k : Key) (v : MObj py.F)
    (hv : ReadAs readers k!"load" d k v) (f : Key) (hf : f ∈ unsaved k) : v.get f = [] := by
  obtain ⟨b, hb, he, _, h⟩ := unsaved_cases hf
  refine unfilled (readAs_typed (fun k b => readers_neat) hv (history_typed (History.load History.new (load_newDoc hl)))) hb fun s hs => ?_
  have h1 : ¬ s.field = f := fun e => h s hs (.inl e)
  simp only [hits, RSlot.key, Bool.or_eq_false_iff, beq_eq_false_iff_ne, Bool.and_eq_false_iff, ne_eq]
  exact ⟨h1, .inr he⟩

/-- **C86** Giving values to an attribute that no method of the writer looks at, anywhere in a document, changes nothing of what is saved, in either mode:
the values are lost without a message. -/
theorem C86_not_written (py : Py) (repr : py.F → Str) (strict : Bool) (d d' : MObj py.F) (h : Enriched d d') :
    save py repr strict d' = save py repr strict d := save_enriched h

/-- **C86** For the classes in the second list, no method of the writer that may be called for an object of the class looks at the attribute, so
`C86_not_written` applies to it. -/
theorem C86_unwritten (c f : Key) (h : c ∈ quiet f) : Unwritten c f := by
  refine ⟨fun e => ?_, ?_⟩
  · rw [e, quiet_root.2] at h
    cases h
  intro w b hw hb g hg hc
  rcases hw with rfl | ⟨w0, b0, hb0, e, he, ht, rfl⟩
  · cases hb
    have := List.all_eq_true.1 quiet_root.1 g hg
    rw [Bool.and_eq_true, decide_eq_true_eq] at this
    have := List.all_eq_true.1 this.2 f (mem_heads this.1 hc)
    rw [List.isEmpty_iff] at this
    rw [this] at h
    cases h
  · have hq : quietB b0 = true := by
      unfold writers at hb0
      split at hb0
      · cases hb0; exact quietB_save
      · exact (Bst.all_toList _ _).1 quietB_all _ (Bst.find?_mem hb0)
    have := List.all_eq_true.1 hq e he
    simp only [hb] at this
    have := List.all_eq_true.1 this g hg
    rw [Bool.and_eq_true, decide_eq_true_eq] at this
    have := List.all_eq_true.1 (List.all_eq_true.1 this.2 f (mem_heads this.1 hc)) c h
    rw [ht] at this
    cases this

/-- **C86** Of the attributes in the first list, those in the third list may be written (and are not loaded); the others are never written. -/
theorem C86_either (k f : Key) (h : f ∈ unsaved k) (b : RBody) (hb : readers k = some b) (hw : f ∉ (Gen.writtenOnly.find? b.cls).getD []) :
    Unwritten b.cls f := by
  refine C86_unwritten _ _ ?_
  unfold unsaved at h
  cases hk : Gen.unsavedTable.find? k with
  | none => rw [hk] at h; cases h
  | some fs =>
    rw [hk] at h
    have hB := (Bst.all_toList _ _).1 eitherB_all _ (Bst.find?_mem hk)
    unfold eitherB at hB
    rw [hb] at hB
    have hB := List.all_eq_true.1 hB f h
    simpa [hw] using hB

/-! ## Examples -/

/-- a test for one step of `ReadAs` -/
def insideB (k : Key) (a : Key × Bool) (t k' c : Key) : Bool := match readers k, readers k' with
  | some b, some b' => b'.cls == c && match slotAt b a with
    | none => false
    | some s => match s.item with
      | .objs al => altOf al t == some k'
      | _ => false
  | _, _ => false

theorem insideB_sound {F : Type} {o v w : MObj F} {k : Key} {a : Key × Bool} {t k' k'' : Key} (h : insideB k a t k' v.cls = true) (hv : v ∈ o.vals a)
    (hr : ReadAs readers k' v k'' w) : ReadAs readers k o k'' w := by
  unfold insideB at h
  split at h
  next b b' hb hb' =>
    rw [Bool.and_eq_true, beq_iff_eq] at h
    obtain ⟨h1, h2⟩ := h
    split at h2
    · cases h2
    next s hs =>
      split at h2
      next al hal =>
        obtain ⟨_, rfl⟩ := slotAt_mem hs
        exact .inside hb hs hal (by simpa using h2) hb' hv h1.symm hr
      next => cases h2
  next => cases h

/-- a group of PDUs -/
def groupObj (F : Type) : MObj F := withFields k!"readARPackageElements_ISignalIPduGroup" [(k!"short_name", [.scal (.str "G".toList)])]

/-- a package with it -/
def groupPkg (F : Type) : MObj F := withFields k!"readARPackages_ARPackage"
  [(k!"short_name", [.scal (.str "P".toList)]), (k!"elements", [groupObj F])]

/-- a document with it -/
def groupDoc (F : Type) : MObj F := withFields k!"load" [(k!"schema_location", [.scal (.str defaultSchema)]), (k!"arPackages", [groupPkg F])]

/-- the group after `group.addNmPduRef(...)` -/
def nmGroup (F : Type) : MObj F := .mk k!"ISignalIPduGroup" ((groupObj F).fields ++ [((k!"nmPduRefs", false), [.scal (.ref none none "/P/N".toList)])])

/-- the document after that -/
def nmGroupDoc (F : Type) : MObj F :=
  (groupDoc F).change (k!"arPackages", false) fun ps => ps.set 0 ((groupPkg F).change (k!"elements", true) fun es => es.set 0 (nmGroup F))

/-- **C86, broken** A reference to a network management PDU is added to a group of PDUs.  It is there, but the file is the one that is saved without it, and
what is loaded does not have it. -/
theorem C86_broken (py : Py) (repr : py.F → Str) (strict : Bool) :
    Settable k!"ISignalIPduGroup" k!"nmPduRefs" ∧
    (∃ v, findIn ["P".toList, "G".toList] (nmGroupDoc py.F) = some v ∧ v.cls = k!"ISignalIPduGroup" ∧ (v.get k!"nmPduRefs").length = 1) ∧
    ∃ y d', save py repr strict (nmGroupDoc py.F) = .ok y ∧ save py repr strict (groupDoc py.F) = .ok y ∧ load py strict y = .ok d' ∧
      ∃ v, findIn ["P".toList, "G".toList] d' = some v ∧ v.cls = k!"ISignalIPduGroup" ∧ v.get k!"nmPduRefs" = [] := by
  refine ⟨?_, ⟨_, by rfl, by rfl, by rfl⟩, ?_⟩
  · obtain ⟨b, hb, hs, _⟩ := C86_unsaved k!"readARPackageElements_ISignalIPduGroup" k!"nmPduRefs" (by decide +kernel)
    have hc : (readers k!"readARPackageElements_ISignalIPduGroup").map RBody.cls = some k!"ISignalIPduGroup" := by decide +kernel
    rw [hb, Option.map_some, Option.some.injEq] at hc
    exact hc ▸ hs
  · cases strict <;> exact ⟨_, _, by rfl, by rfl, by rfl, _, by rfl, by rfl, by rfl⟩

/-- the hypothesis of `C86_not_written` holds for these documents -/
example (F : Type) : Enriched (groupDoc F) (nmGroupDoc F) :=
  enriched_change (o := groupDoc F) (a := (k!"arPackages", false)) (i := 0) (v := groupPkg F) (by rfl)
    (enriched_change (o := groupPkg F) (a := (k!"elements", true)) (i := 0) (v := groupObj F) (by rfl)
      (Enriched.here (c := k!"ISignalIPduGroup") (f := k!"nmPduRefs") (fs := (groupObj F).fields) _ (C86_unwritten _ _ (by decide +kernel))))

/-- the hypotheses of `C86_never_loaded` hold for the group in the package of the document that is loaded -/
example (py : Py) (repr : py.F → Str) (strict : Bool) : ∃ x, load py strict x = .ok (groupDoc py.F) ∧
    ReadAs readers k!"load" (groupDoc py.F) k!"readARPackageElements_ISignalIPduGroup" (groupObj py.F) ∧
    k!"nmPduRefs" ∈ unsaved k!"readARPackageElements_ISignalIPduGroup" := by
  have hx : ∃ x, save py repr strict (groupDoc py.F) = .ok x ∧ load py strict x = .ok (groupDoc py.F) := by cases strict <;> exact ⟨_, by rfl, by rfl⟩
  obtain ⟨x, _, hx⟩ := hx
  refine ⟨x, hx, ?_, by decide +kernel⟩
  refine insideB_sound (a := (k!"arPackages", false)) (t := k!"AR-PACKAGE") (k' := k!"readARPackages_ARPackage") (v := groupPkg py.F) ?_ ?_
    (insideB_sound (a := (k!"elements", true)) (t := k!"I-SIGNAL-I-PDU-GROUP") (k' := k!"readARPackageElements_ISignalIPduGroup") (v := groupObj py.F) ?_ ?_ .here)
  · show insideB _ _ _ _ k!"ARPackage" = true
    decide +kernel
  · show groupPkg py.F ∈ [groupPkg py.F]
    exact List.mem_cons_self
  · show insideB _ _ _ _ k!"ISignalIPduGroup" = true
    decide +kernel
  · show groupObj py.F ∈ [groupObj py.F]
    exact List.mem_cons_self

/-- the display name of a unit can be set and is not in the list, the names of the fragments of a short name are -/
example : Settable k!"Unit" k!"displayName" ∧ k!"displayName" ∉ unsaved k!"readARPackageElements_Unit" ∧
    k!"shortNameFragments" ∈ unsaved k!"readExclusiveAreaNestingOrders_ExclusiveAreaNestingOrder" ∧
    k!"shortNameFragments" ∈ (Gen.writtenOnly.find? k!"ExclusiveAreaNestingOrder").getD [] := by
  refine ⟨settable_of (m := k!"setDisplayName") (acc := .set k!"displayName" true) ?_ rfl, ?_, ?_, ?_⟩ <;> decide +kernel

end Verif.Props
