import Verif.Lemmas.Foreign
/-!
# C36: strict mode and warning mode
-/
namespace Verif.Props
open Verif Verif.Model Verif.Spec Verif.Lemmas

theorem readers_load' : readers k!"load" = some loadBody := rfl

/-- **C36** A document that is accepted in strict mode is read the same in warning mode. -/
theorem C36_modes_agree (py : Py) (x : Xml) (d : MObj py.F) (h : load py true x = .ok d) : load py false x = .ok d := by
  unfold load at h ⊢
  split at h
  · cases h
  · rw [if_neg (by simp)]
    exact readObj_modes readers h

/-- **C36** The same for saving. -/
theorem C36_save_modes_agree (py : Py) (repr : py.F → Str) (d : MObj py.F) (y : Xml) (h : save py repr true d = .ok y) : save py repr false d = .ok y := by
  unfold save at h ⊢
  cases hw : writeObj py repr true writers (withSchema py d).depth k!"save" (withSchema py d) with
  | error e => rw [hw] at h; cases h
  | ok out => rw [hw] at h; rw [writeObj_modes writers hw]; exact h

theorem load_known {py : Py} {strict : Bool} {x y : Xml} {q : List Key} (hd : Del q x y) (hk : ∀ n, known readers strict n k!"load" x.tag q = false) :
    load py strict x = load py strict y := by
  unfold load
  rw [hd.tag_eq]
  split
  · rfl
  · have h1 := readObj_stable (py := py) (strict := strict) moving (k := k!"load") (Nat.le_max_left x.depth y.depth) (Nat.le_refl x.depth)
    have h2 := readObj_stable (py := py) (strict := strict) moving (k := k!"load") (Nat.le_max_right x.depth y.depth) (Nat.le_refl y.depth)
    rw [← h1, ← h2]
    exact known_sound readers hd (hk _)

/-- **C36** Any number of elements with tags that no reader method mentions, anywhere in the document: in warning mode the
document is read exactly as if they were not there.  Missing are the places in `touched`, where the claim is false
(`C36_first_broken`, `C36_unbound_broken`). -/
theorem C36_foreign_partial (py : Py) (x z : Xml) (h : Strip x z) : load py false x = load py false z := by
  induction h with
  | refl => rfl
  | step x y z pre u hd hu ht _ ih =>
    rw [← ih]
    refine load_known hd fun n => ?_
    exact foreign_unknown hu ht readers_load' calls_load.2 (List.nil_prefix) rfl

/-- **C36** The same for any element that is not looked at according to `known`, in both modes. -/
theorem C36_pruned (py : Py) (strict : Bool) (x z : Xml) (h : Pruned readers strict k!"load" x z) : load py strict x = load py strict z := by
  induction h with
  | refl => rfl
  | step x y z q hd hk _ ih => rw [← ih]; exact load_known hd hk

theorem guard_ok {k : Key} {b : RBody} (hb : readers k = some b) {s : RSlot} (hs : s ∈ b.slots) {t : Key} {tags : List Key} {e : GErr}
    (hp : s.path = .all t (.all 0 .nil)) (hi : s.item = .guard tags e) (he : e ≠ .unbound) : blindBody b t tags = true := by
  have hg : (t, tags) ∈ guardsOf b := by
    unfold guardsOf
    refine List.mem_filterMap.2 ⟨s, hs, ?_⟩
    rw [hp, hi]
    simp [he]
  have hb' : guardsOk b = true := by
    unfold readers at hb
    split at hb
    · cases hb; decide +kernel
    · exact (Bst.all_toList _ _).1 guards_blind _ (Bst.find?_mem hb)
  have := List.all_eq_true.1 hb' _ hg
  simp only [Bool.and_eq_true] at this
  exact this.2

/-- **C36** Each place where the reader complains about unsupported children (there are 518 of them): a child with a tag
that is not in the list has no influence in warning mode. -/
theorem C36_unsupported_skipped (py : Py) (n : Nat) (k : Key) (b : RBody) (hb : readers k = some b) (s : RSlot) (hs : s ∈ b.slots)
    (t : Key) (tags : List Key) (e : GErr) (hp : s.path = .all t (.all 0 .nil)) (hi : s.item = .guard tags e) (he : e ≠ .unbound)
    (u : Key) (hu : u ∉ tags) (x y : Xml) (hd : Del [t, u] x y) :
    readObj py false readers n k x = readObj py false readers n k y :=
  known_sound readers hd (blindBody_sound hu hb (guard_ok hb hs hp hi he) n x.tag)

/-- **C36** and each tag in the list is one that is read. -/
theorem C36_supported_read : (Gen.readTable.all fun k b => (guardsOf b).all fun g => g.2.all fun t =>
    known readers false 2 k 0 [g.1, t]) = true := by decide +kernel

/-- **C36** In strict mode no document is returned if, in any element that is read, there is an unsupported child … -/
theorem C36_unsupported_raises (py : Py) (x : Xml) (k : Key) (y : Xml) (hv : Visits readers k!"load" x k y) (b : RBody)
    (hb : readers k = some b) (s : RSlot) (hs : s ∈ b.slots) (tags : List Key) (e : GErr) (hi : s.item = .guard tags e)
    (z : Xml) (hz : z ∈ select s.path y) (ht : z.tag ∉ tags) (d : MObj py.F) : load py true x ≠ .ok d := by
  intro h
  unfold load at h
  split at h
  · cases h
  · obtain ⟨m, o, ho⟩ := visits_read readers hv h
    exact ht ((strict_checks readers ho hb hs).1 tags e hi z hz)

/-- … or a mandatory reference is missing. -/
theorem C36_missing_raises (py : Py) (x : Xml) (k : Key) (y : Xml) (hv : Visits readers k!"load" x k y) (b : RBody)
    (hb : readers k = some b) (s : RSlot) (hs : s ∈ b.slots) (hr : s.req = .strict) (hz : select s.path y = []) (d : MObj py.F) :
    load py true x ≠ .ok d := by
  intro h
  unfold load at h
  split at h
  · cases h
  · obtain ⟨m, o, ho⟩ := visits_read readers hv h
    exact (strict_checks readers ho hb hs).2 hr hz

/-- **C36** In warning mode mandatory references are read like optional ones. -/
theorem C36_missing_skipped (py : Py) (x : Xml) :
    load py false x = readObj py false (fun k => (readers k).map RBody.lenient) x.depth k!"load" x := by
  unfold load
  rw [if_neg (by simp)]
  exact readObj_lenient readers _ _ x

/-! ### Examples -/

def isErr {F : Type} (e : RErr) : Except RErr (MObj F) → Bool
  | .ok _ => false
  | .error e' => decide (e' = e)

theorem isErr_sound {F : Type} {e : RErr} {r : Except RErr (MObj F)} (h : isErr e r = true) : r = .error e := by
  cases r with
  | ok d => cases h
  | error e' => simp only [isErr, decide_eq_true_eq] at h; rw [h]


theorem foreign_of {u : Key} (h : ((loadBody.slots.all fun s => !(RSlot.tags s).contains u) &&
    Gen.readTable.all fun _ b => b.slots.all fun s => !(RSlot.tags s).contains u) = true) : Foreign u := by
  rw [Bool.and_eq_true] at h
  intro k b hb s hs
  unfold readers at hb
  split at hb
  · cases hb; simpa using List.all_eq_true.1 h.1 s hs
  · simpa using List.all_eq_true.1 ((Bst.all_toList _ _).1 h.2 _ (Bst.find?_mem hb)) s hs

theorem foreign_vendor : Foreign k!"VENDOR-EXTENSION" := foreign_of (by decide +kernel)

/-- a vendor element, with content, among the elements of a package -/
def vendorDoc (l r : List Xml) : Xml :=
  .node k!"AUTOSAR" [] [] [.node k!"AR-PACKAGES" [] [] [.node k!"AR-PACKAGE" [] [] [
    .leaf k!"SHORT-NAME" [] "P".toList, .node k!"ELEMENTS" [] [] (l ++ .node k!"VENDOR-EXTENSION" [] [] [.leaf k!"SHORT-NAME" [] "V".toList] :: r)]]]

def plainDoc (l r : List Xml) : Xml :=
  .node k!"AUTOSAR" [] [] [.node k!"AR-PACKAGES" [] [] [.node k!"AR-PACKAGE" [] [] [
    .leaf k!"SHORT-NAME" [] "P".toList, .node k!"ELEMENTS" [] [] (l ++ r)]]]

theorem vendor_strip (l r : List Xml) : Strip (vendorDoc l r) (plainDoc l r) := by
  refine .step _ _ _ [k!"AR-PACKAGES", k!"AR-PACKAGE", k!"ELEMENTS"] k!"VENDOR-EXTENSION" ?_ foreign_vendor (by rw [show (vendorDoc l r).tag = k!"AUTOSAR" from rfl]; decide +kernel) (.refl _)
  exact .deep _ _ _ [] [] _ _ _ (.deep _ _ _ [] [] _ _ _ (.deep _ _ _ [.leaf k!"SHORT-NAME" [] "P".toList] [] _ _ _
    (.here _ _ _ l r (.node k!"VENDOR-EXTENSION" [] [] [.leaf k!"SHORT-NAME" [] "V".toList]))))

/-- In warning mode both documents are read, with the same result; in strict mode only the one without the vendor element. -/
example : (∃ d : MObj Py.demo.F, load Py.demo false (vendorDoc [] [.node k!"UNIT" [] [] [.leaf k!"SHORT-NAME" [] "m".toList]]) = .ok d ∧
      load Py.demo true (plainDoc [] [.node k!"UNIT" [] [] [.leaf k!"SHORT-NAME" [] "m".toList]]) = .ok d) ∧
    load Py.demo true (vendorDoc [] [.node k!"UNIT" [] [] [.leaf k!"SHORT-NAME" [] "m".toList]]) = .error (.py .notImplemented) := by
  constructor
  · rw [C36_foreign_partial Py.demo _ _ (vendor_strip _ _)]
    have h : (match load Py.demo true (plainDoc [] [.node k!"UNIT" [] [] [.leaf k!"SHORT-NAME" [] "m".toList]]) with
      | .ok _ => true
      | .error _ => false) = true := by decide +kernel
    split at h
    · rename_i d hd; exact ⟨d, C36_modes_agree _ _ _ hd, hd⟩
    · cases h
  · have h : (match load Py.demo true (vendorDoc [] [.node k!"UNIT" [] [] [.leaf k!"SHORT-NAME" [] "m".toList]]) with
      | .ok _ => false
      | .error e => decide (e = .py .notImplemented)) = true := by decide +kernel
    split at h
    · cases h
    · rename_i e he; rw [he]; simpa using h

/-- a schedulable entity of a basic software module -/
def entityDoc (v : List Xml) : Xml :=
  .node k!"AUTOSAR" [] [] [.node k!"AR-PACKAGES" [] [] [.node k!"AR-PACKAGE" [] [] [
    .leaf k!"SHORT-NAME" [] "P".toList, .node k!"ELEMENTS" [] [] [.node k!"BSW-MODULE-DESCRIPTION" [] [] [
      .leaf k!"SHORT-NAME" [] "M".toList, .node k!"INTERNAL-BEHAVIORS" [] [] [.node k!"BSW-INTERNAL-BEHAVIOR" [] [] [
        .leaf k!"SHORT-NAME" [] "B".toList, .node k!"ENTITYS" [] [] [.node k!"BSW-SCHEDULABLE-ENTITY" [] [] (
          .leaf k!"SHORT-NAME" [] "E".toList :: v)]]]]]]]]

def isOk {F : Type} : Except RErr (MObj F) → Bool
  | .ok _ => true
  | .error _ => false

/-- the entry it implements is mandatory in strict mode -/
example : load Py.demo true (entityDoc []) = .error (.py .valueError) ∧ isOk (load Py.demo false (entityDoc [])) = true ∧
    isOk (load Py.demo true (entityDoc [.leaf k!"IMPLEMENTED-ENTRY-REF" [(k!"DEST", "BSW-MODULE-ENTRY".toList)] "/P/e".toList])) = true :=
  ⟨isErr_sound (by decide +kernel), by decide +kernel, by decide +kernel⟩

/-! ### Where the claim is false -/

/-- `VALUE-SPEC` of a constant with one child -/
def constDoc (v : List Xml) : Xml :=
  .node k!"AUTOSAR" [] [] [.node k!"AR-PACKAGES" [] [] [.node k!"AR-PACKAGE" [] [] [
    .leaf k!"SHORT-NAME" [] "P".toList, .node k!"ELEMENTS" [] [] [.node k!"CONSTANT-SPECIFICATION" [] [] [
      .leaf k!"SHORT-NAME" [] "C".toList, .node k!"VALUE-SPEC" [] [] v]]]]]

/-- **C36 fails** for value specifications: an unsupported one ends loading with an exception in warning mode, too
(`UnboundLocalError`, `parser/arxml_parser.py:5392`), although the document can be read without it. -/
theorem C36_unbound_broken : Foreign k!"VENDOR-EXTENSION" ∧
    load Py.demo false (constDoc [.leaf k!"VENDOR-EXTENSION" [] []]) = .error .unbound ∧
    ∃ d, load Py.demo false (constDoc []) = .ok d := by
  refine ⟨foreign_vendor, isErr_sound (by decide +kernel), ?_⟩
  have h : (match load Py.demo false (constDoc []) with
      | .ok _ => true
      | .error _ => false) = true := by decide +kernel
  split at h
  · rename_i d hd; exact ⟨d, hd⟩
  · cases h

/-- the transport protocol of an application end point with the given children of `TP-CONFIGURATION` -/
def endpoint (v : List Xml) : Xml :=
  .node k!"APPLICATION-ENDPOINT" [] [] [.leaf k!"SHORT-NAME" [] "e".toList, .node k!"TP-CONFIGURATION" [] [] v]

def udp : Xml := .node k!"UDP-TP" [] [] []

noncomputable def tpOf (v : List Xml) : Except RErr (List (MObj Py.demo.F)) :=
  (readObj Py.demo false readers 6 k!"readSocketAddressApplicationEndpoint_ApplicationEndpoint" (endpoint v)).map (·.get k!"tpConfiguration")

/-- **C36 fails** where the reader takes the first child: an unsupported one hides the next. -/
theorem C36_first_broken : Foreign k!"VENDOR-EXTENSION" ∧ (∃ o, tpOf [udp] = .ok [o]) ∧
    tpOf [.leaf k!"VENDOR-EXTENSION" [] [], udp] = .ok [] := by
  have h : (match tpOf [udp], tpOf [.leaf k!"VENDOR-EXTENSION" [] [], udp] with
      | .ok [_], .ok [] => true
      | _, _ => false) = true := by decide +kernel
  refine ⟨foreign_vendor, ?_⟩
  split at h
  · rename_i o h1 h2; exact ⟨⟨o, h1⟩, h2⟩
  · cases h

end Verif.Props
