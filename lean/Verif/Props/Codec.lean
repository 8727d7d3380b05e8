import Verif.Lemmas.Layout
/-!
# C33, C34, C35, C37, C38: saving and loading
-/
namespace Verif.Props
open Verif Verif.Model Verif.Spec Verif.Lemmas

/-! ## C33, C34 -/

/-- **C33** The result of loading never depends on the recursion bound of the model, and the bound is never reached. -/
theorem C33_fuel (py : Py) (strict : Bool) (x : Xml) :
    load py strict x ≠ .error .fuel ∧
      ∀ n, x.depth ≤ n → readObj py strict readers n k!"load" x = readObj py strict readers x.depth k!"load" x := by
  refine ⟨?_, fun n hn => readObj_stable moving hn (Nat.le_refl _)⟩
  unfold load
  split
  · intro h; cases h
  · exact readObj_fuel (Nat.le_refl _) (by rw [readers_load]; rfl)

/-- **C33** Every document that was loaded and stays away from the listed defects is saved without an exception, and
loading what was saved gives the same document: the same objects with the same attributes in the same order, except that
the attributes in `savedSorted` are put in the order of the short names.  (Only the schema location is filled in.)
What is missing for the full claim are the defects in `Spec/Defects.lean`, see `Props/Defects.lean`. -/
theorem C33_partial (py : Py) (repr : py.F → Str) (strict : Bool) (x : Xml) (d : MObj py.F) (hl : load py strict x = .ok d)
    (hc : Clean lossy strict d) :
    ∃ y d', save py repr strict d = .ok y ∧ (∀ y', Reload y y' → load py strict y' = .ok d') ∧
      Same reordered (withSchema py d) d' := by
  obtain ⟨y, d', h1, h2, h3, _⟩ := document (repr := repr) hl hc
  exact ⟨y, d', h1, h2, h3⟩

/-- **C34** Saving the document that was loaded from a saved file gives exactly the XML that was saved before, and loading
that gives the document that was saved last: one cycle reaches a fixed point. -/
theorem C34_partial (py : Py) (repr : py.F → Str) (strict : Bool) (x : Xml) (d : MObj py.F) (hl : load py strict x = .ok d)
    (hc : Clean lossy strict d) (y : Xml) (hs : save py repr strict d = .ok y) (y' : Xml) (hy : Reload y y') (d' : MObj py.F)
    (hl' : load py strict y' = .ok d') : save py repr strict d' = .ok y ∧ ∀ y'', Reload y y'' → load py strict y'' = .ok d' := by
  obtain ⟨z, e, h1, h2, _, h4⟩ := document (repr := repr) hl hc
  rw [h1] at hs
  cases hs
  rw [h2 _ hy] at hl'
  cases hl'
  exact ⟨h4, h2⟩

/-- **C33, C34** for a part of a document: an object read with a reader method, written with the writer method for it and
read again; writing that again gives the same element. -/
theorem C33_object_partial (py : Py) (repr : py.F → Str) (strict : Bool) (n : Nat) (p : Pair) (hp : p ∈ pairs p.rk) (x : Xml)
    (o : MObj py.F) (hr : readObj py strict readers n p.rk x = .ok o) (hc : Clean lossy strict o) (he : ∀ m ∈ p.ex, m.ok strict o) :
    ∃ y o', writeObj py repr strict writers n p.wk o = .ok { kids := [y] } ∧ y.tag = p.tag ∧
      (∀ y', Reload y y' → readObj py strict readers n p.rk y' = .ok o') ∧ Same reordered o o' ∧
      writeObj py repr strict writers n p.wk o' = .ok { kids := [y] } := by
  obtain ⟨o', y, h⟩ := roundtrip (repr := repr) pairs_ok n p hp x o hr (clean_conds hr hc) he
  exact ⟨y, o', h.w1, h.tag, h.rd, h.same, h.w2⟩

/-! ### A document that meets the conditions -/

/-- sufficient for `Need.ok` -/
def okB {F : Type} (strict : Bool) : Need → MObj F → Bool
  | .empty f, o => (o.get f).isEmpty
  | .never f c, o => (o.get f).all fun v => v.cls != c
  | .oneOf fs, o => fs.any fun f => !(o.get f).isEmpty
  | .notBoth f g, o => (o.get f).isEmpty || (o.get g).isEmpty
  | .single f, o => Nat.ble (o.get f).length 1
  | .along f g, o => (o.get f).isEmpty || !(o.get g).isEmpty
  | .same f g, o => (o.get f).isEmpty && (o.get g).isEmpty
  | .full f, o => (o.get f).isEmpty
  | .plain f, o => (o.get f).isEmpty
  | .inside f n, o => (o.get f).all fun v => okB strict n v
  | .strict n, o => !strict || okB strict n o

theorem okB_sound {F : Type} {strict : Bool} {n : Need} {o : MObj F} (h : okB strict n o = true) : n.ok strict o := by
  induction n generalizing o with
  | empty f => simpa [okB, Need.ok] using h
  | never f c => intro v hv; simpa using List.all_eq_true.1 h v hv
  | oneOf fs =>
    obtain ⟨f, hf, h⟩ := List.any_eq_true.1 h
    exact ⟨f, hf, by simpa using h⟩
  | notBoth f g => simpa [okB, Need.ok] using h
  | single f => exact Nat.le_of_ble_eq_true h
  | along f g =>
    intro hf
    simp only [okB, Bool.or_eq_true, List.isEmpty_iff, hf, false_or] at h
    simpa using h
  | same f g =>
    simp only [okB, Bool.and_eq_true, List.isEmpty_iff] at h
    simp only [Need.ok, h.1, h.2]
  | full f => intro v hv; simp only [okB, List.isEmpty_iff] at h; rw [h] at hv; cases hv
  | plain f => intro v hv; simp only [okB, List.isEmpty_iff] at h; rw [h] at hv; cases hv
  | inside f n ih => intro v hv; exact ih (List.all_eq_true.1 h v hv)
  | strict n ih => intro hs; subst hs; exact ih (by simpa [okB] using h)

mutual
/-- sufficient for `Clean` -/
def cleanB {F : Type} (D : Key → List Need) (strict : Bool) : MObj F → Bool
  | .scal _ => true
  | .mk c fs => ((D c).all fun n => okB strict n (.mk c fs)) && cleanF D strict fs
def cleanF {F : Type} (D : Key → List Need) (strict : Bool) : List ((Key × Bool) × List (MObj F)) → Bool
  | [] => true
  | (_, vs) :: fs => cleanL D strict vs && cleanF D strict fs
def cleanL {F : Type} (D : Key → List Need) (strict : Bool) : List (MObj F) → Bool
  | [] => true
  | v :: vs => cleanB D strict v && cleanL D strict vs
end

theorem cleanL_mem {F : Type} {D : Key → List Need} {strict : Bool} {vs : List (MObj F)} (h : cleanL D strict vs = true) {v : MObj F} (hv : v ∈ vs) :
    cleanB D strict v = true := by
  induction vs with
  | nil => cases hv
  | cons u vs ih =>
    simp only [cleanL, Bool.and_eq_true] at h
    rcases List.mem_cons.1 hv with rfl | hv
    · exact h.1
    · exact ih h.2 hv

theorem cleanF_mem {F : Type} {D : Key → List Need} {strict : Bool} {fs : List ((Key × Bool) × List (MObj F))} (h : cleanF D strict fs = true)
    {e : (Key × Bool) × List (MObj F)} (he : e ∈ fs) {v : MObj F} (hv : v ∈ e.2) : cleanB D strict v = true := by
  induction fs with
  | nil => cases he
  | cons u fs ih =>
    simp only [cleanF, Bool.and_eq_true] at h
    rcases List.mem_cons.1 he with rfl | he
    · exact cleanL_mem h.1 hv
    · exact ih h.2 he

theorem cleanB_sound {F : Type} {D : Key → List Need} {strict : Bool} (o : MObj F) (h : cleanB D strict o = true) : Clean D strict o := by
  have hB : ∀ n (o : MObj F), o.depth ≤ n → cleanB D strict o = true → Clean D strict o := by
    intro n
    induction n with
    | zero => intro o h; have := mdepth_pos o; omega
    | succ n ih =>
      intro o hd h
      cases o with
      | scal s => exact .scal s
      | mk c fs =>
        simp only [cleanB, Bool.and_eq_true] at h
        refine .mk c fs (fun m hm => okB_sound (List.all_eq_true.1 h.1 m hm)) ?_
        intro e he v hv
        refine ih v ?_ (cleanF_mem h.2 he hv)
        have : v ∈ (MObj.mk c fs).get e.1.1 := List.mem_flatMap.2 ⟨e, he, by simp [hits, hv]⟩
        have := depth_get this
        omega
  exact hB _ o (Nat.le_refl _) h

/-- two packages in descending order; a unit, a composition with a port and a component -/
def demoDoc : Xml :=
  .node k!"AUTOSAR" [] [] [
    .node k!"AR-PACKAGES" [] [] [
      .node k!"AR-PACKAGE" [(k!"UUID", "1".toList)] [] [
        .leaf k!"SHORT-NAME" [] "Q".toList,
        .node k!"ELEMENTS" [] [] [
          .node k!"UNIT" [] [] [.leaf k!"SHORT-NAME" [] "metre".toList, .leaf k!"DISPLAY-NAME" [] "m".toList],
          .node k!"COMPOSITION-SW-COMPONENT-TYPE" [] [] [
            .leaf k!"SHORT-NAME" [] "Comp".toList,
            .leaf k!"CATEGORY" [(k!"T", "2020".toList)] "cat".toList,
            .node k!"PORTS" [] [] [.node k!"P-PORT-PROTOTYPE" [] [] [.leaf k!"SHORT-NAME" [] "p".toList]],
            .node k!"COMPONENTS" [] [] [.node k!"SW-COMPONENT-PROTOTYPE" [] [] [
              .leaf k!"SHORT-NAME" [] "c".toList,
              .leaf k!"TYPE-TREF" [(k!"DEST", "APPLICATION-SW-COMPONENT-TYPE".toList)] "/P/App".toList]]]]],
      .node k!"AR-PACKAGE" [] [] [.leaf k!"SHORT-NAME" [] "P".toList]]]

/-- the hypotheses of `C33_partial` hold for it, in both modes -/
example (strict : Bool) : ∃ d : MObj Py.demo.F, load Py.demo strict demoDoc = .ok d ∧ Clean lossy strict d := by
  have h : ∀ s : Bool, (match load Py.demo s demoDoc with
      | .ok d => cleanB lossy s d
      | .error _ => false) = true := by decide +kernel
  have := h strict
  split at this
  · rename_i d hd; exact ⟨d, hd, cleanB_sound d this⟩
  · cases this

/-! ## C37 -/

/-- the reader methods for special data -/
def sdgReaders : List Key := [k!"getSdg_Sdg", k!"readSdgCaption_SdgCaption", k!"readSd_Sd", k!"readSdf_Sdf"]

/-- the reader methods for admin data -/
def adminReaders : List Key := sdgReaders ++ [k!"getAdminData_AdminData", k!"getMultiLanguagePlainText_MultiLanguagePlainText",
  k!"getLParagraphs_LParagraph", k!"readAdminDataDocRevisions_DocRevision", k!"readDocRevisionModifications_Modification",
  k!"getMultiLanguageOverviewParagraph_MultiLanguageOverviewParagraph", k!"readLOverviewParagraph_LOverviewParagraph"]

/-- the methods only call each other, and none of their classes is in the list of defects -/
def closedB (K : List Key) : Bool := K.all fun k => match readers k with
  | none => true
  | some b => (conds b.cls).isEmpty && b.slots.all fun s => match s.item with
    | .objs alts => alts.all fun a => K.contains a.2
    | _ => true

theorem clean_nil {py : Py} {strict : Bool} (o : MObj py.F) : Clean (fun _ => []) strict o := by
  have hB : ∀ n (o : MObj py.F), o.depth ≤ n → Clean (fun _ => []) strict o := by
    intro n
    induction n with
    | zero => intro o h; have := mdepth_pos o; omega
    | succ n ih =>
      intro o h
      cases o with
      | scal s => exact .scal s
      | mk c fs =>
        refine .mk c fs (by intro n hn; cases hn) ?_
        intro e he v hv
        apply ih
        have : v ∈ (MObj.mk c fs).get e.1.1 := List.mem_flatMap.2 ⟨e, he, by simp [hits, hv]⟩
        have := depth_get this
        omega
  exact hB _ o (Nat.le_refl _)

theorem closed_clean {K : List Key} (hK : closedB K = true) {py : Py} {strict : Bool} {n : Nat} {k : Key} (hk : k ∈ K)
    {x : Xml} {o : MObj py.F} (h : readObj py strict readers n k x = .ok o) : Clean conds strict o := by
  refine clean_read (P := (· ∈ K)) (D := fun _ => []) ?_ ?_ hk h (clean_nil o)
  · intro k b hk hb s hs alts hi a ha
    have := List.all_eq_true.1 hK k hk
    simp only [hb, Bool.and_eq_true] at this
    have := List.all_eq_true.1 this.2 s hs
    rw [hi] at this
    simpa using List.all_eq_true.1 this a ha
  · intro n k x o hk h _ m hm
    have := List.all_eq_true.1 hK k hk
    obtain ⟨_, b, fs, _, hb, rfl, _⟩ := read_fields h
    simp only [hb, Bool.and_eq_true, List.isEmpty_iff] at this
    rw [MObj.cls, this.1] at hm
    cases hm

/-- **C37** Special data groups of any nesting depth, without any condition: what was read from an `SDG` element is the same
after it was written and read again. -/
theorem C37_sdg (py : Py) (repr : py.F → Str) (strict : Bool) (n : Nat) (x : Xml) (o : MObj py.F)
    (hr : readObj py strict readers n k!"getSdg_Sdg" x = .ok o) :
    ∃ y o', writeObj py repr strict writers n k!"setSdg_Sdg" o = .ok { kids := [y] } ∧ y.tag = k!"SDG" ∧
      (∀ y', Reload y y' → readObj py strict readers n k!"getSdg_Sdg" y' = .ok o') ∧ Same reordered o o' := by
  have hc : Clean conds strict o := closed_clean (K := sdgReaders) (by decide +kernel) (by decide) hr
  have hp : (pairs k!"getSdg_Sdg").contains ⟨k!"getSdg_Sdg", k!"setSdg_Sdg", k!"SDG", []⟩ = true := by decide +kernel
  obtain ⟨o', y, h⟩ := roundtrip (repr := repr) pairs_ok n ⟨k!"getSdg_Sdg", k!"setSdg_Sdg", k!"SDG", []⟩ (by simpa using hp) x o hr hc
    (by intro m hm; cases hm)
  exact ⟨y, o', h.w1, h.tag, h.rd, h.same⟩

/-- **C37** Admin data: language, used languages, doc revisions and special data, without any condition. -/
theorem C37_adminData (py : Py) (repr : py.F → Str) (strict : Bool) (n : Nat) (x : Xml) (o : MObj py.F)
    (hr : readObj py strict readers n k!"getAdminData_AdminData" x = .ok o) :
    ∃ y o', writeObj py repr strict writers n k!"setAdminData_AdminData" o = .ok { kids := [y] } ∧ y.tag = k!"ADMIN-DATA" ∧
      (∀ y', Reload y y' → readObj py strict readers n k!"getAdminData_AdminData" y' = .ok o') ∧ Same reordered o o' := by
  have hc : Clean conds strict o := closed_clean (K := adminReaders) (by decide +kernel) (by decide) hr
  have hp : (pairs k!"getAdminData_AdminData").contains ⟨k!"getAdminData_AdminData", k!"setAdminData_AdminData", k!"ADMIN-DATA", []⟩ = true := by
    decide +kernel
  obtain ⟨o', y, h⟩ := roundtrip (repr := repr) pairs_ok n ⟨k!"getAdminData_AdminData", k!"setAdminData_AdminData", k!"ADMIN-DATA", []⟩
    (by simpa using hp) x o hr hc (by intro m hm; cases hm)
  exact ⟨y, o', h.w1, h.tag, h.rd, h.same⟩

/-- admin data with a used language, a revision and nested special data -/
def demoAdmin : Xml :=
  .node k!"ADMIN-DATA" [] [] [
    .leaf k!"LANGUAGE" [] "EN".toList,
    .node k!"USED-LANGUAGES" [] [] [.leaf k!"L-10" [(k!"L", "EN".toList)] "en".toList],
    .node k!"DOC-REVISIONS" [] [] [.node k!"DOC-REVISION" [] [] [.leaf k!"REVISION-LABEL" [] "1.0.0".toList]],
    .node k!"SDGS" [] [] [.node k!"SDG" [(k!"GID", "g".toList)] [] [
      .leaf k!"SD" [(k!"GID", "a".toList)] "1".toList,
      .node k!"SDG" [(k!"GID", "h".toList)] [] [.leaf k!"SD" [] "2".toList]]]]

example (strict : Bool) : ∃ o : MObj Py.demo.F, readObj Py.demo strict readers 5 k!"getAdminData_AdminData" demoAdmin = .ok o ∧
    (o.get k!"sdgs").length = 1 ∧ (o.get k!"DocRevisions").length = 1 ∧ (o.get k!"usedLanguages").length = 1 := by
  have h : ∀ s : Bool, (match readObj Py.demo s readers 5 k!"getAdminData_AdminData" demoAdmin with
      | .ok d => (d.get k!"sdgs").length == 1 && (d.get k!"DocRevisions").length == 1 && (d.get k!"usedLanguages").length == 1
      | .error _ => false) = true := by decide +kernel
  have := h strict
  split at this
  · rename_i d hd
    simp only [Bool.and_eq_true, beq_iff_eq] at this
    exact ⟨d, hd, this.1.1, this.1.2, this.2⟩
  · cases this

/-! ## C35, C38 -/

/-- the kinds of elements the writer does not write, or not as one element -/
def notWritten : List Key := [k!"TriggerInterface", k!"EcucValueCollection", k!"ModeDeclarationMappingSet"]

/-- the branches for the elements of a package -/
def packageCases : List Case := match Gen.W.writeARPackageElements_ARPackage with
  | .wrap _ _ (.each _ _ _ cs _ _) _ => cs
  | _ => []

theorem package_writers : (packageTags.all fun e => notWritten.contains e.2 || match caseOf packageCases e.2 with
    | none => false
    | some w => match writers w with
      | none => false
      | some W => oneElement e.1 W) = true := by decide +kernel

theorem package_elements : Gen.W.writeARPackageElements_ARPackage =
    .wrap (.any [(k!"elements", [])]) k!"ELEMENTS" (.each k!"elements" [] .plain packageCases .unsupported .nil) .nil := rfl

/-- **C35, C38** The elements of a package are written in the order of their creation, each as one element with the tag the
reader makes its class from and with its short name; none is dropped or repeated.  (The classes in `notWritten` are
missing, see `C35_broken`.) -/
theorem C35_C38_elements_partial (py : Py) (repr : py.F → Str) (strict : Bool) (n : Nat) (p : MObj py.F) (ts : List Key)
    (hts : List.Forall₂ (fun e t => (t, e.cls) ∈ packageTags ∧ e.cls ∉ notWritten ∧ Named e) (p.get k!"elements") ts) (hne : ts ≠ [])
    (out : Out) (h : writeB py repr strict (writeObj py repr strict writers n) p Gen.W.writeARPackageElements_ARPackage = .ok out) :
    ∃ ys, out.kids = [.node k!"ELEMENTS" [] [] ys] ∧ ys.map Xml.tag = ts ∧
      ys.map shownName = (p.get k!"elements").map (fun e => some e.name) := by
  rw [package_elements] at h
  have hE : p.get k!"elements" ≠ [] := by intro h0; rw [h0] at hts; cases hts; exact hne rfl
  simp only [writeB] at h
  obtain ⟨x, y, hx, hy, rfl⟩ := seqE_ok h
  cases hy
  rw [if_pos (by simp [Cond.holds, MObj.view, hE])] at hx
  obtain ⟨z, hz, rfl⟩ := map_ok hx
  obtain ⟨a, b, ha, hb, rfl⟩ := seqE_ok hz
  cases hb
  obtain ⟨os, hos, rfl⟩ := map_ok ha
  have hf : List.Forall₂ (fun (e : MObj py.F) (o : Out) => writeCase py strict (writeObj py repr strict writers n) packageCases .unsupported e = .ok o)
      (p.get k!"elements") os := mapE_ok hos
  clear hos hx hz ha h hE hne
  have key : ∃ ys, List.Forall₂ (fun (o : Out) y => o = { kids := [y] }) os ys ∧ ys.map Xml.tag = ts ∧
      ys.map shownName = (p.get k!"elements").map (fun e => some e.name) := by
    generalize p.get k!"elements" = es at *
    induction hts generalizing os with
    | nil => cases hf; exact ⟨[], .nil, rfl, rfl⟩
    | cons h1 _ ih =>
      cases hf with
      | cons h2 hf =>
        obtain ⟨ys, h3, h4, h5⟩ := ih _ hf
        obtain ⟨hmem, hnw, v, hv⟩ := h1
        have hw := List.all_eq_true.1 package_writers _ hmem
        simp only [Bool.or_eq_true, List.contains_iff_mem, hnw, false_or] at hw
        split at hw
        · cases hw
        rename_i w hcase
        split at hw
        · cases hw
        rename_i W hW
        simp only [caseOf, Option.map_eq_some_iff] at hcase
        obtain ⟨c, hc, rfl⟩ := hcase
        simp only [writeCase, hc] at h2
        cases n with
        | zero => cases h2
        | succ n =>
          simp only [writeObj, hW] at h2
          obtain ⟨y, hy1, hy2, hy3⟩ := oneElement_sound hw hv h2
          refine ⟨y :: ys, .cons hy1 h3, by simp [hy2, h4], ?_⟩
          simp only [List.map_cons, h5, hy3, MObj.name, hv, MObj.str]
  obtain ⟨ys, h1, h2, h3⟩ := key
  refine ⟨ys, ?_, h2, h3⟩
  simp [Out.app, Out.node, Arr.outs, outs_each h1]

/-- **C35 fails** for trigger interfaces, in both modes: nothing is written. -/
theorem C35_broken (py : Py) (repr : py.F → Str) (strict : Bool) :
    (k!"TRIGGER-INTERFACE", k!"TriggerInterface") ∈ packageTags ∧
    ∃ p : MObj py.F, (p.get k!"elements").map MObj.cls = [k!"TriggerInterface"] ∧
      ∃ out, writeB py repr strict (writeObj py repr strict writers 1) p Gen.W.writeARPackageElements_ARPackage = .ok out ∧
        out.kids = [.node k!"ELEMENTS" [] [] []] := by
  refine ⟨by decide +kernel, .mk k!"ARPackage" [((k!"elements", true), [.mk k!"TriggerInterface" []])], rfl, _, rfl, rfl⟩

/-- **C35 fails** for ECU value collections: in strict mode the writer raises, in warning mode nothing is written. -/
theorem C35_broken_collection (py : Py) (repr : py.F → Str) :
    (k!"ECUC-VALUE-COLLECTION", k!"EcucValueCollection") ∈ packageTags ∧
    ∃ p : MObj py.F, (p.get k!"elements").map MObj.cls = [k!"EcucValueCollection"] ∧
      writeB py repr true (writeObj py repr true writers 1) p Gen.W.writeARPackageElements_ARPackage = .error .notImplemented ∧
      ∃ out, writeB py repr false (writeObj py repr false writers 1) p Gen.W.writeARPackageElements_ARPackage = .ok out ∧
        out.kids = [.node k!"ELEMENTS" [] [] []] := by
  refine ⟨by decide +kernel, .mk k!"ARPackage" [((k!"elements", true), [.mk k!"EcucValueCollection" []])], rfl, rfl, _, rfl, rfl⟩

theorem package_body : writers k!"writeARPackage_ARPackage" = some Gen.W.writeARPackage_ARPackage ∧
    oneElement k!"AR-PACKAGE" Gen.W.writeARPackage_ARPackage = true := by
  constructor
  · rfl
  · decide +kernel

/-- the packages of a package or a document as they are listed -/
theorem packages_written {py : Py} {repr : py.F → Str} {strict : Bool} {n : Nat} {p : MObj py.F}
    (hp : ∀ q ∈ p.get k!"arPackages", q.inst [k!"ARPackage"] = true ∧ Named q) (hne : p.get k!"arPackages" ≠ []) {out : Out}
    (h : writeB py repr strict (writeObj py repr strict writers n) p (.wrap (.any [(k!"arPackages", [])]) k!"AR-PACKAGES"
      (.each k!"arPackages" [] .sorted [⟨[(false, [k!"ARPackage"])], [], k!"writeARPackage_ARPackage"⟩] .unsupported .nil) .nil) = .ok out) :
    ∃ ys, out.kids = [.node k!"AR-PACKAGES" [] [] ys] ∧ (∀ y ∈ ys, y.tag = k!"AR-PACKAGE") ∧
      ys.map shownName = (byName (p.get k!"arPackages")).map (fun q => some q.name) := by
  simp only [writeB] at h
  obtain ⟨x, y, hx, hy, rfl⟩ := seqE_ok h
  cases hy
  rw [if_pos (by simp [Cond.holds, MObj.view, hne])] at hx
  obtain ⟨z, hz, rfl⟩ := map_ok hx
  obtain ⟨a, b, ha, hb, rfl⟩ := seqE_ok hz
  cases hb
  obtain ⟨os, hos, rfl⟩ := map_ok ha
  obtain ⟨ys, h1, h2⟩ := mapE_forall₂ (Q := fun (o : Out) y => o = { kids := [y] }) (R := fun (q : MObj py.F) (y : Xml) => y.tag = k!"AR-PACKAGE" ∧ shownName y = some q.name)
    hos (by
      intro q hq o ho
      have hq : q ∈ p.get k!"arPackages" := mem_byName.1 hq
      obtain ⟨hi, v, hv⟩ := hp q hq
      have ht : (⟨[(false, [k!"ARPackage"])], [], k!"writeARPackage_ARPackage"⟩ : Case).takes q.cls = true := by
        simpa [Case.takes, MObj.inst] using hi
      simp only [writeCase, List.find?_cons, ht] at ho
      cases n with
      | zero => cases ho
      | succ n =>
        simp only [writeObj, package_body.1] at ho
        obtain ⟨y, hy1, hy2, hy3⟩ := oneElement_sound package_body.2 hv ho
        refine ⟨y, hy1, hy2, ?_⟩
        rw [hy3]
        simp only [MObj.name, hv, MObj.str])
  refine ⟨ys, ?_, ?_, ?_⟩
  · simp [Out.app, Out.node, Arr.outs, outs_each h1]
  · intro y hy
    clear h1 hos hx hz ha h
    simp only [Arr.sort, if_true, MObj.view] at h2
    generalize byName (p.get k!"arPackages") = l at h2
    induction h2 with
    | nil => cases hy
    | cons h3 _ ih =>
      rcases List.mem_cons.1 hy with rfl | hy
      · exact h3.1
      · exact ih hy
  · exact forall₂_map_eq (h2.imp fun _ _ h => h.2)

theorem byName_names {F : Type} (l : List (MObj F)) :
    ((byName l).map fun q => some q.name).Perm (l.map fun q => some q.name) ∧
      ((byName l).map fun q => String.ofList q.name).Pairwise (· ≤ ·) := by
  refine ⟨(sortBy_perm _ _).map _, ?_⟩
  rw [List.pairwise_map]
  exact sortBy_sorted _ _

/-- **C38** The sub-packages of a package are listed last in its element, in ascending order of their short names, none
dropped and none repeated. -/
theorem C38_packages (py : Py) (repr : py.F → Str) (strict : Bool) (n : Nat) (p : MObj py.F)
    (hp : ∀ q ∈ p.get k!"arPackages", q.inst [k!"ARPackage"] = true ∧ Named q) (hne : p.get k!"arPackages" ≠ []) (out : Out)
    (h : writeObj py repr strict writers n k!"writeARPackage_ARPackage" p = .ok out) :
    ∃ (y : Xml) (ys : List Xml) (names : List Str), out.kids = [y] ∧ y.kids.getLast? = some (.node k!"AR-PACKAGES" [] [] ys) ∧ (∀ z ∈ ys, z.tag = k!"AR-PACKAGE") ∧
      ys.map shownName = names.map some ∧ names.Perm ((p.get k!"arPackages").map MObj.name) ∧
      (names.map String.ofList).Pairwise (· ≤ ·) := by
  cases n with
  | zero => cases h
  | succ n =>
    simp only [writeObj, package_body.1] at h
    unfold Gen.W.writeARPackage_ARPackage at h
    simp only [writeB, Cond.holds, if_true] at h
    obtain ⟨x, y, hx, hy, rfl⟩ := seqE_ok h
    cases hy
    obtain ⟨z, hz, rfl⟩ := map_ok hx
    obtain ⟨a1, b1, _, hb1, hk1⟩ := writeB_app hz
    simp only [writeB] at hb1
    obtain ⟨a2, b2, _, hb2, rfl⟩ := seqE_ok hb1
    obtain ⟨a3, b3, _, hb3, hk3⟩ := writeB_app hb2
    obtain ⟨ys, h1, h2, h3⟩ := packages_written hp hne hb3
    refine ⟨_, ys, (byName (p.get k!"arPackages")).map MObj.name, rfl, ?_, h2, ?_, ?_, ?_⟩
    · simp only [Out.node, Xml.kids, hk1, Out.app, hk3, h1]
      simp
    · rw [h3, List.map_map]; rfl
    · exact (sortBy_perm _ _).map _
    · have := (byName_names (p.get k!"arPackages")).2
      rw [List.map_map]
      exact this

/-- **C38** The same for the packages of a document. -/
theorem C38_document (py : Py) (repr : py.F → Str) (strict : Bool) (d : MObj py.F)
    (hp : ∀ q ∈ d.get k!"arPackages", q.inst [k!"ARPackage"] = true ∧ Named q) (hne : d.get k!"arPackages" ≠ []) (y : Xml)
    (h : save py repr strict d = .ok y) :
    ∃ (ys : List Xml) (names : List Str), y.kids.getLast? = some (.node k!"AR-PACKAGES" [] [] ys) ∧ (∀ z ∈ ys, z.tag = k!"AR-PACKAGE") ∧
      ys.map shownName = names.map some ∧ names.Perm ((d.get k!"arPackages").map MObj.name) ∧
      (names.map String.ofList).Pairwise (· ≤ ·) := by
  have hget : (withSchema py d).get k!"arPackages" = d.get k!"arPackages" := by
    unfold withSchema
    split
    swap
    · rfl
    cases d with
    | scal s => rfl
    | mk c fs =>
      simp only [MObj.get, MObj.fields, List.flatMap_map]
      rename_i h0
      simp only [MObj.get, MObj.fields, List.flatMap_eq_nil_iff] at h0
      clear hp hne h
      congr 1
      funext e
      by_cases hk : e.1.1 = k!"schema_location"
      · rw [if_pos hk]
        have e1 : hits k!"arPackages" e.1 = false := by
          simp only [hits, hk]
          cases e.1.2 <;> decide
        simp [e1]
      · rw [if_neg hk]
  simp only [save] at h
  split at h
  · cases h
  rename_i out hout
  split at h
  swap
  · cases h
  rename_i z hz
  cases h
  generalize hd : withSchema py d = e at *
  obtain ⟨m, hm⟩ : ∃ m, e.depth = m + 1 := ⟨e.depth - 1, by have := mdepth_pos e; omega⟩
  rw [hm] at hout
  simp only [writeObj, writers_save] at hout
  unfold saveBody at hout
  simp only [writeB, Cond.holds, if_true] at hout
  obtain ⟨x, y', hx, hy, rfl⟩ := seqE_ok hout
  cases hy
  obtain ⟨w, hw, rfl⟩ := map_ok hx
  obtain ⟨a1, b1, _, hb1, rfl⟩ := seqE_ok hw
  obtain ⟨a2, b2, _, hb2, rfl⟩ := seqE_ok hb1
  rw [← hget] at hp hne
  obtain ⟨ys, h1, h2, h3⟩ := packages_written (n := m) hp hne hb2
  simp only [Out.app, List.append_nil, List.cons.injEq, and_true] at hz
  subst hz
  rw [hget] at h3
  refine ⟨ys, (byName (d.get k!"arPackages")).map MObj.name, ?_, h2, ?_, ?_, ?_⟩
  · simp only [Out.node, Xml.kids, h1]
    simp
  · rw [h3, List.map_map]; rfl
  · exact (sortBy_perm _ _).map _
  · have := (byName_names (d.get k!"arPackages")).2
    rw [List.map_map]
    exact this

/-- a package with two sub-packages -/
def demoPackage (F : Type) : MObj F := .mk k!"ARPackage" [((k!"short_name", false), [.scal (.str "P".toList)]), ((k!"arPackages", false),
    [.mk k!"ARPackage" [((k!"short_name", false), [.scal (.str "B".toList)])],
     .mk k!"ARPackage" [((k!"short_name", false), [.scal (.str "A".toList)])]])]

/-- it is written -/
example (strict : Bool) : ∃ out,
    (∀ q ∈ (demoPackage Py.demo.F).get k!"arPackages", q.inst [k!"ARPackage"] = true ∧ Named q) ∧
    writeObj Py.demo (fun _ => []) strict writers 2 k!"writeARPackage_ARPackage" (demoPackage _) = .ok out := by
  have h : ∀ s : Bool, (match writeObj Py.demo (fun _ => []) s writers 2 k!"writeARPackage_ARPackage" (demoPackage _) with
      | .ok _ => true
      | .error _ => false) = true := by decide +kernel
  have := h strict
  split at this
  · rename_i out ho
    refine ⟨out, ?_, ho⟩
    intro q hq
    have hq : q ∈ [MObj.mk k!"ARPackage" [((k!"short_name", false), [MObj.scal (Scalar.str "B".toList)])],
       MObj.mk k!"ARPackage" [((k!"short_name", false), [.scal (.str "A".toList)])]] := hq
    simp only [List.mem_cons, List.not_mem_nil, or_false] at hq
    rcases hq with rfl | rfl
    · exact ⟨by decide +kernel, _, rfl⟩
    · exact ⟨by decide +kernel, _, rfl⟩
  · cases this

/-- the elements of a package that meet the conditions of `C35_C38_elements_partial` and are written -/
def demoElements (F : Type) : MObj F := .mk k!"ARPackage" [((k!"short_name", false), [.scal (.str "P".toList)]), ((k!"elements", true),
    [.mk k!"Unit" [((k!"short_name", false), [.scal (.str "m".toList)])],
     .mk k!"ISignal" [((k!"short_name", false), [.scal (.str "a".toList)])]])]

example (strict : Bool) : ∃ out,
    List.Forall₂ (fun (e : MObj Py.demo.F) t => (t, e.cls) ∈ packageTags ∧ e.cls ∉ notWritten ∧ Named e)
      ((demoElements Py.demo.F).get k!"elements") [k!"UNIT", k!"I-SIGNAL"] ∧
    writeB Py.demo (fun _ => []) strict (writeObj Py.demo (fun _ => []) strict writers 2) (demoElements _)
      Gen.W.writeARPackageElements_ARPackage = .ok out := by
  have h : ∀ s : Bool, (match writeB Py.demo (fun _ => []) s (writeObj Py.demo (fun _ => []) s writers 2) (demoElements _)
      Gen.W.writeARPackageElements_ARPackage with
      | .ok _ => true
      | .error _ => false) = true := by decide +kernel
  have := h strict
  split at this
  · rename_i out ho
    refine ⟨out, ?_, ho⟩
    exact .cons ⟨by decide +kernel, by decide, _, rfl⟩ (.cons ⟨by decide +kernel, by decide, _, rfl⟩ .nil)
  · cases this

end Verif.Props
