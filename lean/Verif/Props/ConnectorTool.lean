import Verif.Lemmas.ConnectorUpdate
import Verif.Props.ListTool
import Verif.Props.Modes
/-!
# C64, C65: `connector-update` and `connector2xlsx` on files
-/
namespace Verif.Props
open Verif Verif.Model Verif.Spec Verif.Lemmas

/-! ### Lemmas -/

section
variable {py : Py} {strict : Bool}

theorem need_lenient {F : Type} {m : Need} {o : MObj F} (h : m.ok strict o) : m.ok false o := by
  induction m generalizing o with
  | inside f n ih => intro v hv; exact ih (h v hv)
  | strict n ih => intro h; cases h
  | _ => exact h

theorem shaped_lenient {n : Nat} {k : Key} {o : MObj py.F} (h : Shaped strict readers invariants n k o) : Shaped false readers invariants n k o := by
  induction n generalizing k o with
  | zero => exact h.elim
  | succ n ih =>
    obtain ⟨b, vss, hb, ho, hs, hn, hI⟩ := h
    refine ⟨b, vss, hb, ho, hs.imp fun s vs hf => ?_, hn, fun m hm => need_lenient (hI m hm)⟩
    exact ⟨fun v hv => valueOf_mono (fun k v h => ih h) (hf.kinds v hv), hf.one, fun h0 => ⟨(hf.set h0).1, fun _ => rfl, (hf.set h0).2.2⟩⟩

theorem load_shaped {x : Xml} {d : MObj py.F} (h : load py strict x = .ok d) : ∃ n, Shaped strict readers invariants n k!"load" d := by
  refine C63_fits py strict [x] d ?_
  simp only [loadAll, foldE, load_newDoc h]

/-- what becomes of the elements of a document -/
theorem elements_updated {table : List (String × List ConnRow)} (hne : ∀ e ∈ table, ∀ r ∈ e.2, rowName r ≠ "") (hnd : (table.map Prod.fst).Nodup)
    {m : Nat} {d d' : MObj py.F} (hd : Shaped false readers invariants m k!"load" d) (h : updateTable table d = .ok d') (ns : List Str) (n : Str) :
    (∀ w, ElementAt d ns n w → ∃ w', ElementAt d' ns n w' ∧ UpdatedElement table w w') ∧
    (∀ w', ElementAt d' ns n w' → ∃ w, ElementAt d ns n w ∧ UpdatedElement table w w') := by
  induction table generalizing d m with
  | nil =>
    cases h
    have : ∀ w : MObj py.F, UpdatedElement [] w w := fun w => ⟨fun rows h => (by cases h), fun _ => rfl⟩
    exact ⟨fun w hw => ⟨w, hw, this w⟩, fun w hw => ⟨w, hw, this w⟩⟩
  | cons e table ih =>
    simp only [updateTable, foldE] at h
    split at h
    · cases h
    rename_i d1 h1
    rw [List.map_cons, List.nodup_cons] at hnd
    have hk : k!"load" ∈ pkgMethods := by decide
    have hfit : RowsFit false e.2 := fun r hr => ⟨hne e (by simp) r hr, fun h => by cases h⟩
    have hd1 := locate_shaped (fun _ _ => updateElement_kept) (updateElement_shaped hfit) hk hd h1
    obtain ⟨a1, a2⟩ := locate_elements (fun _ _ => updateElement_kept) hk hd h1 ns n
    obtain ⟨b1, b2⟩ := ih (fun e he => hne e (by simp [he])) hnd.2 hd1 h
    have comp : ∀ w w1 w' : MObj py.F, updateElement e.1.toList e.2 w = .ok w1 → (∃ m k, Shaped false readers invariants m k w) →
        UpdatedElement table w1 w' → UpdatedElement (e :: table) w w' := by
      rintro w w1 w' hu ⟨m, k, hsh⟩ ⟨c1, c2⟩
      obtain ⟨e1, e2⟩ := updateElement_spec hsh hu
      obtain ⟨hname, hcls⟩ := updateElement_kept hu
      have hiff : w.name = e.1.toList ↔ String.ofList w.name = e.1 := by
        constructor
        · intro h; rw [h]; exact String.ofList_toList
        · intro h; rw [← h]; exact String.toList_ofList.symm
      constructor
      · intro rows hr hsw
        rcases List.mem_cons.1 hr with rfl | hr
        · obtain ⟨hc, hup⟩ := e1 hsw (hiff.2 rfl)
          have : w' = w1 := c2 (.inr (by rw [hname]; exact hnd.1))
          rw [this]
          exact ⟨hc, hup⟩
        · have hne : w.name ≠ e.1.toList := fun h => hnd.1 (by rw [← hiff.1 h]; exact List.mem_map_of_mem hr)
          have : w1 = w := e2 (.inr hne)
          subst this
          exact c1 rows hr hsw
      · intro hn
        have h2 : w1 = w := e2 (hn.imp id fun h h' => h (by rw [List.map_cons, hiff.1 h']; simp))
        subst h2
        exact c2 (hn.imp id fun h h' => h (by rw [List.map_cons]; exact List.mem_cons_of_mem _ h'))
    constructor
    · intro w hw
      obtain ⟨w1, hw1, hu, hsh⟩ := a1 w hw
      obtain ⟨w', hw', hu'⟩ := b1 w1 hw1
      exact ⟨w', hw', comp w w1 w' hu hsh hu'⟩
    · intro w' hw'
      obtain ⟨w1, hw1, hu'⟩ := b2 w' hw'
      obtain ⟨w, hw, hu, hsh⟩ := a2 w1 hw1
      exact ⟨w, hw, comp w w1 w' hu hsh hu'⟩

theorem addTo_nodup {t : List (String × List ConnRow)} (h : (t.map Prod.fst).Nodup) (n : String) (l : List ConnRow) :
    ((addTo t n l).map Prod.fst).Nodup ∧ ∀ m, m ∈ (addTo t n l).map Prod.fst → m ∈ t.map Prod.fst ∨ m = n := by
  induction t with
  | nil => simp [addTo]
  | cons e t ih =>
    obtain ⟨k, v⟩ := e
    rw [List.map_cons, List.nodup_cons] at h
    simp only [addTo]
    split
    · rename_i hk
      exact ⟨by rw [List.map_cons, List.nodup_cons]; exact h, fun m hm => .inl hm⟩
    · rename_i hk
      obtain ⟨h1, h2⟩ := ih h.2
      refine ⟨?_, fun m hm => ?_⟩
      · rw [List.map_cons, List.nodup_cons]
        refine ⟨fun hm => ?_, h1⟩
        rcases h2 _ hm with hm | hm
        · exact h.1 hm
        · exact hk hm
      · rw [List.map_cons] at hm ⊢
        rcases List.mem_cons.1 hm with rfl | hm
        · exact .inl (by simp)
        · exact (h2 m hm).imp (fun h => List.mem_cons_of_mem _ h) id

theorem sheets_nodup {r r' : XlsReader} {l : List Sheet} (h : r.sheets l = .ok r') (hr : (r.table.map Prod.fst).Nodup) : (r'.table.map Prod.fst).Nodup := by
  induction l generalizing r with
  | nil => cases h; exact hr
  | cons s l ih =>
    simp only [XlsReader.sheets] at h
    split at h
    · cases h
    rename_i r1 h1
    refine ih h ?_
    unfold XlsReader.sheet at h1
    split at h1
    · simp only at h1
      split at h1
      · cases hm : s.rows.mapM (readDelegation (columnTitles r.dcCols 0 s.titles)) with
        | error e => rw [hm] at h1; cases h1
        | ok l => rw [hm] at h1; cases h1; exact (addTo_nodup hr _ _).1
      · cases h1
    · simp only at h1
      split at h1
      · cases hm : s.rows.mapM (readAssembly (columnTitles r.acCols 0 s.titles)) with
        | error e => rw [hm] at h1; cases h1
        | ok l => rw [hm] at h1; cases h1; exact (addTo_nodup hr _ _).1
      · cases h1

/-- the texts of an updated document -/
theorem locate_Q {Q : Str → Prop} {f : MObj py.F → Except PyErr (MObj py.F)} (hf : ∀ v v', ObjQ Q v → f v = .ok v' → ObjQ Q v')
    {n : Nat} {k : Key} (hk : k ∈ pkgMethods) {o o' : MObj py.F} (ho : Shaped strict readers invariants n k o) (hq : ObjQ Q o)
    (h : locatePkg f o = .ok o') : ObjQ Q o' := by
  induction n generalizing k o o' with
  | zero => exact ho.elim
  | succ n ih =>
    obtain ⟨b, vss, hb, rfl, hs, hnames, hI⟩ := ho
    obtain ⟨fs', rfl, hr⟩ := locatePkg_ok h
    obtain ⟨hsl, _⟩ := pkg_body hk hb
    refine .mk _ _ fun e' he' v' hv' => ?_
    obtain ⟨e, he, hee⟩ := forall₂_right hr he'
    obtain ⟨s, hs1, hkey, hfit⟩ := forall₂_zip hs he
    obtain ⟨v, hv, hvv⟩ := forall₂_right hee.2 hv'
    have hqv : ObjQ Q v := by
      cases hq with
      | mk _ _ hq => exact hq e he v hv
    unfold Located at hvv
    rw [← hkey] at hvv
    by_cases hp : s.key.1 = k!"arPackages"
    · rw [if_pos hp] at hvv
      exact ih pkgMethods_pkg (pkg_of_value (hsl s hs1) hp (hfit.kinds v hv)) hqv hvv
    · rw [if_neg hp] at hvv
      split at hvv
      · exact hf v v' hqv hvv
      · rw [hvv]; exact hqv

theorem newNamed_Q {Q : Str → Prop} (k : Key) {n : Str} (h : Q n) : ObjQ Q (newNamed k n : MObj py.F) := by
  unfold newNamed
  split
  · exact .mk _ _ fun e he => by cases he
  · refine .mk _ _ fun e he v hv => ?_
    obtain ⟨s, _, rfl⟩ := List.mem_map.1 he
    simp only at hv
    split at hv
    · rw [List.mem_singleton] at hv
      rw [hv]
      exact .scal _ h
    · cases hv

theorem updateElement_Q {Q : Str → Prop} {n : Str} {rows : List ConnRow} (hr : ∀ r ∈ rows, Q (rowName r).toList) (v v' : MObj py.F) (hq : ObjQ Q v)
    (h : updateElement n rows v = .ok v') : ObjQ Q v' := by
  unfold updateElement at h
  split at h
  swap
  · cases h; exact hq
  obtain ⟨c, fs, rfl, _, _, rfl⟩ := updateConnectors_ok h
  refine .mk _ _ fun e he u hu => ?_
  obtain ⟨e0, he0, rfl⟩ := List.mem_map.1 he
  cases hq with
  | mk _ _ hq =>
    split at hu
    · rcases List.mem_append.1 hu with hu | hu
      · exact hq e0 he0 u (List.mem_filter.1 hu).1
      · obtain ⟨r, hr', rfl⟩ := List.mem_map.1 hu
        exact newNamed_Q _ (hr r ((newRows_names _ rows).2.2 r hr'))
    · exact hq e0 he0 u hu

theorem updateTable_Q {Q : Str → Prop} {table : List (String × List ConnRow)} (hne : ∀ e ∈ table, ∀ r ∈ e.2, rowName r ≠ "")
    (hr : ∀ e ∈ table, ∀ r ∈ e.2, Q (rowName r).toList) {m : Nat} {d d' : MObj py.F}
    (hd : Shaped false readers invariants m k!"load" d) (hq : ObjQ Q d) (h : updateTable table d = .ok d') : ObjQ Q d' := by
  unfold updateTable at h
  induction table generalizing d m with
  | nil => cases h; exact hq
  | cons e table ih =>
    simp only [foldE] at h
    split at h
    · cases h
    rename_i d1 h1
    have hk : k!"load" ∈ pkgMethods := by decide
    have hfit : RowsFit false e.2 := fun r hr => ⟨hne e (by simp) r hr, fun h => by cases h⟩
    exact ih (fun e he => hne e (by simp [he])) (fun e he => hr e (by simp [he]))
      (locate_shaped (fun _ _ => updateElement_kept) (updateElement_shaped hfit) hk hd h1)
      (locate_Q (updateElement_Q (hr e (by simp))) hk hd hq h1) h

end

/-! ### C64 -/

/-- **C64** What `connector-update` does with a document that was loaded from a file: every element of every package stays at its place, and no
others appear; the compositions named in the table are changed as `UpdatedComposition` says, everything else is as before. -/
theorem C64_elements (py : Py) (strict : Bool) (x : Xml) (d d' : MObj py.F) (hl : load py strict x = .ok d) (sheets : List Sheet) (r : XlsReader)
    (hr : XlsReader.new.sheets sheets = .ok r) (hne : ∀ e ∈ r.table, ∀ row ∈ e.2, rowName row ≠ "") (h : updateTable r.table d = .ok d')
    (ns : List Str) (n : Str) :
    (∀ w, ElementAt d ns n w → ∃ w', ElementAt d' ns n w' ∧ UpdatedElement r.table w w') ∧
    (∀ w', ElementAt d' ns n w' → ∃ w, ElementAt d ns n w ∧ UpdatedElement r.table w w') := by
  obtain ⟨m, hm⟩ := load_shaped hl
  exact elements_updated hne (sheets_nodup hr (by decide)) (shaped_lenient hm) h ns n

/-- **C64** The sheet of a component type is refused, and no file is written, exactly if the component type is no composition or a row cannot
be added. -/
theorem C64_refused (py : Py) (rows : List ConnRow) (c : Key) (fs : List ((Key × Bool) × List (MObj py.F))) :
    (∃ w', updateConnectors rows (.mk c fs) = .ok w') ↔ armodel.sub c k!"CompositionSwComponentType" = true ∧
      Acceptable (((MObj.mk c fs).get k!"elements").map fun v => (v.name, v.cls)) rows := by
  unfold updateConnectors
  simp only
  split
  · rename_i hc
    have hi := addRows_iff (py := py) (rows := rows) (st := ⟨((MObj.mk c fs).get k!"elements").map fun v => (v.name, v.cls), []⟩)
    refine Iff.trans ⟨?_, ?_⟩ (hi.trans ⟨fun h => ⟨hc, h⟩, And.right⟩)
    · rintro ⟨w', h⟩
      split at h
      · cases h
      · rename_i st hst; exact ⟨st, hst⟩
    · rintro ⟨st, hst⟩
      rw [hst]
      exact ⟨_, rfl⟩
  · rename_i hc; simp [hc]

/-- rows that can be added, one that lacks a port, and one whose name another connector has -/
example : Acceptable [] [.assembly "A" none none none none, .delegation "D" none (some "/p") (some "/q") none none] ∧
    ¬ Acceptable [] [.delegation "D" none (some "/p") none none (some "/q")] ∧
    ¬ Acceptable [("D".toList, k!"AssemblySwConnector")] [.delegation "D" none (some "/p") (some "/q") none none] := by
  simp only [Acceptable, rowComplete, rowName, rowClass]
  decide +kernel

/-- **C64** From file to file: whenever the tool writes a file, the file can be parsed and loaded, in warning mode for all tables, and in strict mode
if the input was loaded in that mode and all rows are about assembly connectors; and this yields the updated document.  (Missing: the attributes in
`Spec/Defects.lean`, and delegation connectors in strict mode, see `C64_delegation_broken`.) -/
theorem C64_file_partial (py : Py) (repr : py.F → Str) (nc : NameChars) (warning : Bool) (s f : Str) (sheets : List Sheet)
    (h : connectorUpdate py repr nc warning s sheets = some f) (r : XlsReader) (hr : XlsReader.new.sheets sheets = .ok r)
    (hne : ∀ e ∈ r.table, ∀ row ∈ e.2, rowName row ≠ "" ∧ ∀ c ∈ (rowName row).toList, XmlChar c)
    (strict : Bool) (hst : strict = true → warning = false ∧ ∀ e ∈ r.table, ∀ row ∈ e.2, rowClass row = k!"AssemblySwConnector")
    (hc : ∀ x d, parseFile nc s = some x → load py (!warning) x = .ok d → Clean lossy strict d)
    (hsm : ∀ x d d' y, parseFile nc s = some x → load py (!warning) x = .ok d → updateTable r.table d = .ok d' → save py repr true d' = .ok y → Every Smooth y) :
    ∃ x d d' x' d'', parseFile nc s = some x ∧ load py (!warning) x = .ok d ∧ updateTable r.table d = .ok d' ∧
      parseFile nc f = some x' ∧ load py strict x' = .ok d'' ∧ Same reordered (withSchema py d') d'' := by
  unfold connectorUpdate at h
  rw [hr] at h
  split at h
  · cases h
  rename_i x hx
  split at h
  · cases h
  rename_i d hd
  simp only at h
  split at h
  · cases h
  rename_i d' hd'
  split at h
  · cases h
  rename_i y hy
  obtain ⟨m, hm⟩ := load_shaped hd
  have hms : Shaped strict readers invariants m k!"load" d := by
    cases strict with
    | false => exact shaped_lenient hm
    | true => rw [(hst rfl).1] at hm; exact hm
  have hrows : ∀ e ∈ r.table, RowsFit strict e.2 := fun e he row hrow => ⟨(hne e he row hrow).1, fun hs => (hst hs).2 e he row hrow⟩
  obtain ⟨⟨m', hm'⟩, hc'⟩ := updateTable_fits hrows hms (hc x d hx hd) hd'
  obtain ⟨y2, d'', h1, h2, h3, _⟩ := document_fits (repr := repr) hm' hc'
  have hy2 : y2 = y := by
    have : save py repr strict d' = .ok y := by
      cases strict with
      | false => exact C36_save_modes_agree py repr d' y hy
      | true => exact hy
    rw [h1] at this
    cases this
    rfl
  subst hy2
  have hw : Writable nc y2 := by
    refine ⟨save_names nc hy, ?_⟩
    have hxg := parseFile_good hx
    have hx' : Every (Strs fun s => ∀ c ∈ s, XmlChar c) x := every_at x fun p e he => ⟨(at_every hxg p e he).here.2, (at_every hxg p e he).here.1⟩
    have hdv : Derived py (fun s => ∀ c ∈ s, XmlChar c) (fun s => ∀ c ∈ s, XmlChar c) :=
      ⟨fun s h => h, fun s h c hc => h c (strip_sub py s c hc), by
        have : ∀ s ∈ ownTexts, ∀ c ∈ s, xmlChar c = true := by decide +kernel
        exact fun s hs c hc => xmlChar_of (this s hs c hc)⟩
    have hq : ObjQ (fun s => ∀ c ∈ s, XmlChar c) d := by
      refine loadAll_Q hdv (xs := [x]) (fun z hz => ?_) (strict := !warning) (d := newDoc py) ?_ newDoc_Q
      · rw [List.mem_singleton] at hz; rw [hz]; exact hx'
      · simp only [loadAll, foldE, load_newDoc hd]
    have hq' := updateTable_Q (fun e he r hr => (hne e he r hr).1) (fun e he r hr => (hne e he r hr).2) (shaped_lenient hm) hq hd'
    exact every_at y2 fun p e he => by
      have := (at_every (savedDoc_Q hdv hq' hy) p e he).here
      exact ⟨this.2, this.1⟩
  have hf := file_read (py := py) (nc := nc) false hw (fun h => by cases h)
  rw [h] at hf
  exact ⟨x, d, d', _, d'', hx, hd, hd', hf, h2 _ (reload_laid 0 y2 (hsm x d d' y2 hx hd hd' hy)), h3⟩

/-! ### Examples -/

/-- a file with a composition that has an assembly connector -/
def wiredFile : Str := t!"<AUTOSAR><AR-PACKAGES><AR-PACKAGE><SHORT-NAME>P</SHORT-NAME><ELEMENTS><COMPOSITION-SW-COMPONENT-TYPE><SHORT-NAME>C</SHORT-NAME>
<CONNECTORS><ASSEMBLY-SW-CONNECTOR><SHORT-NAME>A</SHORT-NAME><PROVIDER-IREF><CONTEXT-COMPONENT-REF DEST='SW-COMPONENT-PROTOTYPE'>/P/C/p</CONTEXT-COMPONENT-REF>
</PROVIDER-IREF></ASSEMBLY-SW-CONNECTOR></CONNECTORS></COMPOSITION-SW-COMPONENT-TYPE></ELEMENTS></AR-PACKAGE></AR-PACKAGES></AUTOSAR>"

/-- a sheet with the connector of the file and one more -/
def wiredSheet : Sheet := ⟨"C", .ac, assemblyTitles.map some,
  [[some "A", some "/P/C/p", some "/P/S/out", some "/P/C/q", some "/P/T/in"], [some "B", some "/P/C/p", some "/P/S/out", some "/P/C/q", some "/P/T/in"]]⟩

/-- a sheet with a delegation connector -/
def innerSheet : Sheet := ⟨"C", .dc, delegationTitles.map some, [[some "D", some "/P/C/p", some "/P/S/out", some "/P/C/out", none, none]]⟩

/-- the connectors of the composition, with what they connect -/
def wires {F : Type} (d : MObj F) : List (Str × Nat) := match findIn ["P".toList, "C".toList] d with
  | none => []
  | some c => (c.get k!"connectors").map fun v => (v.name, (v.get k!"providerIRef").length + (v.get k!"requesterIRef").length)

/-- what the tool makes of the file, after it was loaded again -/
noncomputable def rewired (strict : Bool) (sheets : List Sheet) : Option (List (Str × Nat)) :=
  match connectorUpdate Py.demo (fun _ => []) .ascii false wiredFile sheets with
  | none => none
  | some f => match parseFile .ascii f with
    | none => none
    | some x => match load Py.demo strict x with
      | .error _ => none
      | .ok d => some (wires d)

/-- **C64 is refuted for what the connectors connect and for known names.**  The sheet says that the composition has the connectors A and B and what
they connect.  The tool writes a file that has no connector A, although there was one before, and a connector B that connects nothing. -/
theorem C64_wiring_broken : rewired true [wiredSheet] = some [("B".toList, 0)] := by decide +kernel

/-- **C64 is refuted for delegation connectors in strict mode.**  The input can be loaded in strict mode; the output, which has the delegation
connector of the sheet, can only be loaded in warning mode. -/
theorem C64_delegation_broken : rewired true [innerSheet] = none ∧ rewired false [innerSheet] = some [("D".toList, 0)] := by decide +kernel

theorem demo_case : (match XlsReader.new.sheets [wiredSheet], parseFile .ascii wiredFile with
    | .ok r, some x => (r.table.all fun e => e.2.all fun row => rowName row != "" && rowClass row == k!"AssemblySwConnector" && (rowName row).toList.all xmlChar) &&
      (match load Py.demo true x with
      | .error _ => false
      | .ok d => cleanB lossy true d && (match updateTable r.table d with
        | .error _ => false
        | .ok d' => match save Py.demo (fun _ => []) true d' with
          | .error _ => false
          | .ok y => everyB smoothB 20 y))
    | _, _ => false) = true := by decide +kernel

/-- the hypotheses of `C64_file_partial` (and of `C64_elements`) hold for the file and the sheet, in strict mode -/
example : ∃ r x d d' f, XlsReader.new.sheets [wiredSheet] = .ok r ∧ parseFile .ascii wiredFile = some x ∧ load Py.demo true x = .ok d ∧
    updateTable r.table d = .ok d' ∧ connectorUpdate Py.demo (fun _ => []) .ascii false wiredFile [wiredSheet] = some f ∧
    (∀ e ∈ r.table, ∀ row ∈ e.2, rowName row ≠ "" ∧ ∀ c ∈ (rowName row).toList, XmlChar c) ∧
    (∀ e ∈ r.table, ∀ row ∈ e.2, rowClass row = k!"AssemblySwConnector") ∧ Clean lossy true d ∧
    ∀ y, save Py.demo (fun _ => []) true d' = .ok y → Every Smooth y := by
  have h := demo_case
  have hf := C64_wiring_broken
  unfold rewired at hf
  split at h
  next r x hr hx =>
    simp only [Bool.and_eq_true, List.all_eq_true, bne_iff_ne, beq_iff_eq] at h
    obtain ⟨h1, h2⟩ := h
    split at h2
    · cases h2
    next d hd =>
    simp only [Bool.and_eq_true] at h2
    obtain ⟨h2, h3⟩ := h2
    split at h3
    · cases h3
    next d' hd' =>
    split at h3
    · cases h3
    next y hy =>
    split at hf
    · cases hf
    next f hf' =>
    refine ⟨r, x, d, d', f, hr, hx, hd, hd', hf', fun e he row hrow => ⟨(h1 e he row hrow).1.1, fun c hc => xmlChar_of ((h1 e he row hrow).2 c hc)⟩,
      fun e he row hrow => (h1 e he row hrow).1.2, cleanB_sound d h2, fun z hz => ?_⟩
    rw [hy] at hz
    cases hz
    exact everyB_sound smoothB_sound 20 y h3
  · cases h

/-! ### C65 -/

section
variable {py : Py}

theorem elementAt_found {C : Key} {d w : MObj py.F} {ns : List Str} {n : Str} : ElementAt d ns n w ∧ w.inst [C] = true ↔ Found C d (ns ++ [n]) w := by
  induction ns generalizing d with
  | nil =>
    rw [elementAt_nil, List.nil_append]
    constructor
    · rintro ⟨⟨h1, rfl⟩, hc⟩
      exact .element h1 hc
    · intro h
      cases h with
      | element hv hc => exact ⟨⟨hv, rfl⟩, hc⟩
      | package _ h => exact absurd rfl (found_ne h)
  | cons m ns ih =>
    rw [elementAt_cons, List.cons_append]
    constructor
    · rintro ⟨⟨q, hq, rfl, h⟩, hc⟩
      exact .package hq (ih.1 ⟨h, hc⟩)
    · intro h
      generalize hp : m :: (ns ++ [n]) = p at h
      cases h with
      | element hv hc =>
        have := congrArg List.length hp
        simp at this
      | @package o v w p hv h =>
        cases hp
        obtain ⟨h1, h2⟩ := ih.2 h
        exact ⟨⟨v, hv, rfl, h1⟩, h2⟩

theorem inst_one {c : Key} {w : MObj py.F} : w.inst [c] = armodel.sub w.cls c := by simp [MObj.inst]

/-- the compositions a report is about, with the names that lead to them -/
def reported (d : MObj py.F) : List (List Str × MObj py.F) :=
  sortBy (fun e => String.ofList e.2.name) ((collectDoc k!"SwComponentType" false d).filter fun e => e.2.inst [k!"CompositionSwComponentType"])

theorem reported_eq (d : MObj py.F) : sortBy (fun o => String.ofList o.name)
    (((collectDoc k!"SwComponentType" false d).map Prod.snd).filter (MObj.inst [k!"CompositionSwComponentType"])) = (reported d).map Prod.snd := by
  rw [reported, ← sortBy_map (fun o : MObj py.F => String.ofList o.name) Prod.snd, List.filter_map]
  rfl

theorem reported_mem {d : MObj py.F} (hd : d.get k!"elements" = []) (ns : List Str) (n : Str) (w : MObj py.F) :
    (ns ++ [n], w) ∈ reported d ↔ ElementAt d ns n w ∧ armodel.sub w.cls k!"CompositionSwComponentType" = true := by
  rw [reported, (sortBy_perm _ _).mem_iff, List.mem_filter, collectDoc_mem hd, ← elementAt_found, inst_one, inst_one, and_assoc]
  refine and_congr_right fun _ => ⟨fun h => h.2, fun h => ⟨armodel.trans _ _ _ h (by decide +kernel), h⟩⟩

theorem reported_iff {d : MObj py.F} (hd : d.get k!"elements" = []) (w : MObj py.F) : w ∈ (reported d).map Prod.snd ↔ CompositionIn d w := by
  unfold CompositionIn
  rw [List.mem_map]
  constructor
  · rintro ⟨⟨p, v⟩, hv, rfl⟩
    have hp : p ≠ [] := by
      rw [reported, (sortBy_perm _ _).mem_iff, List.mem_filter, collectDoc_mem hd] at hv
      exact found_ne hv.1
    rw [← List.dropLast_append_getLast hp, reported_mem hd] at hv
    exact ⟨⟨_, _, hv.1⟩, hv.2⟩
  · rintro ⟨⟨ns, n, h⟩, hc⟩
    exact ⟨_, (reported_mem hd ns n w).2 ⟨h, hc⟩, rfl⟩

theorem reportSheets_ok {w : MObj py.F} : (∃ l, reportSheets w = .ok l) ↔ ¬ HasConnector w := by
  have key : ∀ c, ((w.get k!"connectors").any fun v => v.inst [c]) = true ↔ ∃ v ∈ w.get k!"connectors", armodel.sub v.cls c = true := by
    intro c
    simp only [List.any_eq_true, inst_one]
  unfold reportSheets HasConnector
  constructor
  · rintro ⟨l, h⟩ ⟨v, hv, h1 | h1⟩
    · rw [if_pos ((key _).2 ⟨v, hv, h1⟩)] at h
      cases h
    · split at h
      · cases h
      · rw [if_pos ((key _).2 ⟨v, hv, h1⟩)] at h
        cases h
  · intro h
    rw [if_neg, if_neg]
    · exact ⟨_, rfl⟩
    · intro h1
      obtain ⟨v, hv, h1⟩ := (key _).1 h1
      exact h ⟨v, hv, .inr h1⟩
    · intro h1
      obtain ⟨v, hv, h1⟩ := (key _).1 h1
      exact h ⟨v, hv, .inl h1⟩

theorem reportSheets_rows {w : MObj py.F} {l : List Sheet} (h : reportSheets w = .ok l) :
    l = [⟨String.ofList w.name, .ac, assemblyTitles.map some, []⟩, ⟨String.ofList w.name, .dc, delegationTitles.map some, []⟩] := by
  unfold reportSheets at h
  split at h
  · cases h
  · split at h
    · cases h
    · cases h; rfl

end

/-- **C65 is refuted for every composition with a connector**: if there is one in the files, `connector2xlsx` writes no report. -/
theorem C65_broken (py : Py) (nc : NameChars) (fs : Fs) (warning : Bool) (inputs names : List Str) (xs : List Xml) (d w : MObj py.F)
    (hn : cliParse py fs [] inputs = .ok names) (hx : names.mapM (fun f => (fs.text f).bind (parseFile nc)) = some xs)
    (hl : loadAll py (!warning) (newDoc py) xs = .ok d) (hw : CompositionIn d w) (hc : HasConnector w) :
    connector2xlsx py nc fs warning inputs = none := by
  simp only [connector2xlsx, hn, hx, hl, reportDoc, reported_eq]
  cases hm : mapE reportSheets ((reported d).map Prod.snd) with
  | error e => rfl
  | ok ls =>
    exfalso
    obtain ⟨l, _, hl⟩ := forall₂_left (mapE_ok hm) ((reported_iff (loaded_bare hl) w).2 hw)
    exact reportSheets_ok.1 ⟨l, hl⟩ hc

/-- **C65** A report is written exactly if no composition in the files has an assembly or delegation connector; it then has, once for each composition
and in the order of their names, the two sheets with their title rows, and nothing else.  (What is missing: reports of connectors, see
`C65_broken`.) -/
theorem C65_partial (py : Py) (nc : NameChars) (fs : Fs) (warning : Bool) (inputs names : List Str) (xs : List Xml) (d : MObj py.F)
    (hn : cliParse py fs [] inputs = .ok names) (hx : names.mapM (fun f => (fs.text f).bind (parseFile nc)) = some xs)
    (hl : loadAll py (!warning) (newDoc py) xs = .ok d) :
    ((∃ l, connector2xlsx py nc fs warning inputs = some l) ↔ ∀ w, CompositionIn d w → ¬ HasConnector w) ∧
    ∀ l, connector2xlsx py nc fs warning inputs = some l → ∃ ws : List (List Str × MObj py.F),
      (∀ ns n w, (ns ++ [n], w) ∈ ws ↔ ElementAt d ns n w ∧ armodel.sub w.cls k!"CompositionSwComponentType" = true) ∧
      (∀ w, ([], w) ∉ ws) ∧ (ws.map Prod.fst).Nodup ∧ ws.Pairwise (fun a b => String.ofList a.2.name ≤ String.ofList b.2.name) ∧
      l = ws.flatMap fun e =>
        [⟨String.ofList e.2.name, .ac, assemblyTitles.map some, []⟩, ⟨String.ofList e.2.name, .dc, delegationTitles.map some, []⟩] := by
  have hd := loaded_bare hl
  constructor
  · constructor
    · rintro ⟨l, h⟩ w hw hc
      rw [C65_broken py nc fs warning inputs names xs d w hn hx hl hw hc] at h
      cases h
    · intro h
      simp only [connector2xlsx, hn, hx, hl, reportDoc, reported_eq]
      have key : ∀ l : List (MObj py.F), (∀ w ∈ l, ∃ r, reportSheets w = .ok r) → ∃ ls, mapE reportSheets l = .ok ls := by
        intro l
        induction l with
        | nil => intro _; exact ⟨[], rfl⟩
        | cons w l ih =>
          intro h
          obtain ⟨r, hr⟩ := h w (by simp)
          obtain ⟨ls, hls⟩ := ih fun v hv => h v (by simp [hv])
          exact ⟨r :: ls, by simp only [mapE, hr, hls]⟩
      obtain ⟨ls, hls⟩ := key _ fun w hw => reportSheets_ok.2 (h w ((reported_iff hd w).1 hw))
      rw [hls]
      exact ⟨_, rfl⟩
  · intro l h
    simp only [connector2xlsx, hn, hx, hl, reportDoc, reported_eq] at h
    cases hm : mapE reportSheets ((reported d).map Prod.snd) with
    | error e => rw [hm] at h; cases h
    | ok ls =>
      rw [hm] at h
      cases h
      refine ⟨reported d, fun ns n w => reported_mem hd ns n w, fun w hw => ?_, ?_, sortBy_sorted _ _, ?_⟩
      · rw [reported, (sortBy_perm _ _).mem_iff, List.mem_filter, collectDoc_mem hd] at hw
        exact found_ne hw.1 rfl
      · have := collectDoc_nodup (c := k!"SwComponentType") (sorted := false) (loadAll_uniq hl (uniq_blank _))
        rw [reported, ((sortBy_perm _ _).map Prod.fst).nodup_iff]
        exact this.sublist (List.filter_sublist.map _)
      · have := mapE_ok hm
        clear hm
        generalize reported d = ws at this
        induction ws generalizing ls with
        | nil => cases this; rfl
        | cons e ws ih =>
          cases this with
          | cons h1 h2 => rw [List.flatten_cons, List.flatMap_cons, ← ih _ h2, reportSheets_rows h1]

/-- a directory with two files: one with a connector and one without -/
def wiredDir : Fs where
  isDir _ := false
  walk _ := []
  text f := if f = "a.arxml".toList then some wiredFile else if f = "b.arxml".toList then some t!"<AUTOSAR><AR-PACKAGES><AR-PACKAGE><SHORT-NAME>P</SHORT-NAME>
<ELEMENTS><COMPOSITION-SW-COMPONENT-TYPE><SHORT-NAME>C</SHORT-NAME></COMPOSITION-SW-COMPONENT-TYPE></ELEMENTS></AR-PACKAGE></AR-PACKAGES></AUTOSAR>" else none

/-- the hypotheses of `C65_broken` hold for the first file; for the second there is a report -/
example : (∃ names xs d w, cliParse Py.demo wiredDir [] ["a.arxml".toList] = .ok names ∧
      names.mapM (fun f => (wiredDir.text f).bind (parseFile .ascii)) = some xs ∧ loadAll Py.demo true (newDoc Py.demo) xs = .ok d ∧
      CompositionIn d w ∧ HasConnector w) ∧
    connector2xlsx Py.demo .ascii wiredDir false ["b.arxml".toList] =
      some [⟨"C", .ac, assemblyTitles.map some, []⟩, ⟨"C", .dc, delegationTitles.map some, []⟩] := by
  refine ⟨?_, by decide +kernel⟩
  have h : (match cliParse Py.demo wiredDir [] ["a.arxml".toList] with
    | .error _ => false
    | .ok names => match names.mapM (fun f => (wiredDir.text f).bind (parseFile .ascii)) with
      | none => false
      | some xs => match loadAll Py.demo true (newDoc Py.demo) xs with
        | .error _ => false
        | .ok d => (d.get k!"elements").isEmpty && (reported d).any fun e => (e.2.get k!"connectors").any fun v => v.inst [k!"AssemblySwConnector"]) = true := by
    decide +kernel
  split at h
  · cases h
  next names hn =>
  split at h
  · cases h
  next xs hx =>
  split at h
  · cases h
  next d hd =>
  simp only [Bool.and_eq_true, List.isEmpty_iff, List.any_eq_true, inst_one] at h
  obtain ⟨h0, ⟨p, w⟩, hw, v, hv, hc⟩ := h
  exact ⟨names, xs, d, w, hn, hx, hd, (reported_iff h0 w).1 (List.mem_map_of_mem hw), v, hv, .inl hc⟩

end Verif.Props
