import Verif.Lemmas.Connectors
import Verif.Gen.CreateTable
import Verif.Model.Accessors
/-!
# C43, C44, C49: connectors of a composition
-/
namespace Verif.Props
open Verif Verif.Model Verif.Model.Coll Verif.Model.Composition Verif.Spec Verif.Lemmas Verif.Gen

/-! ### C43 -/

/-- **C43** The typed connector list holds the connectors of that type, each as often as it is in the composition, in
ascending order of short names; connectors with the same name keep their order. -/
theorem C43_sorted (H : Hier) (s : Composition) (t : Key) :
    (s.typedConnectors H t).Perm (s.connectors.filter fun e => H.sub e.cls t) ∧
    (s.typedConnectors H t).Pairwise (fun a b => a.name ≤ b.name) ∧
    ∀ n, (s.typedConnectors H t).filter (fun e => e.name == n) = s.connectors.filter (fun e => H.sub e.cls t && e.name == n) := by
  refine ⟨sortBy_perm _ _, sortBy_sorted _ _, fun n => ?_⟩
  rw [typedConnectors, sortBy_stable Elem.name n, List.filter_filter]
  apply List.filter_congr
  intro e _
  simp [inst, Bool.and_comm]

/-- the list does not depend on the order in which connectors of different names were created -/
theorem C43_order_independent (H : Hier) (s s' : Composition) (t : Key) (hp : s.connectors.Perm s'.connectors)
    (hn : (s.connectors.map Elem.name).Nodup) : s.typedConnectors H t = s'.typedConnectors H t := by
  obtain ⟨p1, o1, _⟩ := C43_sorted H s t
  obtain ⟨p2, o2, _⟩ := C43_sorted H s' t
  have hp' : (s.typedConnectors H t).Perm (s'.typedConnectors H t) := p1.trans ((hp.filter _).trans p2.symm)
  have inj : ∀ a ∈ s.connectors, ∀ b ∈ s.connectors, a.name = b.name → a = b := fun a ha b hb h => name_inj hn ha hb h
  refine hp'.eq_of_pairwise ?_ o1 o2
  intro a b ha hb hab hba
  have ha' : a ∈ s.connectors := (List.mem_filter.mp (p1.mem_iff.mp ha)).1
  have hb' : b ∈ s.connectors := hp.mem_iff.mpr (List.mem_filter.mp (p2.mem_iff.mp hb)).1
  exact inj a ha' b hb' (String.le_antisymm hab hba)

/-! ### C44 -/

/-- the update uses the methods of the table of create methods -/
theorem rows_in_table : assemblyRow ∈ createTable ∧ delegationRow ∈ createTable := by decide +kernel

/-- every create method that fills a list called `connectors` has the same shape -/
theorem connectors_rows : ∀ r ∈ createTable, r.attr = k!"connectors" → r.pattern = ⟨.untyped, true, .list, .typed⟩ := by decide +kernel

/-- After any sequence of create and add calls the connector list is a part of the contained elements. -/
theorem C44_fits (H : Hier) (ops : List Owner.Op) (h : ∀ op ∈ ops, match op with | .create r _ _ => r ∈ createTable | .add _ => True | .remove .. => False)
    (attrs : Nat → Key → Option EndPoint) (next : Nat) : Fits ⟨Owner.run H ops, attrs, next⟩ := by
  have hinv := inv_orun H ops
  refine ⟨?_, hinv.nodup⟩
  have key : ∀ (ops : List Owner.Op) (o : Owner), (∀ op ∈ ops, match op with | .create r _ _ => r ∈ createTable | .add _ => True | .remove .. => False) →
      (o.lists k!"connectors").Sublist o.coll.elements →
      ((ops.foldl (Owner.step H) o).lists k!"connectors").Sublist (ops.foldl (Owner.step H) o).coll.elements := by
    intro ops
    induction ops with
    | nil => intro o _ ho; exact ho
    | cons op ops ih =>
      intro o hops ho
      refine ih _ (fun x hx => hops x (by simp [hx])) ?_
      have hop := hops op (by simp)
      cases op with
      | remove n t => exact absurd hop (by simp)
      | add e =>
        show (o.lists k!"connectors").Sublist (o.coll.addElement H e).elements
        exact ho.trans (prefix_add H e).sublist
      | create r n f =>
        show ((o.create H r n f).lists k!"connectors").Sublist (o.create H r n f).coll.elements
        have hsub : o.coll.elements.Sublist (o.create H r n f).coll.elements := by
          rcases create_coll_cases H r o n f with e | e <;> rw [e]
          exact (prefix_add H _).sublist
        by_cases hl : r.attr = k!"connectors"
        · have hp := connectors_rows r hop hl
          by_cases hc : o.construct H r n = true
          · have hex : o.coll.isElementExists H n none = false := by simpa [Owner.construct, hp] using hc
            have hext := typed_of_untyped H n r.target hex
            have h1 : o.create H r n f = o.record H r ⟨f, n, r.target⟩ := by rw [Owner.create, if_pos hc]
            have h2 : (o.create H r n f).coll.elements = o.coll.elements ++ [⟨f, n, r.target⟩] := by
              rw [h1]; simp [Owner.record, hp, addElement, hext]
            have h3 : (o.create H r n f).lists k!"connectors" = o.lists k!"connectors" ++ [⟨f, n, r.target⟩] := by
              rw [h1]; simp only [Owner.record, hp, hl, if_true]
            rw [h2, h3]
            exact ho.append (List.Sublist.refl _)
          · have h1 : o.create H r n f = o := by rw [Owner.create, if_neg hc]
            rw [h1]; exact ho
        · have h3 : (o.create H r n f).lists k!"connectors" = o.lists k!"connectors" := by
            rw [Owner.create]
            split
            · simp only [Owner.record]
              cases r.pattern.store with
              | list => simp only [if_neg (Ne.symm hl)]
              | nowhere => rfl
              | field => rfl
            · rfl
          rw [h3]
          exact ho.trans hsub
  exact key ops Owner.empty h (by simp [Owner.empty, Coll.empty])

/-- **C44 (exactly what happens, for every table)** After an update that does not raise, the connectors are those of other kinds
and one connector, with the name and kind of its row, for every row whose name was not known to the composition. -/
theorem C44_exact (H : Hier) (s s' : Composition) (rows : List ConnRow) (hs : Fits s) (h : s.update H rows = .ok s') :
    ∃ new, s'.connectors = otherConnectors H s.connectors ++ new ∧
      List.Forall₂ (fun r e => e.name = rowName r ∧ e.cls = rowClass r) (newRows (fun n => (s.own.coll.slot n).isSome) rows) new := by
  obtain ⟨s2, h1, h2, _, h4, _, _⟩ := removed_spec H hs rows
  rw [h1] at h
  obtain ⟨new, g1, g2⟩ := addRows_exact H rows s2 s' _ (fun n => by rw [h4]) h
  exact ⟨new, by rw [g1, h2], g2⟩

/-- **C44 (partial)** When the rows have distinct names that the composition does not know yet, and delegation rows are complete,
the update succeeds and leaves exactly the connectors of the table (and those of other kinds), in the order of the
table, each with its end points. -/
theorem C44_fresh_partial (H : Hier) (s : Composition) (rows : List ConnRow) (hs : Fits s)
    (hn : ∀ r ∈ rows, s.own.coll.slot (rowName r) = none) (hc : ∀ r ∈ rows, rowComplete r = true) (hd : (rows.map rowName).Nodup) :
    ∃ s' new, s.update H rows = .ok s' ∧ s'.connectors = otherConnectors H s.connectors ++ new ∧
      List.Forall₂ (fun r e => e.name = rowName r ∧ e.cls = rowClass r ∧ ∀ p ∈ rowEnds r, s'.attrs e.id p.1 = some p.2) rows new := by
  obtain ⟨s2, h1, h2, _, h4, _, _⟩ := removed_spec H hs rows
  obtain ⟨s', new, g1, g2, g3, _⟩ := addRows_fresh H rows s2 (fun r hr => ⟨by rw [h4]; exact hn r hr, hc r hr⟩) hd
  exact ⟨s', new, by rw [h1]; exact g1, by rw [g2, h2], g3⟩

/-- the same for a composition with any history of create calls: "not known" means that no contained element has the name -/
theorem C44_history_partial (H : Hier) (ops : List Owner.Op)
    (h : ∀ op ∈ ops, match op with | .create r _ _ => r ∈ createTable | .add _ => True | .remove .. => False)
    (attrs : Nat → Key → Option EndPoint) (next : Nat) (rows : List ConnRow)
    (hn : ∀ r ∈ rows, ∀ e ∈ (Owner.run H ops).coll.elements, e.name ≠ rowName r)
    (hc : ∀ r ∈ rows, rowComplete r = true) (hd : (rows.map rowName).Nodup) :
    ∃ s' new, (⟨Owner.run H ops, attrs, next⟩ : Composition).update H rows = .ok s' ∧
      s'.connectors = otherConnectors H ((Owner.run H ops).lists k!"connectors") ++ new ∧
      List.Forall₂ (fun r e => e.name = rowName r ∧ e.cls = rowClass r ∧ ∀ p ∈ rowEnds r, s'.attrs e.id p.1 = some p.2) rows new := by
  refine C44_fresh_partial H ⟨Owner.run H ops, attrs, next⟩ rows (C44_fits H ops h attrs next) (fun r hr => ?_) hc hd
  have hf := full_orun H ops (fun op hop => by
    have := h op hop
    cases op <;> simp_all [NoRemove])
  cases hs : (Owner.run H ops).coll.slot (rowName r) with
  | none => rfl
  | some l =>
    have : (Owner.run H ops).coll.isElementExists H (rowName r) none = true := by simp [isElementExists, hs]
    obtain ⟨e, he, hen⟩ := (exists_untyped H (inv_orun H ops) hf _).mp this
    exact absurd hen (hn r hr e he)

/-- **C44 is refuted for names the composition knows**: whatever the table, an update that only uses known names (such as
a table with the connectors the composition already has) leaves no assembly and no delegation connector. -/
theorem C44_reused_broken (H : Hier) (s s' : Composition) (rows : List ConnRow) (hs : Fits s)
    (hk : ∀ r ∈ rows, (s.own.coll.slot (rowName r)).isSome = true) (h : s.update H rows = .ok s') :
    s'.connectors = otherConnectors H s.connectors := by
  obtain ⟨new, h1, h2⟩ := C44_exact H s s' rows hs h
  have : newRows (fun n => (s.own.coll.slot n).isSome) rows = [] := by
    clear h h1 h2
    induction rows with
    | nil => rfl
    | cons r rows ih => rw [newRows, if_pos (hk r (by simp))]; exact ih fun r hr => hk r (by simp [hr])
  rw [this] at h2
  cases h2
  rw [h1, List.append_nil]

/-- a composition with an assembly connector `A` that was created through the API -/
def demoComp : Composition := ⟨Owner.run armodel [.create assemblyRow "A" 0], fun _ _ => none, 1⟩

/-- the hypotheses are met: updating it with a table that holds `A` succeeds, and the connector is gone -/
theorem C44_reused_witness : Fits demoComp ∧ (demoComp.own.coll.slot "A").isSome = true ∧ demoComp.connectors.length = 1 ∧
    ∃ s', demoComp.update armodel [.assembly "A" (some "/c") (some "/p") (some "/d") (some "/r")] = .ok s' ∧ s'.connectors = [] := by
  refine ⟨C44_fits armodel _ (by intro op hop; simp at hop; subst hop; exact rows_in_table.1) _ _, by decide +kernel, by decide +kernel, ?_⟩
  have : ((demoComp.update armodel [.assembly "A" (some "/c") (some "/p") (some "/d") (some "/r")]).map Composition.connectors) = .ok [] := by
    decide +kernel
  cases hu : demoComp.update armodel [.assembly "A" (some "/c") (some "/p") (some "/d") (some "/r")] with
  | error e => rw [hu] at this; cases this
  | ok s' => rw [hu] at this; exact ⟨s', rfl, Except.ok.inj this⟩

/-- **C44 is refuted for the end points**: the attributes read by the methods the writer uses (`getProviderIRef` and so on) are not
touched by any update. -/
theorem C44_endpoints_broken (H : Hier) (s s' : Composition) (rows : List ConnRow) (hs : Fits s) (h : s.update H rows = .ok s')
    (c g : Key) (hg : (c, g) ∈ [(k!"AssemblySwConnector", k!"getProviderIRef"), (k!"AssemblySwConnector", k!"getRequesterIRef"),
      (k!"DelegationSwConnector", k!"getInnerPortIRref"), (k!"DelegationSwConnector", k!"getOuterPortRef")]) :
    ∃ f, resolve c g = some (.get f) ∧ ∀ i, s'.attrs i f = s.attrs i f := by
  obtain ⟨s2, h1, _, _, _, h5, _⟩ := removed_spec H hs rows
  rw [h1] at h
  have key := fun i k hk => (addRows_attrs H rows h i k hk).trans (by rw [h5])
  simp only [List.mem_cons, List.not_mem_nil, or_false, Prod.mk.injEq] at hg
  rcases hg with ⟨rfl, rfl⟩ | ⟨rfl, rfl⟩ | ⟨rfl, rfl⟩ | ⟨rfl, rfl⟩
  · exact ⟨k!"providerIRef", by decide +kernel, fun i => key i _ (by decide)⟩
  · exact ⟨k!"requesterIRef", by decide +kernel, fun i => key i _ (by decide)⟩
  · exact ⟨k!"innerPortIRref", by decide +kernel, fun i => key i _ (by decide)⟩
  · exact ⟨k!"outerPortRef", by decide +kernel, fun i => key i _ (by decide)⟩

/-- **C44 (document)** Component types whose name has no sheet are untouched, and every composition whose name has one is updated
from that sheet. -/
theorem C44_document (H : Hier) (table : List (String × List ConnRow)) (hd : (table.map Prod.fst).Nodup) (d d' : List SwcPkg)
    (h : updateDoc H table d = .ok d') :
    List.Forall₂ (fun c c' => c'.name = c.name ∧ (c.name ∉ table.map Prod.fst → c' = c) ∧
      ∀ rows, (c.name, rows) ∈ table → ∃ s s', c.comp = some s ∧ c'.comp = some s' ∧ s.update H rows = .ok s') (allSwcs d) (allSwcs d') := by
  induction table generalizing d with
  | nil =>
    cases h
    exact List.forall₂_same.mpr fun c _ => ⟨rfl, fun _ => rfl, fun _ h => by simp at h⟩
  | cons p t ih =>
    obtain ⟨n, rows⟩ := p
    rw [updateDoc] at h
    cases h1 : locateAll H n rows d with
    | error x => simp [h1] at h
    | ok d1 =>
      simp only [h1] at h
      rw [List.map_cons, List.nodup_cons] at hd
      have a := locateAll_spec H n rows d d1 h1
      have b := ih hd.2 d1 h
      have comp : ∀ {l m r : List Swc}, List.Forall₂ (fun c c' => c'.name = c.name ∧ (c.name ≠ n → c' = c) ∧
          (c.name = n → ∃ s s', c.comp = some s ∧ c'.comp = some s' ∧ s.update H rows = .ok s')) l m →
          List.Forall₂ (fun c c' => c'.name = c.name ∧ (c.name ∉ t.map Prod.fst → c' = c) ∧
          ∀ rows, (c.name, rows) ∈ t → ∃ s s', c.comp = some s ∧ c'.comp = some s' ∧ s.update H rows = .ok s') m r →
          List.Forall₂ (fun c c' => c'.name = c.name ∧ (c.name ∉ ((n, rows) :: t).map Prod.fst → c' = c) ∧
          ∀ rows', (c.name, rows') ∈ (n, rows) :: t → ∃ s s', c.comp = some s ∧ c'.comp = some s' ∧ s.update H rows' = .ok s') l r := by
        intro l m r hl
        induction hl generalizing r with
        | nil => intro hr; cases hr; exact .nil
        | @cons x y l m hxy _ ih =>
          intro hr
          cases hr with
          | @cons _ z _ r hyz hr =>
            refine .cons ⟨hyz.1.trans hxy.1, ?_, ?_⟩ (ih hr)
            · intro hx
              simp only [List.map_cons, List.mem_cons, not_or] at hx
              have hy := hxy.2.1 hx.1
              rw [hyz.2.1 (by rw [hy]; exact hx.2), hy]
            · intro rows' hm
              by_cases hx : x.name = n
              · have hnt : y.name ∉ t.map Prod.fst := by rw [hxy.1, hx]; exact hd.1
                have hrows : rows' = rows := by
                  rcases List.mem_cons.mp hm with e | e
                  · exact (Prod.mk.injEq .. ▸ e).2
                  · exact absurd (List.mem_map_of_mem (f := Prod.fst) e) (by rw [← hxy.1]; exact hnt)
                subst hrows
                rw [hyz.2.1 hnt]
                exact hxy.2.2 hx
              · have hy := hxy.2.1 hx
                subst hy
                rcases List.mem_cons.mp hm with e | e
                · exact absurd (Prod.mk.injEq .. ▸ e).1 hx
                · exact hyz.2.2 rows' e
      exact comp a b

/-- a component type of another kind with the name of a sheet makes the update fail -/
theorem C44_other_kind_broken (H : Hier) (n : String) (rows : List ConnRow) (subs : List SwcPkg) :
    updateDoc H [(n, rows)] [.mk [⟨n, none⟩] subs] = .error .attributeError := by
  simp [updateDoc, locateAll, locate, updateSwcs]

/-- the hypotheses of the partial theorem are met: two new names -/
example : Fits demoComp ∧ (∀ r ∈ [ConnRow.assembly "B" none none none none, .delegation "C" none (some "p") (some "q") none none],
    demoComp.own.coll.slot (rowName r) = none ∧ rowComplete r = true) :=
  ⟨C44_reused_witness.1, by decide +kernel⟩

/-! ### C49: the tables -/

/-- **C49 (assembly sheets)** When each title stands in exactly one column, the rows are read by title, whatever the order of
the columns, whatever other columns there are and whatever was read before. -/
theorem C49_assembly_columns (x : XlsReader) (hx : x.acCols.map Prod.fst = assemblyTitles) (n : String) (titles : List Cell) (rows : List (List Cell))
    (at_ : String → Nat) (ht : ∀ t ∈ assemblyTitles, TitleAt titles t (at_ t)) (hw : ∀ row ∈ rows, row.length = titles.length) :
    ∃ x', x.sheet ⟨n, .ac, titles, rows⟩ = .ok x' ∧ x'.acCols.map Prod.fst = assemblyTitles ∧ x'.dcCols = x.dcCols ∧
      x'.table = addTo x.table n (rows.map fun row => .assembly ((row[at_ "Short Name"]?.join).getD "")
        (row[at_ "Provide SW-C"]?.join) (row[at_ "PPort"]?.join) (row[at_ "Request SW-C"]?.join) (row[at_ "RPort"]?.join)) := by
  have hmem : ∀ t ∈ assemblyTitles, (x.acCols.lookup t).isSome = true := by
    intro t ht
    exact lookup_of_key (by rw [hx]; exact ht)
  have hl : ∀ t ∈ assemblyTitles, (columnTitles x.acCols 0 titles).lookup t = some (at_ t : Int) :=
    fun t h => columnTitles_at (ht t h) _ (hmem t h)
  have hk := columnTitles_keys titles x.acCols 0
  have hf : titlesFound (columnTitles x.acCols 0 titles) = true :=
    titlesFound_of (by rw [hk, hx]; decide) (f := at_) (by rw [hk, hx]; exact hl)
  have hrd : ∀ row ∈ rows, readAssembly (columnTitles x.acCols 0 titles) row = .ok (.assembly ((row[at_ "Short Name"]?.join).getD "")
        (row[at_ "Provide SW-C"]?.join) (row[at_ "PPort"]?.join) (row[at_ "Request SW-C"]?.join) (row[at_ "RPort"]?.join)) := by
    intro row hr
    have hc : ∀ t ∈ assemblyTitles, cellAt (columnTitles x.acCols 0 titles) t row = .ok (row[at_ t]?.join) := by
      intro t h
      obtain ⟨a, b, e, hi, _⟩ := titleAt_split (ht t h)
      have hlt : at_ t < row.length := by rw [hw row hr, e]; simp; omega
      rw [cellAt_eq (hl t h) hlt]
      simp [hlt]
    unfold readAssembly nameAt
    rw [hc _ (by decide), hc _ (by decide), hc _ (by decide), hc _ (by decide), hc _ (by decide)]
    rfl
  refine ⟨{ x with acCols := columnTitles x.acCols 0 titles, table := addTo x.table n (rows.map _) }, ?_, hk.trans hx, rfl, rfl⟩
  simp only [XlsReader.sheet, hf, if_true, mapM_ok rows hrd]; rfl

/-- **C49 (delegation sheets)** The same for delegation sheets. -/
theorem C49_delegation_columns (x : XlsReader) (hx : x.dcCols.map Prod.fst = delegationTitles) (n : String) (titles : List Cell) (rows : List (List Cell))
    (at_ : String → Nat) (ht : ∀ t ∈ delegationTitles, TitleAt titles t (at_ t)) (hw : ∀ row ∈ rows, row.length = titles.length) :
    ∃ x', x.sheet ⟨n, .dc, titles, rows⟩ = .ok x' ∧ x'.dcCols.map Prod.fst = delegationTitles ∧ x'.acCols = x.acCols ∧
      x'.table = addTo x.table n (rows.map fun row => .delegation ((row[at_ "Short Name"]?.join).getD "")
        (row[at_ "Inner SW-C"]?.join) (row[at_ "Inner PPort"]?.join) (row[at_ "Outer PPort"]?.join) (row[at_ "Inner RPort"]?.join)
        (row[at_ "Outer RPort"]?.join)) := by
  have hmem : ∀ t ∈ delegationTitles, (x.dcCols.lookup t).isSome = true := by
    intro t ht
    exact lookup_of_key (by rw [hx]; exact ht)
  have hl : ∀ t ∈ delegationTitles, (columnTitles x.dcCols 0 titles).lookup t = some (at_ t : Int) :=
    fun t h => columnTitles_at (ht t h) _ (hmem t h)
  have hk := columnTitles_keys titles x.dcCols 0
  have hf : titlesFound (columnTitles x.dcCols 0 titles) = true :=
    titlesFound_of (by rw [hk, hx]; decide) (f := at_) (by rw [hk, hx]; exact hl)
  have hrd : ∀ row ∈ rows, readDelegation (columnTitles x.dcCols 0 titles) row = .ok (.delegation ((row[at_ "Short Name"]?.join).getD "")
        (row[at_ "Inner SW-C"]?.join) (row[at_ "Inner PPort"]?.join) (row[at_ "Outer PPort"]?.join) (row[at_ "Inner RPort"]?.join)
        (row[at_ "Outer RPort"]?.join)) := by
    intro row hr
    have hc : ∀ t ∈ delegationTitles, cellAt (columnTitles x.dcCols 0 titles) t row = .ok (row[at_ t]?.join) := by
      intro t h
      obtain ⟨a, b, e, hi, _⟩ := titleAt_split (ht t h)
      have hlt : at_ t < row.length := by rw [hw row hr, e]; simp; omega
      rw [cellAt_eq (hl t h) hlt]
      simp [hlt]
    unfold readDelegation nameAt
    rw [hc _ (by decide), hc _ (by decide), hc _ (by decide), hc _ (by decide), hc _ (by decide), hc _ (by decide)]
    rfl
  refine ⟨{ x with dcCols := columnTitles x.dcCols 0 titles, table := addTo x.table n (rows.map _) }, ?_, hk.trans hx, rfl, rfl⟩
  simp only [XlsReader.sheet, hf, if_true, mapM_ok rows hrd]; rfl

/-- **C49 (several sheets)** The rows of a sheet come after those read before for the same composition; the rows of other compositions
stay. -/
theorem C49_rows_added (t : List (String × List ConnRow)) (n m : String) (l : List ConnRow) :
    ((addTo t n l).lookup m).getD [] = (t.lookup m).getD [] ++ if m = n then l else [] := by
  induction t with
  | nil =>
    by_cases h : m = n
    · simp [addTo, List.lookup_cons, h]
    · have : (m == n) = false := by simpa using h
      simp [addTo, List.lookup_cons, h, this]
  | cons e t ih =>
    obtain ⟨k, v⟩ := e
    rw [addTo]
    by_cases hk : k = n
    · rw [if_pos hk]
      subst hk
      by_cases h : m = k
      · simp [List.lookup_cons, h]
      · have : (m == k) = false := by simpa using h
        simp [List.lookup_cons, h, this]
    · rw [if_neg hk, List.lookup_cons, List.lookup_cons]
      by_cases h : m = k
      · subst h; simp [hk]
      · have : (m == k) = false := by simpa using h
        rw [this]; exact ih

/-- **C49 (missing title)** A sheet without one of the titles is refused by a new reader. -/
theorem C49_missing_partial (n : String) (titles : List Cell) (rows : List (List Cell)) (t : String) (ht : t ∈ assemblyTitles) (h : some t ∉ titles) :
    XlsReader.new.sheet ⟨n, .ac, titles, rows⟩ = .error .valueError := by
  have hl := columnTitles_absent titles t XlsReader.new.acCols 0 h
  have h1 : XlsReader.new.acCols.lookup t = some (-1) := by
    have : ∀ t ∈ assemblyTitles, XlsReader.new.acCols.lookup t = some (-1) := by decide
    exact this t ht
  rw [h1] at hl
  have hf : titlesFound (columnTitles XlsReader.new.acCols 0 titles) = false := by
    rw [titlesFound, List.all_eq_false]
    exact ⟨(t, -1), mem_of_lookup hl, by simp⟩
  simp [XlsReader.sheet, hf]

/-- **C49 is refuted for a later sheet without a title**: the columns of the sheet before are used, here the text of a remark is taken
for a port. -/
theorem C49_missing_broken :
    (XlsReader.new.sheets [⟨"A", .ac, [some "Short Name", some "Provide SW-C", some "PPort", some "Request SW-C", some "RPort"], []⟩,
      ⟨"B", .ac, [some "Short Name", some "Provide SW-C", some "PPort", some "Request SW-C", some "Remark"],
        [[some "x", some "/c", some "/p", some "/d", some "to do"]]⟩]).map XlsReader.table
    = .ok [("A", []), ("B", [.assembly "x" (some "/c") (some "/p") (some "/d") (some "to do")])] := by decide

/-- the hypotheses are met by a sheet with its columns in another order and an extra column -/
example : ∀ t ∈ assemblyTitles, TitleAt [some "RPort", some "PPort", none, some "Short Name", some "Request SW-C", some "Provide SW-C"] t
    (match t with | "RPort" => 0 | "PPort" => 1 | "Short Name" => 3 | "Request SW-C" => 4 | _ => 5) := by
  intro t ht
  simp only [assemblyTitles, List.mem_cons, List.not_mem_nil, or_false] at ht
  intro j
  rcases ht with rfl | rfl | rfl | rfl | rfl <;>
    (match j with
     | 0 => decide | 1 => decide | 2 => decide | 3 => decide | 4 => decide | 5 => decide
     | j + 6 => simp)

/-- **C49 (report)** is refuted for every composition with an assembly connector that was not set up by the table update: the
report reads an attribute such a connector does not have. -/
theorem C49_report_broken (H : Hier) (n : String) (s : Composition) (e : Elem) (he : e ∈ s.connectors)
    (ha : H.sub e.cls k!"AssemblySwConnector" = true) (hs : s.attrs e.id k!"provider_iref" = none) :
    ∃ x, reportAC H n s = .error x := by
  have hm : e ∈ s.typedConnectors H k!"AssemblySwConnector" :=
    (sortBy_perm _ _).mem_iff.mpr (List.mem_filter.mpr ⟨he, ha⟩)
  have hx : reportAssembly s e = .error .attributeError := by simp [reportAssembly, hs]
  have : ∀ l : List Elem, e ∈ l → ∃ x, l.mapM (reportAssembly s) = .error x := by
    intro l
    induction l with
    | nil => intro h; simp at h
    | cons a l ih =>
      intro h
      rw [List.mapM_cons]
      rcases List.mem_cons.mp h with rfl | h
      · exact ⟨_, by rw [hx]; rfl⟩
      · cases reportAssembly s a with
        | error x => exact ⟨x, rfl⟩
        | ok r =>
          obtain ⟨x, hx⟩ := ih h
          exact ⟨x, by rw [hx]; rfl⟩
  obtain ⟨x, hx⟩ := this _ hm
  exact ⟨x, by rw [reportAC, hx]; rfl⟩

example : demoComp.connectors = [⟨0, "A", k!"AssemblySwConnector"⟩] ∧ demoComp.attrs 0 k!"provider_iref" = none := by decide +kernel

/-- the kinds are distinct classes of the repository -/
theorem kinds_distinct : armodel.sub k!"DelegationSwConnector" k!"AssemblySwConnector" = false ∧
    armodel.sub k!"AssemblySwConnector" k!"DelegationSwConnector" = false := by decide +kernel

def isAssembly : ConnRow → Bool
  | .assembly .. => true
  | .delegation .. => false

/-- **C49 (report, partial)** After an update with new names, the report followed by reading gives back the assembly rows of the table,
sorted by short name. -/
theorem C49_report_assembly_partial (s : Composition) (rows : List ConnRow) (hs : Fits s)
    (hn : ∀ r ∈ rows, s.own.coll.slot (rowName r) = none) (hc : ∀ r ∈ rows, rowComplete r = true) (hd : (rows.map rowName).Nodup) (n : String) :
    ∃ s' sheet x, s.update armodel rows = .ok s' ∧ reportAC armodel n s' = .ok sheet ∧ XlsReader.new.sheet sheet = .ok x ∧
      x.table = [(n, sortBy rowName (rows.filter isAssembly))] := by
  obtain ⟨s', new, h1, h2, h3⟩ := C44_fresh_partial armodel s rows hs hn hc hd
  have hf : s'.connectors.filter (inst armodel k!"AssemblySwConnector") = new.filter (inst armodel k!"AssemblySwConnector") := by
    rw [h2, List.filter_append]
    have : (otherConnectors armodel s.connectors).filter (inst armodel k!"AssemblySwConnector") = [] := by
      rw [List.filter_eq_nil_iff]
      intro e he
      have := (List.mem_filter.mp he).2
      simp only [Bool.and_eq_true, Bool.not_eq_true'] at this
      simp [inst, this.1]
    rw [this, List.nil_append]
  let cells : ConnRow → List Cell
    | .assembly m a b c d => [some m, a, b, c, d]
    | .delegation .. => []
  have hrel : List.Forall₂ (fun r e => reportAssembly s' e = .ok (cells r)) (sortBy rowName (rows.filter isAssembly))
      (s'.typedConnectors armodel k!"AssemblySwConnector") := by
    rw [typedConnectors, hf]
    have hfl := filter_rel (p := isAssembly) (q := inst armodel k!"AssemblySwConnector") (fun r e (h : e.name = rowName r ∧ e.cls = rowClass r ∧ _) => by
      rw [inst, h.2.1]
      cases r with
      | assembly => exact (armodel.refl _).symm
      | delegation => exact kinds_distinct.1.symm) h3
    have hso := sortBy_rel (f := rowName) (g := Elem.name) (fun r e (h : e.name = rowName r ∧ e.cls = rowClass r ∧ _) => h.1.symm) hfl
    have hall : ∀ r ∈ sortBy rowName (rows.filter isAssembly), isAssembly r = true := fun r hr =>
      (List.mem_filter.mp ((sortBy_perm _ _).mem_iff.mp hr)).2
    generalize sortBy rowName (rows.filter isAssembly) = l at hso hall
    generalize sortBy Elem.name (new.filter (inst armodel k!"AssemblySwConnector")) = m at hso
    induction hso with
    | nil => exact .nil
    | @cons r e l m hre _ ih =>
      refine .cons ?_ (ih fun r hr => hall r (by simp [hr]))
      cases r with
      | delegation => exact absurd (hall _ List.mem_cons_self) (by simp [isAssembly])
      | assembly nm a b c d =>
        have e1 := hre.2.2 (k!"provider_iref", .iref true a b) (by simp [rowEnds])
        have e2 := hre.2.2 (k!"requester_iref", .iref false c d) (by simp [rowEnds])
        simp only at e1 e2
        simp only [reportAssembly, e1, e2, hre.1]; rfl
  have hrep : reportAC armodel n s' = .ok ⟨n, .ac, ["Short Name", "Provide SW-C", "PPort", "Request SW-C", "RPort"].map some,
      (sortBy rowName (rows.filter isAssembly)).map cells⟩ := by
    rw [reportAC, mapM_rel hrel]; rfl
  have hall : ∀ r ∈ sortBy rowName (rows.filter isAssembly), isAssembly r = true := fun r hr =>
    (List.mem_filter.mp ((sortBy_perm _ _).mem_iff.mp hr)).2
  obtain ⟨x, g1, _, _, g4⟩ := C49_assembly_columns XlsReader.new (by decide) n (["Short Name", "Provide SW-C", "PPort", "Request SW-C", "RPort"].map some)
    ((sortBy rowName (rows.filter isAssembly)).map cells)
    (fun t => match t with | "Short Name" => 0 | "Provide SW-C" => 1 | "PPort" => 2 | "Request SW-C" => 3 | _ => 4)
    (by
      intro t ht
      simp only [assemblyTitles, List.mem_cons, List.not_mem_nil, or_false] at ht
      intro j
      rcases ht with rfl | rfl | rfl | rfl | rfl <;>
        (match j with
         | 0 => decide | 1 => decide | 2 => decide | 3 => decide | 4 => decide
         | j + 5 => simp))
    (by
      intro row hr
      obtain ⟨r, hr', rfl⟩ := List.mem_map.mp hr
      have := hall r hr'
      cases r with
      | assembly => rfl
      | delegation => cases this)
  refine ⟨s', _, x, h1, hrep, g1, ?_⟩
  rw [g4, List.map_map]
  show [(n, _)] = _
  congr 2
  conv_rhs => rw [← List.map_id (sortBy rowName (rows.filter isAssembly))]
  apply List.map_congr_left
  intro r hr
  have := hall r hr
  cases r with
  | assembly => rfl
  | delegation => cases this

def isDelegation : ConnRow → Bool
  | .assembly .. => false
  | .delegation .. => true

/-- the ports of a row that are used -/
def usedPorts : ConnRow → ConnRow
  | .delegation n c ip op ir orr => if ip.isSome && op.isSome then .delegation n c ip op none none else .delegation n c none none ir orr
  | r => r

/-- **C49 (report, partial)** After an update with new names, the report followed by reading gives back the delegation rows of the table,
sorted by short name, each with the ports that were used: those of the P port pair if it is complete. -/
theorem C49_report_delegation_partial (s : Composition) (rows : List ConnRow) (hs : Fits s)
    (hn : ∀ r ∈ rows, s.own.coll.slot (rowName r) = none) (hc : ∀ r ∈ rows, rowComplete r = true) (hd : (rows.map rowName).Nodup) (n : String) :
    ∃ s' sheet x, s.update armodel rows = .ok s' ∧ reportDC armodel n s' = .ok sheet ∧ XlsReader.new.sheet sheet = .ok x ∧
      x.table = [(n, (sortBy rowName (rows.filter isDelegation)).map usedPorts)] := by
  obtain ⟨s', new, h1, h2, h3⟩ := C44_fresh_partial armodel s rows hs hn hc hd
  have hf : s'.connectors.filter (inst armodel k!"DelegationSwConnector") = new.filter (inst armodel k!"DelegationSwConnector") := by
    rw [h2, List.filter_append]
    have : (otherConnectors armodel s.connectors).filter (inst armodel k!"DelegationSwConnector") = [] := by
      rw [List.filter_eq_nil_iff]
      intro e he
      have := (List.mem_filter.mp he).2
      simp only [Bool.and_eq_true, Bool.not_eq_true'] at this
      simp [inst, this.2]
    rw [this, List.nil_append]
  let cells : ConnRow → List Cell
    | .assembly .. => []
    | .delegation m c ip op ir orr => if ip.isSome && op.isSome then [some m, c, ip, op, none, none] else [some m, c, none, none, ir, orr]
  have hrel : List.Forall₂ (fun r e => reportDelegation s' e = .ok (cells r)) (sortBy rowName (rows.filter isDelegation))
      (s'.typedConnectors armodel k!"DelegationSwConnector") := by
    rw [typedConnectors, hf]
    have hfl := filter_rel (p := isDelegation) (q := inst armodel k!"DelegationSwConnector") (fun r e (h : e.name = rowName r ∧ e.cls = rowClass r ∧ _) => by
      rw [inst, h.2.1]
      cases r with
      | assembly => exact kinds_distinct.2.symm
      | delegation => exact (armodel.refl _).symm) h3
    have hso := sortBy_rel (f := rowName) (g := Elem.name) (fun r e (h : e.name = rowName r ∧ e.cls = rowClass r ∧ _) => h.1.symm) hfl
    have hall : ∀ r ∈ sortBy rowName (rows.filter isDelegation), isDelegation r = true := fun r hr =>
      (List.mem_filter.mp ((sortBy_perm _ _).mem_iff.mp hr)).2
    generalize sortBy rowName (rows.filter isDelegation) = l at hso hall
    generalize sortBy Elem.name (new.filter (inst armodel k!"DelegationSwConnector")) = m at hso
    induction hso with
    | nil => exact .nil
    | @cons r e l m hre _ ih =>
      refine .cons ?_ (ih fun r hr => hall r (by simp [hr]))
      cases r with
      | assembly => exact absurd (hall _ List.mem_cons_self) (by simp [isDelegation])
      | delegation nm c ip op ir orr =>
        by_cases hp : (ip.isSome && op.isSome) = true
        · have e1 := hre.2.2 (k!"inner_port_iref", .iref true c ip) (by simp [rowEnds, hp])
          have e2 := hre.2.2 (k!"outer_port_ref", .ref true op) (by simp [rowEnds, hp])
          simp only at e1 e2
          simp only [reportDelegation, e1, e2, hre.1, cells, hp, if_true]
          rfl
        · have e1 := hre.2.2 (k!"inner_port_iref", .iref false c ir) (by simp [rowEnds, hp])
          have e2 := hre.2.2 (k!"outer_port_ref", .ref false orr) (by simp [rowEnds, hp])
          simp only at e1 e2
          simp only [reportDelegation, e1, e2, hre.1, cells, hp]
          rfl
  have hrep : reportDC armodel n s' = .ok ⟨n, .dc, ["Short Name", "Inner SW-C", "Inner PPort", "Outer PPort", "Inner RPort", "Outer RPort"].map some,
      (sortBy rowName (rows.filter isDelegation)).map cells⟩ := by
    rw [reportDC, mapM_rel hrel]; rfl
  have hall : ∀ r ∈ sortBy rowName (rows.filter isDelegation), isDelegation r = true := fun r hr =>
    (List.mem_filter.mp ((sortBy_perm _ _).mem_iff.mp hr)).2
  obtain ⟨x, g1, _, _, g4⟩ := C49_delegation_columns XlsReader.new (by decide) n (["Short Name", "Inner SW-C", "Inner PPort", "Outer PPort", "Inner RPort", "Outer RPort"].map some)
    ((sortBy rowName (rows.filter isDelegation)).map cells)
    (fun t => match t with | "Short Name" => 0 | "Inner SW-C" => 1 | "Inner PPort" => 2 | "Outer PPort" => 3 | "Inner RPort" => 4 | _ => 5)
    (by
      intro t ht
      simp only [delegationTitles, List.mem_cons, List.not_mem_nil, or_false] at ht
      intro j
      rcases ht with rfl | rfl | rfl | rfl | rfl | rfl <;>
        (match j with
         | 0 => decide | 1 => decide | 2 => decide | 3 => decide | 4 => decide | 5 => decide
         | j + 6 => simp))
    (by
      intro row hr
      obtain ⟨r, hr', rfl⟩ := List.mem_map.mp hr
      have := hall r hr'
      cases r with
      | assembly => cases this
      | delegation nm c ip op ir orr => simp only [cells]; split <;> rfl)
  refine ⟨s', _, x, h1, hrep, g1, ?_⟩
  rw [g4, List.map_map]
  show [(n, _)] = _
  congr 2
  apply List.map_congr_left
  intro r hr
  have := hall r hr
  cases r with
  | assembly => cases this
  | delegation nm c ip op ir orr =>
    by_cases hp : (ip.isSome && op.isSome) = true
    · simp only [Function.comp, cells, usedPorts, hp, if_true]; rfl
    · simp only [Function.comp, cells, usedPorts, hp]; rfl

example : usedPorts (.delegation "D" (some "C") (some "p") (some "q") (some "r") none) = .delegation "D" (some "C") (some "p") (some "q") none none ∧
    usedPorts (.delegation "D" (some "C") (some "p") none (some "r") (some "s")) = .delegation "D" (some "C") none none (some "r") (some "s") := by decide

end Verif.Props
