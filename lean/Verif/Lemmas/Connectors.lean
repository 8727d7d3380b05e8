import Verif.Spec.Connectors
import Verif.Lemmas.Create
import Mathlib.Data.List.Forall2
/-!
# Removing and creating connectors
-/
namespace Verif.Lemmas
open Verif.Model Verif.Model.Coll Verif.Model.Composition Verif.Spec

theorem removeLoop_spec (l : List Elem) : ∀ (s : Composition), Fits s → l.Nodup → (∀ e ∈ l, e ∈ s.connectors) →
    ∃ s', s.removeLoop l = .ok s' ∧ s'.connectors = s.connectors.filter (fun e => !decide (e ∈ l)) ∧
      Fits s' ∧ s'.own.coll.mappings = s.own.coll.mappings ∧ s'.attrs = s.attrs ∧ s'.next = s.next ∧
      s'.own.coll.elements = s.own.coll.elements.filter (fun e => !decide (e ∈ l)) := by
  induction l with
  | nil => intro s hs _ _; exact ⟨s, rfl, by simp, hs, rfl, rfl, rfl, by simp⟩
  | cons e r ih =>
    intro s hs hnd hm
    have hc : e ∈ s.connectors := hm e (by simp)
    have he : e ∈ s.own.coll.elements := hs.1.subset hc
    have hcn : s.connectors.Nodup := hs.1.nodup hs.2
    rw [removeLoop, listRemove, if_pos he]
    dsimp only
    rw [listRemove, if_pos hc]
    dsimp only
    rw [List.nodup_cons] at hnd
    obtain ⟨s', h1, h2, h3, h4, h5, h6, h7⟩ := ih
      { s with own := { s.own with
          coll := { s.own.coll with elements := s.own.coll.elements.erase e }
          lists := fun k => if k = k!"connectors" then s.connectors.erase e else s.own.lists k } }
      ⟨by simpa [Composition.connectors] using hs.1.erase e, hs.2.erase e⟩ hnd.2
      (fun x hx => by
        have : x ≠ e := fun h => hnd.1 (h ▸ hx)
        simpa [Composition.connectors] using (List.mem_erase_of_ne this).mpr (hm x (by simp [hx])))
    refine ⟨s', h1, ?_, h3, h4, h5, h6, ?_⟩
    · rw [h2]
      show List.filter _ (if k!"connectors" = k!"connectors" then s.connectors.erase e else s.own.lists k!"connectors") = _
      rw [if_pos rfl, hcn.erase_eq_filter, List.filter_filter]
      apply List.filter_congr
      intro x _
      by_cases hx : x = e <;> simp [hx]
    · rw [h7]
      show List.filter _ (s.own.coll.elements.erase e) = _
      rw [hs.2.erase_eq_filter, List.filter_filter]
      apply List.filter_congr
      intro x _
      by_cases hx : x = e <;> simp [hx]

theorem removeAll_spec (H : Hier) {s : Composition} (hs : Fits s) (t : Key) :
    ∃ s', s.removeAll H t = .ok s' ∧ s'.connectors = s.connectors.filter (fun e => !inst H t e) ∧
      Fits s' ∧ s'.own.coll.mappings = s.own.coll.mappings ∧ s'.attrs = s.attrs ∧ s'.next = s.next := by
  have hp : (s.typedConnectors H t).Perm (s.connectors.filter (inst H t)) := sortBy_perm _ _
  have hn : (s.typedConnectors H t).Nodup := hp.nodup_iff.mpr ((hs.1.nodup hs.2).filter _)
  obtain ⟨s', h1, h2, h3, h4, h5, h6, _⟩ := removeLoop_spec _ s hs hn (fun e he => (List.mem_filter.mp (hp.mem_iff.mp he)).1)
  refine ⟨s', h1, ?_, h3, h4, h5, h6⟩
  rw [h2]
  apply List.filter_congr
  intro e he
  simp [hp.mem_iff, List.mem_filter, he]

/-- both rows have the shape guard untyped, add, list, typed -/
def ConnShape (r : CreateRow) : Prop := r.pattern = ⟨.untyped, true, .list, .typed⟩ ∧ r.attr = k!"connectors"

/-- a create call with a new name -/
theorem createWith_fresh (H : Hier) {s : Composition} {r : CreateRow} (hr : ConnShape r) {n : String}
    (hn : s.own.coll.slot n = none) (a : List (Key × EndPoint)) :
    ∃ s', s.createWith H r n a = .ok s' ∧ s'.connectors = s.connectors ++ [⟨s.next, n, r.target⟩] ∧
      (∀ m, (s'.own.coll.slot m).isSome = ((m == n) || (s.own.coll.slot m).isSome)) ∧
      s'.attrs = (fun i k => if i = s.next then ((a.lookup k).or (s.attrs i k)) else s.attrs i k) ∧ s'.next = s.next + 1 := by
  obtain ⟨hp, ha⟩ := hr
  have hex : s.own.coll.isElementExists H n none = false := by simp [isElementExists, hn]
  have hext : s.own.coll.isElementExists H n (some r.target) = false := by simp [isElementExists, hn]
  have hcr : s.own.create H r n s.next = s.own.record H r ⟨s.next, n, r.target⟩ := by
    simp [Owner.create, Owner.construct, hp, hex]
  have hcoll : (s.own.create H r n s.next).coll = s.own.coll.addElement H ⟨s.next, n, r.target⟩ := by
    rw [hcr]; simp [Owner.record, hp]
  have hsl : ∀ m, (s.own.create H r n s.next).coll.slot m = if m = n then some [⟨s.next, n, r.target⟩] else s.own.coll.slot m := by
    intro m
    rw [hcoll, slot_add H ⟨s.next, n, r.target⟩ hext]
    by_cases hm : m = n
    · subst hm; simp [hn]
    · simp [hm]
  have hres : s.own.result H r n s.next = .ok (some ⟨s.next, n, r.target⟩) := by
    simp only [Owner.result, hp, getElement, hsl n, if_true, inst]
    rw [List.filter_cons_of_pos (by exact H.refl _)]
  refine ⟨_, by rw [createWith, hres], ?_, ?_, rfl, rfl⟩
  · show (s.own.create H r n s.next).lists k!"connectors" = _
    rw [hcr]
    simp only [Owner.record, hp, ha, if_true]
    rfl
  · intro m
    show ((s.own.create H r n s.next).coll.slot m).isSome = _
    rw [hsl]
    by_cases hm : m = n <;> simp [hm]

/-- a create call with a known name creates nothing -/
theorem createWith_known (H : Hier) {s s' : Composition} {r : CreateRow} (hr : ConnShape r) {n : String}
    (hn : (s.own.coll.slot n).isSome = true) {a : List (Key × EndPoint)} (h : s.createWith H r n a = .ok s') :
    s'.connectors = s.connectors ∧ s'.own = s.own := by
  obtain ⟨hp, ha⟩ := hr
  have hcr : s.own.create H r n s.next = s.own := by
    simp [Owner.create, Owner.construct, hp, isElementExists, hn]
  rw [createWith] at h
  cases hres : s.own.result H r n s.next with
  | error x => simp [hres] at h
  | ok o =>
    cases o with
    | none => simp [hres] at h
    | some e =>
      simp only [hres, Except.ok.injEq] at h
      subst h
      simp [Composition.connectors, hcr]

/-- the create row of a table row -/
def rowOf : ConnRow → CreateRow
  | .assembly .. => assemblyRow
  | .delegation .. => delegationRow

theorem rowOf_shape (r : ConnRow) : ConnShape (rowOf r) := by cases r <;> exact ⟨rfl, rfl⟩
theorem rowOf_target (r : ConnRow) : (rowOf r).target = rowClass r := by cases r <;> rfl

theorem addRow_eq (H : Hier) (s : Composition) (r : ConnRow) :
    s.addRow H r = if rowComplete r then s.createWith H (rowOf r) (rowName r) (rowEnds r) else .error .valueError := by
  cases r with
  | assembly => rfl
  | delegation n c ip op ir orr =>
    simp only [addRow, rowComplete, rowOf, rowName, rowEnds]
    by_cases h1 : (ip.isSome && op.isSome) = true
    · have h1' : ip.isSome ∧ op.isSome := by simpa using h1
      simp [h1, h1']
    · have h1' : ¬ (ip.isSome ∧ op.isSome) := by simpa using h1
      by_cases h2 : (ir.isSome && orr.isSome) = true
      · have h2' : ir.isSome ∧ orr.isSome := by simpa using h2
        simp only [h1, h2]; rw [if_neg h1', if_pos h2']; simp
      · have h2' : ¬ (ir.isSome ∧ orr.isSome) := by simpa using h2
        simp only [h1, h2]; rw [if_neg h1', if_neg h2']; simp

/-- the connectors after the rows were added, for every table -/
theorem addRows_exact (H : Hier) (rows : List ConnRow) : ∀ (s s' : Composition) (known : String → Bool),
    (∀ n, (s.own.coll.slot n).isSome = known n) → s.addRows H rows = .ok s' →
    ∃ new, s'.connectors = s.connectors ++ new ∧
      List.Forall₂ (fun r e => e.name = rowName r ∧ e.cls = rowClass r) (newRows known rows) new := by
  induction rows with
  | nil => intro s s' known _ h; cases h; exact ⟨[], by simp, by simp [newRows]⟩
  | cons r rows ih =>
    intro s s' known hk h
    rw [addRows] at h
    cases h1 : s.addRow H r with
    | error x => simp [h1] at h
    | ok s1 =>
      simp only [h1] at h
      rw [addRow_eq] at h1
      by_cases hc : rowComplete r = true
      · rw [if_pos hc] at h1
        by_cases hn : known (rowName r) = true
        · obtain ⟨e1, e2⟩ := createWith_known H (rowOf_shape r) (by rw [hk]; exact hn) h1
          obtain ⟨new, h2, h3⟩ := ih s1 s' known (by rw [e2]; exact hk) h
          exact ⟨new, by rw [h2, e1], by rw [newRows, if_pos hn]; exact h3⟩
        · have hsl : s.own.coll.slot (rowName r) = none := by
            have := hk (rowName r); rw [Bool.not_eq_true] at hn; rw [hn] at this; simpa using this
          obtain ⟨s1', g1, g2, g3, _, _⟩ := createWith_fresh H (rowOf_shape r) hsl (rowEnds r)
          rw [g1] at h1; cases h1
          obtain ⟨new, h2, h3⟩ := ih s1 s' (fun n => n == rowName r || known n) (by intro n; rw [g3, hk]) h
          refine ⟨⟨s.next, rowName r, (rowOf r).target⟩ :: new, by rw [h2, g2, List.append_assoc]; rfl, ?_⟩
          rw [newRows, if_neg hn]
          exact .cons ⟨rfl, rowOf_target r⟩ h3
      · rw [if_neg hc] at h1; cases h1

/-- distinct new names: one connector per row, with its end points -/
theorem addRows_fresh (H : Hier) (rows : List ConnRow) : ∀ (s : Composition),
    (∀ r ∈ rows, s.own.coll.slot (rowName r) = none ∧ rowComplete r = true) → (rows.map rowName).Nodup →
    ∃ s' new, s.addRows H rows = .ok s' ∧ s'.connectors = s.connectors ++ new ∧
      List.Forall₂ (fun r e => e.name = rowName r ∧ e.cls = rowClass r ∧ ∀ p ∈ rowEnds r, s'.attrs e.id p.1 = some p.2) rows new ∧
      (∀ i k, i < s.next → s'.attrs i k = s.attrs i k) := by
  induction rows with
  | nil => intro s _ _; exact ⟨s, [], rfl, by simp, by simp, fun _ _ _ => rfl⟩
  | cons r rows ih =>
    intro s h hnd
    obtain ⟨hsl, hc⟩ := h r (by simp)
    obtain ⟨s1, g1, g2, g3, g4, g5⟩ := createWith_fresh H (rowOf_shape r) hsl (rowEnds r)
    rw [List.map_cons, List.nodup_cons] at hnd
    obtain ⟨s', new, h1, h2, h3, h4⟩ := ih s1 (fun r' hr' => by
      refine ⟨?_, (h r' (by simp [hr'])).2⟩
      have hne : rowName r' ≠ rowName r := fun e => hnd.1 (e ▸ List.mem_map_of_mem hr')
      have := g3 (rowName r')
      rw [(h r' (by simp [hr'])).1] at this
      rw [beq_eq_false_iff_ne.mpr hne] at this
      simpa using this) hnd.2
    refine ⟨s', ⟨s.next, rowName r, (rowOf r).target⟩ :: new, ?_, by rw [h2, g2, List.append_assoc]; rfl, ?_, ?_⟩
    · rw [addRows, addRow_eq, if_pos hc, g1]; exact h1
    · refine .cons ⟨rfl, rowOf_target r, fun p hp => ?_⟩ h3
      rw [h4 _ _ (by rw [g5]; exact Nat.lt_succ_self _), g4]
      simp only [if_true]
      have hl : (rowEnds r).lookup p.1 = some p.2 := by
        cases r with
        | assembly n a b c d =>
          simp only [rowEnds, List.mem_cons, List.not_mem_nil, or_false] at hp ⊢
          rcases hp with rfl | rfl <;> simp [List.lookup_cons]
        | delegation n c ip op ir orr =>
          simp only [rowEnds] at hp ⊢
          split at hp <;> rename_i hi <;> simp only [hi, List.mem_cons, List.not_mem_nil, or_false] at hp ⊢ <;>
            rcases hp with rfl | rfl <;> first | rfl | simp [List.lookup_cons]
      rw [hl]; rfl
    · intro i k hi
      rw [h4 i k (by rw [g5]; omega), g4]
      dsimp only
      rw [if_neg (by omega)]

theorem others_eq (H : Hier) (l : List Elem) :
    (l.filter (fun e => !inst H k!"AssemblySwConnector" e)).filter (fun e => !inst H k!"DelegationSwConnector" e) = otherConnectors H l := by
  rw [List.filter_filter]
  apply List.filter_congr
  intro e _
  simp [inst, Bool.and_comm]

/-- the state after the two removals -/
theorem removed_spec (H : Hier) {s : Composition} (hs : Fits s) (rows : List ConnRow) :
    ∃ s2, s.update H rows = s2.addRows H rows ∧ s2.connectors = otherConnectors H s.connectors ∧ Fits s2 ∧
      (∀ n, s2.own.coll.slot n = s.own.coll.slot n) ∧ s2.attrs = s.attrs ∧ s2.next = s.next := by
  obtain ⟨s1, a1, a2, a3, a4, a5, a6⟩ := removeAll_spec H hs k!"AssemblySwConnector"
  obtain ⟨s2, b1, b2, b3, b4, b5, b6⟩ := removeAll_spec H a3 k!"DelegationSwConnector"
  refine ⟨s2, by rw [update, a1]; dsimp only; rw [b1], by rw [b2, a2, others_eq], b3, ?_, by rw [b5, a5], by rw [b6, a6]⟩
  intro n; rw [slot, slot, b4, a4]

/-- the attributes written are the four of the update -/
theorem addRow_attrs (H : Hier) {s s' : Composition} {r : ConnRow} (h : s.addRow H r = .ok s') (i : Nat) (k : Key)
    (hk : k ∉ [k!"provider_iref", k!"requester_iref", k!"inner_port_iref", k!"outer_port_ref"]) : s'.attrs i k = s.attrs i k := by
  rw [addRow_eq] at h
  split at h
  · rw [createWith] at h
    split at h
    · cases h
    · cases h
    · cases h
      dsimp only
      split
      · have : (rowEnds r).lookup k = none := by
          simp only [List.mem_cons, List.not_mem_nil, or_false, not_or] at hk
          cases r with
          | assembly n a b c d =>
            simp only [rowEnds, List.lookup_cons, beq_eq_false_iff_ne.mpr hk.1, beq_eq_false_iff_ne.mpr hk.2.1, List.lookup_nil]
          | delegation n c ip op ir orr =>
            simp only [rowEnds]
            split <;> simp only [List.lookup_cons, beq_eq_false_iff_ne.mpr hk.2.2.1, beq_eq_false_iff_ne.mpr hk.2.2.2, List.lookup_nil]
        rw [this]; rfl
      · rfl
  · cases h

theorem addRows_attrs (H : Hier) (rows : List ConnRow) : ∀ {s s' : Composition}, s.addRows H rows = .ok s' → ∀ (i : Nat) (k : Key),
    k ∉ [k!"provider_iref", k!"requester_iref", k!"inner_port_iref", k!"outer_port_ref"] → s'.attrs i k = s.attrs i k := by
  induction rows with
  | nil => intro s s' h i k _; cases h; rfl
  | cons r rows ih =>
    intro s s' h i k hk
    rw [addRows] at h
    cases h1 : s.addRow H r with
    | error x => simp [h1] at h
    | ok s1 =>
      simp only [h1] at h
      rw [ih h i k hk, addRow_attrs H h1 i k hk]

/-! ### Packages -/

theorem updateSwcs_spec (H : Hier) (n : String) (rows : List ConnRow) (l : List Swc) : ∀ l', updateSwcs H n rows l = .ok l' →
    List.Forall₂ (fun c c' => c'.name = c.name ∧ (c.name ≠ n → c' = c) ∧
      (c.name = n → ∃ s s', c.comp = some s ∧ c'.comp = some s' ∧ s.update H rows = .ok s')) l l' := by
  induction l with
  | nil => intro l' h; cases h; exact .nil
  | cons c r ih =>
    intro l' h
    rw [updateSwcs] at h
    by_cases hn : c.name = n
    · rw [if_pos hn] at h
      cases hc : c.comp with
      | none => simp [hc] at h
      | some s =>
        simp only [hc] at h
        cases hu : s.update H rows with
        | error x => simp [hu] at h
        | ok s' =>
          simp only [hu] at h
          cases hr : updateSwcs H n rows r with
          | error x => simp [hr, Except.map] at h
          | ok r' =>
            simp only [hr, Except.map, Except.ok.injEq] at h
            subst h
            exact .cons ⟨rfl, fun h => absurd hn h, fun _ => ⟨s, s', hc, rfl, hu⟩⟩ (ih r' hr)
    · rw [if_neg hn] at h
      cases hr : updateSwcs H n rows r with
      | error x => simp [hr, Except.map] at h
      | ok r' =>
        simp only [hr, Except.map, Except.ok.injEq] at h
        subst h
        exact .cons ⟨rfl, fun _ => rfl, fun h => absurd h hn⟩ (ih r' hr)

mutual
theorem locate_spec (H : Hier) (n : String) (rows : List ConnRow) (p p' : SwcPkg) (h : locate H n rows p = .ok p') :
    List.Forall₂ (fun c c' => c'.name = c.name ∧ (c.name ≠ n → c' = c) ∧
      (c.name = n → ∃ s s', c.comp = some s ∧ c'.comp = some s' ∧ s.update H rows = .ok s')) (allSwcs [p]) (allSwcs [p']) := by
  cases p with
  | mk swcs subs =>
    rw [locate] at h
    cases h1 : updateSwcs H n rows swcs with
    | error x => simp [h1] at h
    | ok swcs' =>
      simp only [h1] at h
      cases h2 : locateAll H n rows subs with
      | error x => simp [h2, Except.map] at h
      | ok subs' =>
        simp only [h2, Except.map, Except.ok.injEq] at h
        subst h
        simp only [allSwcs, List.append_nil]
        exact List.rel_append (updateSwcs_spec H n rows swcs swcs' h1) (locateAll_spec H n rows subs subs' h2)
theorem locateAll_spec (H : Hier) (n : String) (rows : List ConnRow) (l l' : List SwcPkg) (h : locateAll H n rows l = .ok l') :
    List.Forall₂ (fun c c' => c'.name = c.name ∧ (c.name ≠ n → c' = c) ∧
      (c.name = n → ∃ s s', c.comp = some s ∧ c'.comp = some s' ∧ s.update H rows = .ok s')) (allSwcs l) (allSwcs l') := by
  cases l with
  | nil => rw [locateAll] at h; cases h; simp [allSwcs]
  | cons p r =>
    rw [locateAll] at h
    cases h1 : locate H n rows p with
    | error x => simp [h1] at h
    | ok p' =>
      simp only [h1] at h
      cases h2 : locateAll H n rows r with
      | error x => simp [h2, Except.map] at h
      | ok r' =>
        simp only [h2, Except.map, Except.ok.injEq] at h
        subst h
        have a := locate_spec H n rows p p' h1
        have b := locateAll_spec H n rows r r' h2
        cases p; cases p'
        simp only [allSwcs, List.append_nil] at a ⊢
        exact List.rel_append a b
end

/-! ### Column titles -/

theorem columnTitles_keys (l : List Cell) : ∀ (cols : List (String × Int)) (i : Nat),
    (columnTitles cols i l).map Prod.fst = cols.map Prod.fst := by
  induction l with
  | nil => intro cols i; rfl
  | cons c r ih =>
    intro cols i
    rw [columnTitles, ih, List.map_map]
    apply List.map_congr_left
    intro p _
    simp only [Function.comp]
    split <;> rfl

theorem lookup_map_title (cols : List (String × Int)) (c : Cell) (i : Int) (t : String) :
    (cols.map fun p => if c = some p.1 then (p.1, i) else p).lookup t = if c = some t then (cols.lookup t).map fun _ => i else cols.lookup t := by
  induction cols with
  | nil => simp
  | cons p cols ih =>
    obtain ⟨k, v⟩ := p
    rw [List.map_cons]
    by_cases hp : t = k
    · subst hp
      by_cases hc : c = some t
      · simp [hc, List.lookup_cons]
      · simp [hc, List.lookup_cons]
    · have hb : (t == k) = false := by simpa using hp
      by_cases hc : c = some k
      · simp only [if_pos hc, List.lookup_cons, hb, ih]
      · simp only [if_neg hc, List.lookup_cons, hb, ih]

/-- the last column with the title counts; without one, what was there before stays -/
theorem columnTitles_absent (l : List Cell) (t : String) : ∀ (cols : List (String × Int)) (i : Nat), some t ∉ l →
    (columnTitles cols i l).lookup t = cols.lookup t := by
  induction l with
  | nil => intro cols i _; rfl
  | cons c r ih =>
    intro cols i h
    simp only [List.mem_cons, not_or] at h
    rw [columnTitles, ih _ _ h.2, lookup_map_title, if_neg (fun e => h.1 e.symm)]

theorem columnTitles_last (a b : List Cell) (t : String) : ∀ (cols : List (String × Int)) (i : Nat), some t ∉ b →
    (cols.lookup t).isSome = true → (columnTitles cols i (a ++ some t :: b)).lookup t = some ((i + a.length : Nat) : Int) := by
  induction a with
  | nil =>
    intro cols i hb hc
    rw [List.nil_append, columnTitles, columnTitles_absent _ _ _ _ hb, lookup_map_title, if_pos rfl]
    obtain ⟨v, hv⟩ := Option.isSome_iff_exists.mp hc
    simp [hv]
  | cons x a ih =>
    intro cols i hb hc
    rw [List.cons_append, columnTitles, ih _ _ hb]
    · congr 2; simp; omega
    · rw [lookup_map_title]; split <;> simp [hc]

theorem titleAt_split {l : List Cell} {t : String} {i : Nat} (h : TitleAt l t i) :
    ∃ a b, l = a ++ some t :: b ∧ a.length = i ∧ some t ∉ b := by
  have hi := (h i).mpr rfl
  have hlt : i < l.length := by
    rcases Nat.lt_or_ge i l.length with h | h
    · exact h
    · rw [List.getElem?_eq_none h] at hi; cases hi
  have hg : l[i] = some t := by rw [List.getElem?_eq_getElem hlt] at hi; exact Option.some.inj hi
  refine ⟨l.take i, l.drop (i + 1), ?_, by simp; omega, ?_⟩
  · rw [← hg, ← List.drop_eq_getElem_cons hlt, List.take_append_drop]
  · intro hm
    obtain ⟨j, hj⟩ := List.mem_iff_getElem?.mp hm
    rw [List.getElem?_drop] at hj
    have := (h _).mp hj
    omega

theorem columnTitles_at {l : List Cell} {t : String} {i : Nat} (h : TitleAt l t i) (cols : List (String × Int))
    (hc : (cols.lookup t).isSome = true) : (columnTitles cols 0 l).lookup t = some (i : Int) := by
  obtain ⟨a, b, rfl, rfl, hb⟩ := titleAt_split h
  rw [columnTitles_last a b t cols 0 hb hc, Nat.zero_add]

theorem titlesFound_of {cols : List (String × Int)} (hn : (cols.map Prod.fst).Nodup) {f : String → Nat}
    (h : ∀ t ∈ cols.map Prod.fst, cols.lookup t = some (f t : Int)) : titlesFound cols = true := by
  rw [titlesFound, List.all_eq_true]
  have key : ∀ (c : List (String × Int)), (c.map Prod.fst).Nodup → ∀ p ∈ c, c.lookup p.1 = some p.2 := by
    intro c
    induction c with
    | nil => intro _ p hp; simp at hp
    | cons q c ih =>
      obtain ⟨q, v⟩ := q
      intro hn p hp
      rw [List.map_cons, List.nodup_cons] at hn
      rcases List.mem_cons.mp hp with rfl | hp
      · simp [List.lookup_cons]
      · have : p.1 ≠ q := fun e => hn.1 (by show q ∈ _; rw [← e]; exact List.mem_map_of_mem hp)
        rw [List.lookup_cons, beq_eq_false_iff_ne.mpr this]
        exact ih hn.2 p hp
  intro p hp
  have h1 := key cols hn p hp
  rw [h p.1 (List.mem_map_of_mem hp)] at h1
  have : p.2 = (f p.1 : Int) := (Option.some.inj h1).symm
  simp only [bne_iff_ne, ne_eq, this]
  omega

theorem cellAt_eq {cols : List (String × Int)} {t : String} {i : Nat} {row : List Cell} (h : cols.lookup t = some (i : Int))
    (hi : i < row.length) : cellAt cols t row = .ok row[i] := by
  simp [cellAt, h, hi]

theorem lookup_of_key {cols : List (String × Int)} {t : String} (h : t ∈ cols.map Prod.fst) : (cols.lookup t).isSome = true := by
  induction cols with
  | nil => simp at h
  | cons p cols ih =>
    obtain ⟨k, v⟩ := p
    by_cases hk : t = k
    · subst hk; simp [List.lookup_cons]
    · rw [List.lookup_cons, beq_eq_false_iff_ne.mpr hk]
      exact ih (by simpa [hk] using h)

theorem mem_of_lookup {cols : List (String × Int)} {t : String} {v : Int} (h : cols.lookup t = some v) : (t, v) ∈ cols := by
  induction cols with
  | nil => simp at h
  | cons p cols ih =>
    obtain ⟨k, w⟩ := p
    by_cases hk : t = k
    · subst hk; simp [List.lookup_cons] at h; simp [h]
    · rw [List.lookup_cons, beq_eq_false_iff_ne.mpr hk] at h
      exact List.mem_cons_of_mem _ (ih h)

theorem name_inj {l : List Elem} (h : (l.map Elem.name).Nodup) {a b : Elem} (ha : a ∈ l) (hb : b ∈ l) (e : a.name = b.name) : a = b := by
  induction l with
  | nil => simp at ha
  | cons x l ih =>
    rw [List.map_cons, List.nodup_cons] at h
    rcases List.mem_cons.mp ha with h1 | h1 <;> rcases List.mem_cons.mp hb with h2 | h2
    · rw [h1, h2]
    · exact absurd (List.mem_map_of_mem (f := Elem.name) h2) (by rw [← e, h1]; exact h.1)
    · exact absurd (List.mem_map_of_mem (f := Elem.name) h1) (by rw [e, h2]; exact h.1)
    · exact ih h.2 h1 h2

/-! ### Sorting related lists -/

theorem insertBy_rel {α β : Type} {R : α → β → Prop} {f : α → String} {g : β → String} (hR : ∀ a b, R a b → f a = g b)
    {a : α} {b : β} (hab : R a b) {l : List α} {m : List β} (h : List.Forall₂ R l m) :
    List.Forall₂ R (insertBy f a l) (insertBy g b m) := by
  induction h with
  | nil => exact .cons hab .nil
  | @cons x y l m hxy h ih =>
    unfold insertBy
    rw [hR a b hab, hR x y hxy]
    split
    · exact .cons hab (.cons hxy h)
    · exact .cons hxy ih

theorem sortBy_rel {α β : Type} {R : α → β → Prop} {f : α → String} {g : β → String} (hR : ∀ a b, R a b → f a = g b)
    {l : List α} {m : List β} (h : List.Forall₂ R l m) : List.Forall₂ R (sortBy f l) (sortBy g m) := by
  induction h with
  | nil => exact .nil
  | cons hxy _ ih => exact insertBy_rel hR hxy ih

theorem filter_rel {α β : Type} {R : α → β → Prop} {p : α → Bool} {q : β → Bool} (hR : ∀ a b, R a b → p a = q b)
    {l : List α} {m : List β} (h : List.Forall₂ R l m) : List.Forall₂ R (l.filter p) (m.filter q) := by
  induction h with
  | nil => exact .nil
  | @cons x y l m hxy _ ih =>
    have := hR x y hxy
    cases hq : q y with
    | true => rw [List.filter_cons_of_pos (by rw [this, hq]), List.filter_cons_of_pos hq]; exact .cons hxy ih
    | false => rw [List.filter_cons_of_neg (by rw [this, hq]; simp), List.filter_cons_of_neg (by rw [hq]; simp)]; exact ih

theorem mapM_rel {α β γ : Type} {f : β → Except PyErr γ} {g : α → γ} {l : List α} {m : List β}
    (h : List.Forall₂ (fun a b => f b = .ok (g a)) l m) : m.mapM f = .ok (l.map g) := by
  induction h with
  | nil => rfl
  | cons hab _ ih => rw [List.mapM_cons, hab, ih]; rfl

theorem mapM_ok {α β : Type} {f : α → Except PyErr β} {g : α → β} (l : List α) (h : ∀ a ∈ l, f a = .ok (g a)) : l.mapM f = .ok (l.map g) := by
  induction l with
  | nil => rfl
  | cons a l ih => rw [List.mapM_cons, h a (by simp), ih fun x hx => h x (by simp [hx])]; rfl

end Verif.Lemmas
