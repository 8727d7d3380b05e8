import Verif.Lemmas.Listing
import Verif.Lemmas.ListTable
import Verif.Lemmas.Create
/-!
# Properties C52-C54: listing methods, the listing tools and the dump tool
-/
namespace Verif.Props
open Verif Verif.Model Verif.Model.World Verif.Lemmas Verif.Spec Verif.Gen

/-! ## C52 listing methods -/

/-- a usable case: two software components and a unit in one package -/
private def swcRow : CreateRow := ⟨k!"ARPackage", k!"createApplicationSwComponentType", k!"ApplicationSwComponentType",
  ⟨.typed, true, .nowhere, .typed⟩, k!"", 0⟩
private def unitRow : CreateRow := ⟨k!"ARPackage", k!"createUnit", k!"Unit", ⟨.typed, true, .nowhere, .typed⟩, k!"", 0⟩
private def swcList : ListRow := ⟨k!"ARPackage", k!"getSwComponentTypes", k!"elements", [k!"SwComponentType"], false, 1474⟩
private def signalList : ListRow := ⟨k!"ARPackage", k!"getSystemSignals", k!"elements", [k!"SystemSignal"], true, 1649⟩

/-- **C52** A listing method over the members of an object returns, for every history of calls on that object, exactly the
members that belong to one of its classes, each once. -/
theorem C52_listing (H : Hier) (l : ListRow) (hl : l ∈ listTable) (he : l.attr = k!"elements") (ops : List Owner.Op) :
    (∀ a, a ∈ (Owner.run H ops).listing H l ↔
      a ∈ (Owner.run H ops).coll.elements ∧ ∃ c ∈ l.filter, H.sub a.cls c = true)
    ∧ ((Owner.run H ops).listing H l).Nodup := by
  constructor
  · intro a
    rw [mem_listing]
    simp only [Owner.listed, if_pos he, ListRow.takes, Bool.or_eq_true, List.isEmpty_iff, List.any_eq_true]
    simp only [elements_filtered l hl he, false_or]
  · rw [(listing_perm H l _).nodup_iff]
    simp only [Owner.listed, if_pos he]
    exact (inv_orun H ops).nodup.filter _

example : (Owner.run armodel [.create unitRow "m" 1, .create swcRow "b" 2, .create swcRow "a" 3]).listing armodel swcList
    = [⟨2, "b", k!"ApplicationSwComponentType"⟩, ⟨3, "a", k!"ApplicationSwComponentType"⟩]
    ∧ swcList ∈ listTable ∧ swcRow.target ∈ createTable.map (·.target) := by decide +kernel

/-- **C52** A method that sorts returns the objects in the order of their short names, objects of one name in the order in
which they were added; the others keep the order in which the objects were added. -/
theorem C52_order (H : Hier) (l : ListRow) (o : Owner) :
    (l.sorted = true → NameSorted (o.listing H l)
      ∧ ∀ n, ((o.listing H l).filter fun a => a.name == n).Sublist (o.listed l))
    ∧ (l.sorted = false → (o.listing H l).Sublist (o.listed l)) := by
  unfold Owner.listing
  constructor
  · intro h
    simp only [h, if_true]
    refine ⟨sortBy_sorted _ _, fun n => ?_⟩
    rw [sortBy_stable]
    exact List.filter_sublist.trans List.filter_sublist
  · intro h
    simp only [h]
    exact List.filter_sublist

/-- **C52** What a create method of a class returns, the listing methods of that class for what was created list afterwards.
(For a listing over a list of its own: provided the objects were created by the class's create methods.)  `c` is the class
of the owner. -/
theorem C52_created (c : Key) (l : ListRow) (hl : l ∈ listTable) (hlc : armodel.sub c l.cls = true) (hf : l.filter ≠ [])
    (r : CreateRow) (hr : r ∈ createTable) (hrc : armodel.sub c r.cls = true) (ht : l.takes armodel r.target = true)
    (ops : List Owner.Op)
    (hops : l.attr ≠ k!"elements" → ∀ op ∈ ops, match op with
      | .create r' _ _ => r' ∈ createTable ∧ armodel.sub c r'.cls = true
      | .add _ => False
      | .remove _ _ => True)
    (n : String) (f : Nat) (a : Elem) (ha : (Owner.run armodel ops).result armodel r n f = .ok (some a))
    (hac : armodel.sub a.cls r.target = true) :
    a ∈ ((Owner.run armodel ops).create armodel r n f).listing armodel l := by
  obtain ⟨_, h2, _⟩ := recorded_of hr hl hrc hlc hf ht
  have hinv : Inv ((Owner.run armodel ops).create armodel r n f).coll := inv_create armodel r (inv_orun armodel ops) n f
  have hmem : a ∈ ((Owner.run armodel ops).create armodel r n f).coll.elements := by
    unfold Owner.result at ha
    rcases h2 with h2 | h2 <;> rw [h2] at ha <;> exact (getElement_mem hinv ha).1
  have htake : l.takes armodel a.cls = true := by
    simp only [ListRow.takes, Bool.or_eq_true, List.isEmpty_iff, List.any_eq_true] at ht ⊢
    rcases ht with ht | ⟨d, hd, ht⟩
    · exact absurd ht hf
    · exact .inr ⟨d, hd, armodel.trans _ _ _ hac ht⟩
  rw [mem_listing]
  refine ⟨?_, htake⟩
  by_cases he : l.attr = k!"elements"
  · simp only [Owner.listed, if_pos he]
    exact hmem
  · have hk : Kept armodel l (Owner.run armodel (ops ++ [.create r n f])) := by
      refine kept_run he fun op hop => ?_
      rcases List.mem_append.1 hop with hop | hop
      · have := hops he op hop
        cases op with
        | create r' n' f' =>
          intro ht'
          exact (recorded_of this.1 hl this.2 hlc hf ht').2.2.resolve_left he
        | add e => exact this.elim
        | remove n t => trivial
      · rw [List.mem_singleton] at hop
        subst hop
        intro ht'
        exact (recorded_of hr hl hrc hlc hf ht').2.2.resolve_left he
    have hrun : Owner.run armodel (ops ++ [.create r n f]) = (Owner.run armodel ops).create armodel r n f := by
      simp [Owner.run, Owner.step]
    rw [hrun] at hk
    exact hk a hmem htake

/-- **C52** The number of methods in the tables to which the theorem applies. -/
theorem C52_created_count : (createTable.foldl (fun m r => m + (listTable.filter fun l =>
    relatedCls r.cls l.cls && !l.filter.isEmpty && l.takes armodel r.target).length) 0) = 250 := by decide +kernel

private def portRow : CreateRow := ⟨k!"SwComponentType", k!"createPPortPrototype", k!"PPortPrototype",
  ⟨.typed, true, .list, .typed⟩, k!"ports", 0⟩
private def portList : ListRow := ⟨k!"SwComponentType", k!"getPPortPrototypes", k!"ports", [k!"PPortPrototype"], true, 175⟩

/-- the hypotheses of `C52_created` are met, for a list of its own and for the members -/
example : portList ∈ listTable ∧ (createTable.any fun r => r.method == portRow.method && r.pattern == portRow.pattern
      && r.attr == portRow.attr && r.target == portRow.target) = true
    ∧ (Owner.run armodel [.create portRow "p" 1]).result armodel portRow "q" 2 = .ok (some ⟨2, "q", k!"PPortPrototype"⟩)
    ∧ ((Owner.run armodel [.create portRow "q" 1]).create armodel portRow "p" 2).listing armodel portList
      = [⟨2, "p", k!"PPortPrototype"⟩, ⟨1, "q", k!"PPortPrototype"⟩] := by decide +kernel

/-- **C52** is violated by removal where the listing looks at a list of its own: a removed port is still listed. -/
theorem C52_removal_broken : ∃ l ∈ listTable, ∃ r ∈ createTable, armodel.sub l.cls r.cls = true ∧ ∃ a : Elem,
    a ∈ (Owner.run armodel [.create r "p" 1, .remove "p" none]).listing armodel l
      ∧ a ∉ (Owner.run armodel [.create r "p" 1, .remove "p" none]).coll.elements := by
  have h : (listTable.any fun l => l == portList && createTable.any fun r => r.method == portRow.method && armodel.sub l.cls r.cls &&
      ((Owner.run armodel [.create r "p" 1, .remove "p" none]).listing armodel l).any fun a =>
        !((Owner.run armodel [.create r "p" 1, .remove "p" none]).coll.elements.contains a)) = true := by decide +kernel
  simp only [List.any_eq_true, Bool.and_eq_true, Bool.not_eq_true', beq_iff_eq] at h
  obtain ⟨l, hl, _, r, hr, ⟨_, h1⟩, a, ha, h2⟩ := h
  exact ⟨l, hl, r, hr, h1, a, ha, by simpa using h2⟩

/-! ## C53 the listing tools -/

/-- **C53** `swc-list` and `system-signal-list` collect exactly the software components (system signals) contained in a
package of the document, at any depth, each once. -/
theorem C53_collected (H : Hier) (pc : Nat) (ops : List World.Op) (l : ListRow) (hl : l ∈ listTable)
    (he : l.attr = k!"elements") (d : Nat) :
    (∀ e, e ∈ (World.run H pc ops).importData H l d ↔
      ∃ n p, InDoc (World.run H pc ops) d n p ∧ Member (World.run H pc ops) p e ∧ ∃ c ∈ l.filter, H.sub e.cls c = true)
    ∧ ((World.run H pc ops).importData H l d).Nodup := by
  have hw := wf_run H pc ops
  constructor
  · intro e
    have ht : l.takes H e.cls = true ↔ ∃ c ∈ l.filter, H.sub e.cls c = true := by
      simp only [ListRow.takes, Bool.or_eq_true, List.isEmpty_iff, List.any_eq_true, elements_filtered l hl he, false_or]
    unfold World.importData
    rw [List.mem_flatMap]
    constructor
    · rintro ⟨j, hj, h⟩
      obtain ⟨n, p, h1, h2, h3⟩ := (mem_collect hw he j).1 h
      exact ⟨n, p, inDoc_iff.2 ⟨j, mem_getARPackages.1 hj, h1⟩, h2, ht.1 h3⟩
    · rintro ⟨n, p, h1, h2, h3⟩
      obtain ⟨j, hj, h1⟩ := inDoc_iff.1 h1
      exact ⟨j, mem_getARPackages.2 hj, (mem_collect hw he j).2 ⟨n, p, h1, h2, ht.2 h3⟩⟩
  · exact flat_nodup hw H he d fun j _ => collect_nodup hw H he j

/-- **C53** The lines printed are the short names (or full names) of the collected objects, of those of the class given by
the filter, in the order of the short names: nothing is left out, repeated or added. -/
theorem C53_printed (H : Hier) (w : World) (only : Option Key) (long : Bool) (swcs : List Elem) :
    ∃ l : List Elem, w.printOut H only long swcs = l.map (fun a => if long then w.fullName a.id else a.name)
      ∧ NameSorted l ∧ (∀ a, a ∈ l ↔ a ∈ swcs ∧ ∀ c, only = some c → H.sub a.cls c = true) ∧ (swcs.Nodup → l.Nodup)
      ∧ (only = none → l.Perm swcs) := by
  cases only with
  | none =>
    refine ⟨sortBy Elem.name swcs, rfl, sortBy_sorted _ _, fun a => ?_, fun h => (sortBy_perm _ _).nodup_iff.2 h,
      fun _ => sortBy_perm _ _⟩
    rw [(sortBy_perm _ _).mem_iff]
    simp
  | some c =>
    refine ⟨sortBy Elem.name (swcs.filter fun a => H.sub a.cls c), rfl, sortBy_sorted _ _, fun a => ?_,
      fun h => (sortBy_perm _ _).nodup_iff.2 (h.filter _), fun h => by cases h⟩
    rw [(sortBy_perm _ _).mem_iff, List.mem_filter]
    simp

/-- **C53** Without a filter and with short names, the output of the tools lists the short names of exactly the components
of the document. -/
theorem C53_names (H : Hier) (pc : Nat) (ops : List World.Op) (l : ListRow) (hl : l ∈ listTable) (he : l.attr = k!"elements")
    (d : Nat) (n : String) :
    n ∈ (World.run H pc ops).printOut H none false ((World.run H pc ops).importData H l d) ↔
      ∃ e k p, InDoc (World.run H pc ops) d k p ∧ Member (World.run H pc ops) p e ∧ (∃ c ∈ l.filter, H.sub e.cls c = true)
        ∧ e.name = n := by
  obtain ⟨m, h1, _, h2, _⟩ := C53_printed H (World.run H pc ops) none false ((World.run H pc ops).importData H l d)
  rw [h1]
  simp only [Bool.false_eq_true, if_false, List.mem_map, h2, (C53_collected H pc ops l hl he d).1]
  constructor
  · rintro ⟨e, ⟨⟨k, p, a, b, c⟩, _⟩, rfl⟩
    exact ⟨e, k, p, a, b, c, rfl⟩
  · rintro ⟨e, k, p, a, b, c, rfl⟩
    exact ⟨e, ⟨⟨k, p, a, b, c⟩, by simp⟩, rfl⟩

/-- a document with components on two levels and a unit -/
private def swcHistory : List World.Op := [.createARPackage 0 "P", .create 1 swcRow "z" .ident, .createARPackage 1 "Q",
  .create 3 swcRow "b" .ident, .create 3 unitRow "a" .ident, .createARPackage 0 "O", .create 6 swcRow "m" .ident]

example : swcList ∈ listTable ∧ signalList ∈ listTable := by decide +kernel

private theorem swcHistory_wf : WF (World.run armodel k!"ARPackage" swcHistory) := wf_run _ _ _

example :
    let w := World.run armodel k!"ARPackage" swcHistory
    w.printOut armodel none true (w.importData armodel swcList 0) = ["/P/Q/b", "/O/m", "/P/z"]
      ∧ w.printOut armodel (some k!"CompositionSwComponentType") false (w.importData armodel swcList 0) = [] := by
  intro w
  have h : w.importData armodel swcList 0 = [⟨7, "m", swcRow.target⟩, ⟨4, "b", swcRow.target⟩, ⟨2, "z", swcRow.target⟩] := by
    have hw : WF w := swcHistory_wf
    have g0 : w.getARPackages 0 = [6, 1] := by decide +kernel
    have g1 : w.getARPackages 1 = [3] := by decide +kernel
    have g3 : w.getARPackages 3 = [] := by decide +kernel
    have g6 : w.getARPackages 6 = [] := by decide +kernel
    have l1 : w.listing armodel swcList 1 = [⟨2, "z", swcRow.target⟩] := by decide +kernel
    have l3 : w.listing armodel swcList 3 = [⟨4, "b", swcRow.target⟩] := by decide +kernel
    have l6 : w.listing armodel swcList 6 = [⟨7, "m", swcRow.target⟩] := by decide +kernel
    have c6 : w.collect armodel swcList 6 = [⟨7, "m", swcRow.target⟩] := by rw [collect_eq hw, g6, l6]; rfl
    have c3 : w.collect armodel swcList 3 = [⟨4, "b", swcRow.target⟩] := by rw [collect_eq hw, g3, l3]; rfl
    have c1 : w.collect armodel swcList 1 = [⟨4, "b", swcRow.target⟩, ⟨2, "z", swcRow.target⟩] := by
      rw [collect_eq hw, g1, l1]; simp [c3]
    simp [World.importData, g0, c6, c1]
  rw [h]
  decide +kernel

/-! ## C54 the dump tool -/

/-- **C54** `arxml-dump` prints a line for every package of the document and for no other package. -/
theorem C54_dumped (H : Hier) (pc : Nat) (ops : List World.Op) (d p : Nat) :
    p ∈ (World.run H pc ops).dumped d ↔ ∃ n, InDoc (World.run H pc ops) d n p := by
  have hw := wf_run H pc ops
  unfold World.dumped
  rw [List.mem_flatMap]
  constructor
  · rintro ⟨j, hj, h⟩
    obtain ⟨n, h⟩ := mem_shown hw j h
    exact ⟨n, inDoc_iff.2 ⟨j, mem_getARPackages.1 hj, h⟩⟩
  · rintro ⟨n, h⟩
    obtain ⟨j, hj, h⟩ := inDoc_iff.1 h
    refine ⟨j, mem_getARPackages.2 hj, ?_⟩
    rw [← List.count_pos_iff, count_shown hw h]
    exact Nat.two_pow_pos n

/-- **C54** A package inside `n` other packages is printed `2^n` times. -/
theorem C54_times (H : Hier) (pc : Nat) (ops : List World.Op) (d n p : Nat) (h : InDoc (World.run H pc ops) d n p) :
    ((World.run H pc ops).dumped d).count p = 2 ^ n := by
  have hw := wf_run H pc ops
  obtain ⟨j, hj, h⟩ := inDoc_iff.1 h
  unfold World.dumped
  rw [count_children hw hj h, count_shown hw h]

/-- **C54** A top-level package is printed once. -/
theorem C54_once_partial (H : Hier) (pc : Nat) (ops : List World.Op) (d p : Nat) (h : p ∈ (World.run H pc ops).getARPackages d) :
    ((World.run H pc ops).dumped d).count p = 1 := C54_times H pc ops d 0 p (.top (mem_getARPackages.1 h))

/-- **C54** is violated: a sub-package is printed twice, a package inside it four times. -/
theorem C54_once_broken : ∃ ops : List World.Op,
    ((World.run armodel k!"ARPackage" ops).dumped 0).count 2 = 2 ∧ ((World.run armodel k!"ARPackage" ops).dumped 0).count 3 = 4 := by
  let ops : List World.Op := [.createARPackage 0 "P", .createARPackage 1 "Q", .createARPackage 2 "R"]
  have h1 : 1 ∈ (World.run armodel k!"ARPackage" ops).getARPackages 0 := by decide +kernel
  have h2 : 2 ∈ (World.run armodel k!"ARPackage" ops).getARPackages 1 := by decide +kernel
  have h3 : 3 ∈ (World.run armodel k!"ARPackage" ops).getARPackages 2 := by decide +kernel
  have d2 : InDoc (World.run armodel k!"ARPackage" ops) 0 1 2 := .sub (.top (mem_getARPackages.1 h1)) (mem_getARPackages.1 h2)
  exact ⟨ops, C54_times _ _ _ 0 1 2 d2, C54_times _ _ _ 0 2 3 (.sub d2 (mem_getARPackages.1 h3))⟩

end Verif.Props
