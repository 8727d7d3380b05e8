import Verif.Lemmas.Tree
import Verif.Spec.Tree
import Verif.Model.Classes
/-!
# Properties C08-C13 and C47: packages, full names and path lookup

`World.run H pc ops` is the state after an arbitrary history of API calls (new documents, package
creations, create methods of the table patterns on any object, removals, clears); `pc` is the class
number of `ARPackage`, `H` any class hierarchy.
-/
namespace Verif.Props
open Verif Verif.Model Verif.Model.World Verif.Lemmas Verif.Spec

/-! ## C08 packages -/

/-- **C08** `createARPackage(n)` on a document or package returns a package with that name whose parent is
the receiver and which the receiver lists; at most one object is constructed. -/
theorem C08_create_package (H : Hier) (pc : Nat) (ops : List World.Op) (recv : Nat) (o : Obj) (n : String)
    (ho : (World.run H pc ops).get recv = some o) (hk : o.kind = .doc ∨ o.kind = .pkg) :
    ∃ p o', ((World.run H pc ops).createARPackage recv pc n).2 = some p
      ∧ ((World.run H pc ops).createARPackage recv pc n).1.get p = some o'
      ∧ o'.kind = .pkg ∧ o'.name = n ∧ o'.parent = recv
      ∧ p ∈ ((World.run H pc ops).createARPackage recv pc n).1.getARPackages recv
      ∧ ((World.run H pc ops).createARPackage recv pc n).1.next ≤ (World.run H pc ops).next + 1 := by
  have hwf := wf_run H pc ops
  generalize World.run H pc ops = w at *
  have hlt := hwf.lt ho
  cases hl : o.pkgs.lookup n with
  | some p =>
    have hm := lookup_mem hl
    obtain ⟨o', ho', h1, h2, h3⟩ := hwf.pk _ _ ho _ hm
    have e : w.createARPackage recv pc n = (w, some p) := by
      rcases hk with hk | hk <;> simp [createARPackage, ho, hk, hl]
    rw [e]
    refine ⟨p, o', rfl, ho', h1, h2, h3, ?_, by simp⟩
    simp only [getARPackages, ho, List.mem_map]
    exact ⟨(n, p), (sortBy_perm ..).mem_iff.2 hm, rfl⟩
  | none =>
    have e : w.createARPackage recv pc n =
        ((w.alloc ⟨.pkg, n, pc, recv, Owner.empty, []⟩).upd recv { o with pkgs := o.pkgs ++ [(n, w.next)] }, some w.next) := by
      rcases hk with hk | hk <;> simp [createARPackage, ho, hk, hl]
    rw [e]
    refine ⟨w.next, ⟨.pkg, n, pc, recv, Owner.empty, []⟩, rfl, ?_, rfl, rfl, rfl, ?_, by simp [upd, alloc]⟩
    · simp [upd, alloc, Nat.ne_of_gt hlt]
    · simp only [getARPackages, upd, if_true, List.mem_map]
      exact ⟨(n, w.next), (sortBy_perm ..).mem_iff.2 (by simp), rfl⟩

/-- histories that do not clear document `d` -/
def KeepsDoc (d : Nat) (ops : List World.Op) : Prop := World.Op.clear d ∉ ops

theorem pkgs_grow (H : Hier) (pc recv : Nat) (ops : List World.Op) (hk : KeepsDoc recv ops) :
    ∀ w o, WF w → w.get recv = some o →
      ∃ o', (ops.foldl (step H pc) w).get recv = some o' ∧ static o' = static o ∧ o.pkgs <+: o'.pkgs := by
  induction ops with
  | nil => intro w o _ ho; exact ⟨o, ho, rfl, List.prefix_rfl⟩
  | cons op ops ih =>
    intro w o hwf ho
    have hk' : KeepsDoc recv ops := fun h => hk (List.mem_cons_of_mem _ h)
    have hlt := hwf.lt ho
    have step1 : ∃ o', (step H pc w op).get recv = some o' ∧ static o' = static o ∧ o.pkgs <+: o'.pkgs := by
      have same : ∀ w' : World, w'.get recv = some o → ∃ o', w'.get recv = some o' ∧ static o' = static o ∧ o.pkgs <+: o'.pkgs :=
        fun w' h => ⟨o, h, rfl, List.prefix_rfl⟩
      have updOwn : ∀ (w1 : World) i p own, w1.get recv = some o → w1.get i = some p →
          ∃ o', (w1.upd i { p with own := own }).get recv = some o' ∧ static o' = static o ∧ o.pkgs <+: o'.pkgs := by
        intro w1 i p own h1 h2
        by_cases e : recv = i
        · subst e; rw [h1] at h2; cases h2
          exact ⟨{ o with own := own }, by simp [upd], rfl, List.prefix_rfl⟩
        · exact ⟨o, by simpa [upd, e] using h1, rfl, List.prefix_rfl⟩
      cases op with
      | newDoc => exact same _ (by simp only [step]; rw [alloc_get_old (Nat.ne_of_lt hlt)]; exact ho)
      | createARPackage r n =>
        simp only [step, createARPackage]
        cases hr : w.get r with
        | none => exact same _ ho
        | some p =>
          have main : ∃ o', ((w.alloc ⟨.pkg, n, pc, r, Owner.empty, []⟩).upd r { p with pkgs := p.pkgs ++ [(n, w.next)] }).get recv
              = some o' ∧ static o' = static o ∧ o.pkgs <+: o'.pkgs := by
            by_cases e : recv = r
            · subst e; rw [ho] at hr; cases hr
              exact ⟨{ o with pkgs := o.pkgs ++ [(n, w.next)] }, by simp [upd], rfl, by simp⟩
            · exact same _ (by simp [upd, e, alloc, Nat.ne_of_lt hlt, ho])
          cases hkd : p.kind <;> cases hl : p.pkgs.lookup n <;> simp only [hkd, hl] <;> first | exact same _ ho | simpa only [hkd] using main
      | create r row n k =>
        simp only [step]
        cases hr : w.get r with
        | none => exact same _ ho
        | some p =>
          simp only
          split
          · split
            · refine updOwn _ r p _ ?_ ?_
              · rw [alloc_get_old (Nat.ne_of_lt hlt)]; exact ho
              · rw [alloc_get_old (Nat.ne_of_lt (hwf.lt hr))]; exact hr
            · exact same _ ho
          · exact same _ ho
      | remove r n t =>
        simp only [step]
        cases hr : w.get r with
        | none => exact same _ ho
        | some p =>
          simp only
          split
          · exact updOwn _ r p _ ho hr
          · exact same _ ho
      | clear d =>
        have hd : d ≠ recv := by rintro rfl; exact hk (List.mem_cons_self ..)
        simp only [step]
        cases hr : w.get d with
        | none => exact same _ ho
        | some p =>
          simp only
          split
          · exact same _ (by simp [upd, Ne.symm hd, ho])
          · exact same _ ho
    obtain ⟨o1, h1, s1, p1⟩ := step1
    obtain ⟨o2, h2, s2, p2⟩ := ih hk' _ o1 (wf_step H pc hwf op).1 h1
    exact ⟨o2, h2, s2.trans s1, p1.trans p2⟩

/-- **C08** Creating the same package again, after any further calls that do not clear the receiver,
returns the same package and constructs nothing. -/
theorem C08_create_again (H : Hier) (pc : Nat) (ops later : List World.Op) (recv : Nat) (o : Obj) (n : String)
    (ho : (World.run H pc ops).get recv = some o) (hk : o.kind = .doc ∨ o.kind = .pkg) (hl : KeepsDoc recv later) :
    let r1 := (World.run H pc ops).createARPackage recv pc n
    let w2 := later.foldl (step H pc) r1.1
    w2.createARPackage recv pc n = (w2, r1.2) := by
  intro r1 w2
  have hwf := wf_run H pc ops
  have hwf1 : WF r1.1 := (wf_createARPackage hwf pc recv n).1
  obtain ⟨p, o', hp, -⟩ := C08_create_package H pc ops recv o n ho hk
  have h1 : ∃ o1, r1.1.get recv = some o1 ∧ static o1 = static o ∧ (n, p) ∈ o1.pkgs := by
    have hp : r1.2 = some p := hp
    cases hlk : o.pkgs.lookup n with
    | some q =>
      have e : r1 = (World.run H pc ops, some q) := by
        rcases hk with hk | hk <;> simp [r1, createARPackage, ho, hk, hlk]
      rw [e] at hp ⊢
      cases hp
      exact ⟨o, ho, rfl, lookup_mem hlk⟩
    | none =>
      have e : r1 = (((World.run H pc ops).alloc ⟨.pkg, n, pc, recv, Owner.empty, []⟩).upd recv
          { o with pkgs := o.pkgs ++ [(n, (World.run H pc ops).next)] }, some (World.run H pc ops).next) := by
        rcases hk with hk | hk <;> simp [r1, createARPackage, ho, hk, hlk]
      rw [e] at hp ⊢
      cases hp
      exact ⟨{ o with pkgs := o.pkgs ++ [(n, (World.run H pc ops).next)] }, by simp [upd], rfl, by simp⟩
  obtain ⟨o1, ho1, s1, hm1⟩ := h1
  obtain ⟨o2, ho2, s2, hpre⟩ := pkgs_grow H pc recv later hl _ o1 hwf1 ho1
  have ho2 : w2.get recv = some o2 := ho2
  have hwf2 : WF w2 := (wf_run_from H pc later _ hwf1).1
  have hlk : o2.pkgs.lookup n = some p := lookup_of_mem (hwf2.keys _ _ ho2) (hpre.subset hm1)
  have hkind : o2.kind = o.kind := by
    have := s2.trans s1; simp only [static, Prod.mk.injEq] at this; exact this.1
  rw [show r1.2 = some p from hp]
  rcases hk with hk | hk <;> rw [hk] at hkind <;> simp [createARPackage, ho2, hkind, hlk]

/-- **C08** `getARPackages()` lists every sub-package exactly once, in strictly ascending short-name order. -/
theorem C08_listing (H : Hier) (pc : Nat) (ops : List World.Op) (i : Nat) (o : Obj)
    (ho : (World.run H pc ops).get i = some o) :
    (∀ p, p ∈ (World.run H pc ops).getARPackages i ↔ p ∈ o.pkgs.map (·.2))
    ∧ ∃ names : List String, names.length = ((World.run H pc ops).getARPackages i).length
      ∧ (∀ (k p : Nat), ((World.run H pc ops).getARPackages i)[k]? = some p →
          ∃ q, (World.run H pc ops).get p = some q ∧ names[k]? = some q.name ∧ q.kind = .pkg ∧ q.parent = i)
      ∧ names.Pairwise (· < ·) := by
  have hwf := wf_run H pc ops
  generalize World.run H pc ops = w at *
  have hg : w.getARPackages i = (sortBy (·.1) o.pkgs).map (·.2) := by
    simp [getARPackages, ho]
  have hperm := sortBy_perm (·.1) o.pkgs
  refine ⟨?_, (sortBy (·.1) o.pkgs).map (·.1), ?_, ?_, ?_⟩
  · intro p; rw [hg]; exact (hperm.map _).mem_iff
  · rw [hg]; simp
  · intro k p hp
    rw [hg, List.getElem?_map] at hp
    cases hq : (sortBy (·.1) o.pkgs)[k]? with
    | none => simp [hq] at hp
    | some q =>
      simp only [hq, Option.map_some, Option.some.injEq] at hp
      have hm : q ∈ o.pkgs := hperm.mem_iff.1 (List.mem_of_getElem? hq)
      obtain ⟨c, hc, h1, h2, h3⟩ := hwf.pk _ _ ho q hm
      subst hp
      exact ⟨c, hc, by simp [List.getElem?_map, hq, h2], h1, h3⟩
  · have hs := sortBy_sorted (·.1) o.pkgs
    have hnd : ((sortBy (·.1) o.pkgs).map (·.1)).Nodup :=
      (hperm.map _).nodup_iff.2 (hwf.keys _ _ ho)
    have hs' : ((sortBy (·.1) o.pkgs).map (·.1)).Pairwise (· ≤ ·) := by
      rw [List.pairwise_map]; exact hs
    refine (hs'.and hnd).imp ?_
    rintro a b ⟨h1, h2⟩
    rcases String.le_total b a with h | h
    · exact absurd (String.le_antisymm h1 h) h2
    · exact Std.lt_of_le_of_ne h1 h2

/-- non-vacuity of C08: packages created out of order are listed sorted -/
example :
    let w := World.run armodel k!"ARPackage" [.createARPackage 0 "b", .createARPackage 0 "a", .createARPackage 0 "b", .createARPackage 1 "c"]
    w.getARPackages 0 = [2, 1] ∧ w.getARPackages 1 = [3] ∧ w.next = 4 := by decide +kernel

/-- creating again: what is done in between includes another package of the same name elsewhere, and clearing another document -/
example :
    let w := World.run armodel k!"ARPackage" [.newDoc, .createARPackage 0 "b"]
    (w.get 0).any (fun o => o.kind == .doc) = true ∧ KeepsDoc 0 [.createARPackage 2 "a", .clear 1] ∧
      (w.createARPackage 0 k!"ARPackage" "a").2 = some 3 ∧
      (([.createARPackage 2 "a", .clear 1].foldl (step armodel k!"ARPackage") (w.createARPackage 0 k!"ARPackage" "a").1).createARPackage 0 k!"ARPackage" "a").2 = some 3 :=
  ⟨by decide +kernel, by simp [KeepsDoc], by decide +kernel, by decide +kernel⟩

/-! ## C09 full names -/

theorem slashed_append (a b : List String) : slashed (a ++ b) = slashed a ++ slashed b := by
  induction a with
  | nil => simp [slashed]
  | cons n a ih => simp [slashed, ih, String.append_assoc]

theorem path_child {w : World} (hwf : WF w) {p i : Nat} {o c : Obj} (_ho : w.get p = some o) (hc : w.get i = some c)
    (hk : c.kind ≠ .doc) (hp : c.parent = p) : w.fullName i = w.fullName p ++ "/" ++ c.name := by
  have hlt := hwf.parent _ _ hc hk
  rw [fullName, hc]
  cases hkd : c.kind with
  | doc => exact absurd hkd hk
  | _ => rw [hp] at hlt; simp only [hp, dif_pos hlt]

/-- **C09** The full name of an object reached from a document by the short names `a, b, ...` is `/a/b/...`. -/
theorem C09_full_name (H : Hier) (pc : Nat) (ops : List World.Op) (d : Nat) (od : Obj)
    (hd : (World.run H pc ops).get d = some od) (hk : od.kind = .doc) (ns : List String) (i : Nat)
    (hp : Path (World.run H pc ops) d ns i) : (World.run H pc ops).fullName i = slashed ns := by
  have hwf := wf_run H pc ops
  generalize World.run H pc ops = w at *
  induction hp with
  | root => rw [fullName, hd]; simp [hk, slashed]
  | @pkg ns p o n i _ ho hm ih =>
    obtain ⟨c, hc, h1, h2, h3⟩ := hwf.pk _ _ ho _ hm
    have h2 : c.name = n := h2
    rw [path_child hwf ho hc (by rw [h1]; decide) h3, ih, h2, slashed_append]
    simp [slashed, String.append_assoc]
  | @mem ns p o e _ ho hm ih =>
    obtain ⟨c, hc, h1, h2, -, h3⟩ := hwf.mem _ _ ho _ hm
    rw [path_child hwf ho hc (by rcases h1 with h | h <;> rw [h] <;> decide) h3, ih, h2, slashed_append]
    simp [slashed, String.append_assoc]

theorem member_pkg {H : Hier} {w : World} (hwf : WF w) {p : Nat} {o : Obj} (ho : w.get p = some o) {n : String} {i : Nat}
    (hm : (n, i) ∈ o.pkgs) : w.getElement H p n = .ok (some i) := by
  have hl := lookup_of_mem (hwf.keys _ _ ho) hm
  simp only [World.getElement, ho]
  cases hk : o.kind with
  | doc => simp [hl]
  | pkg => simp [hl]
  | ident => rw [hwf.leaf _ _ ho (.inl hk)] at hm; cases hm
  | plain => rw [hwf.leaf _ _ ho (.inr hk)] at hm; cases hm

theorem lookup_eq_find (l : List (String × Nat)) (n : String) : l.lookup n = (l.find? (fun q => q.1 == n)).map (·.2) := by
  induction l with
  | nil => rfl
  | cons a l ih =>
    obtain ⟨k, x⟩ := a
    by_cases e : n = k
    · subst e; simp
    · rw [List.lookup_cons, List.find?_cons]
      simp only [beq_eq_false_iff_ne.2 e, beq_eq_false_iff_ne.2 (Ne.symm e)]
      exact ih

/-- `getElement` on a container, whenever the name was not emptied by a removal -/
theorem getElement_member {H : Hier} {w : World} (hwf : WF w) {p : Nat} {o : Obj} (ho : w.get p = some o)
    (hk : o.kind ≠ .plain) (n : String) (hs : o.own.coll.slot n ≠ some []) :
    w.getElement H p n = .ok (Spec.member o n) := by
  have hg := get_untyped H (hwf.inv _ _ ho) n hs
  have hg' : o.own.coll.getElement H n none = .ok (o.own.coll.elements.find? fun a => a.name == n) := by
    rw [hg]; simp [Spec.lookup]
  simp only [World.getElement, ho, Spec.member]
  cases hkd : o.kind with
  | plain => exact absurd hkd hk
  | ident =>
    simp only [hwf.leaf _ _ ho (.inl hkd), List.find?_nil, hg']
    rfl
  | doc =>
    simp only [lookup_eq_find]
    cases o.pkgs.find? (fun q => q.1 == n) with
    | none => simp only [Option.map_none, hg']; rfl
    | some q => rfl
  | pkg =>
    simp only [lookup_eq_find]
    cases o.pkgs.find? (fun q => q.1 == n) with
    | none => simp only [Option.map_none, hg']; rfl
    | some q => rfl

theorem slot_ne_nil_of_mem {c : Coll} (h : Inv c) {e : Elem} (he : e ∈ c.elements) : c.slot e.name ≠ some [] := by
  intro hs
  have := slot_some h hs
  have hm : e ∈ c.elements.filter (fun a => a.name == e.name) := by simp [he]
  rw [← this] at hm; cases hm

theorem member_mem {H : Hier} {w : World} (hwf : WF w) {p : Nat} {o : Obj} (ho : w.get p = some o) {e : Elem}
    (he : e ∈ o.own.coll.elements) (hpk : ∀ q ∈ o.pkgs, q.1 ≠ e.name)
    (hu : ∀ e' ∈ o.own.coll.elements, e'.name = e.name → e' = e) : w.getElement H p e.name = .ok (some e.id) := by
  have hk : o.kind ≠ .plain := by
    intro hk; rw [hwf.nocoll _ _ ho hk] at he; cases he
  rw [getElement_member hwf ho hk _ (slot_ne_nil_of_mem (hwf.inv _ _ ho) he)]
  have h1 : o.pkgs.find? (fun q => q.1 == e.name) = none := by
    rw [List.find?_eq_none]; intro q hq; simpa using hpk q hq
  have h2 : o.own.coll.elements.find? (fun a => a.name == e.name) = some e := by
    cases hf : o.own.coll.elements.find? (fun a => a.name == e.name) with
    | none => exact absurd (List.find?_eq_none.1 hf e he) (by simp)
    | some a =>
      have ha := List.mem_of_find?_eq_some hf
      have hn := List.find?_some hf
      rw [hu a ha (by simpa using hn)]
  simp [Spec.member, h1, h2]

theorem splitSlash_slashed (ns : List String) (h : ∀ n ∈ ns, '/' ∉ n.toList) (hne : ns ≠ []) :
    splitSlash (slashed ns).toList = [] :: ns.map String.toList := by
  induction ns with
  | nil => exact absurd rfl hne
  | cons n ns ih =>
    have hn := h n (List.mem_cons_self ..)
    have h' : ∀ m ∈ ns, '/' ∉ m.toList := fun m hm => h m (List.mem_cons_of_mem _ hm)
    have e : (slashed (n :: ns)).toList = '/' :: (n.toList ++ (slashed ns).toList) := by
      simp [slashed, String.toList_append]
    rw [e, splitSlash, if_pos rfl]
    congr 1
    cases ns with
    | nil =>
      simp only [slashed, String.toList_empty, List.append_nil, List.map_cons, List.map_nil]
      exact splitSlash_single _ hn
    | cons m ms =>
      have := ih h' (by simp)
      have e2 : (slashed (m :: ms)).toList = '/' :: (m.toList ++ (slashed ms).toList) := by
        simp [slashed, String.toList_append]
      rw [e2] at this ⊢
      rw [splitSlash_append, splitSlash_single _ hn]
      rw [splitSlash, if_pos rfl] at this
      simp only [List.cons.injEq, true_and] at this
      rw [this]; rfl

theorem walk_snoc {H : Hier} {w : World} {i j k : Nat} {a : List (List Char)} {n : String}
    (h : w.walk H i a = .ok (some j)) (hn : n ≠ "") (hg : w.getElement H j n = .ok (some k)) :
    w.walk H i (a ++ [n.toList]) = .ok (some k) := by
  rw [walk_append, h]
  have : n.toList ≠ [] := by simpa using hn
  simp [walk, this, hg, String.ofList_toList]

/-- **C09** An object reached from the singleton document by unambiguous, usable short names is found
under its full name, whatever document the lookup is called on. -/
theorem C09_resolves (H : Hier) (pc : Nat) (ops : List World.Op) (ns : List String) (i self : Nat)
    (hp : UPath (World.run H pc ops) singleton ns i) (hn : ∀ n ∈ ns, Plain n) :
    (World.run H pc ops).find H self ((World.run H pc ops).fullName i) = .ok (some i) := by
  have hwf := wf_run H pc ops
  obtain ⟨od, hd, hk⟩ := hwf.root
  have hpath : Path (World.run H pc ops) singleton ns i := by
    clear hn
    induction hp with
    | root => exact .root
    | pkg _ ho hm ih => exact .pkg ih ho hm
    | mem _ ho hm _ _ ih => exact .mem ih ho hm
  rw [C09_full_name H pc ops singleton od hd hk ns i hpath]
  generalize World.run H pc ops = w at *
  have hw : w.walk H singleton (ns.map String.toList) = .ok (some i) := by
    clear hpath
    induction hp with
    | root => rfl
    | @pkg ns p o n i _ ho hm ih =>
      have ih := ih (fun m hm => hn m (by simp [hm]))
      have h := hn n (by simp)
      simp only [List.map_append, List.map_cons, List.map_nil]
      exact walk_snoc ih h.1 (member_pkg hwf ho hm)
    | @mem ns p o e _ ho hm h1 h2 ih =>
      have ih := ih (fun m hm => hn m (by simp [hm]))
      have h := hn e.name (by simp)
      simp only [List.map_append, List.map_cons, List.map_nil]
      exact walk_snoc ih h.1 (member_mem hwf ho hm h1 h2)
  unfold World.find World.findFrom
  cases ns with
  | nil => simpa [slashed, splitSlash, walk] using hw
  | cons n ns =>
    rw [splitSlash_slashed _ (fun m hm => (hn m hm).2) (by simp)]
    simpa [walk] using hw

theorem getElement_path {H : Hier} {w : World} (hwf : WF w) {i j : Nat} {n : String}
    (h : w.getElement H i n = .ok (some j)) {d : Nat} {ns : List String} (hp : Path w d ns i) : Path w d (ns ++ [n]) j := by
  unfold World.getElement at h
  cases ho : w.get i with
  | none => simp [ho] at h
  | some o =>
    simp only [ho] at h
    have coll : (o.own.coll.getElement H n none).map (·.map (·.id)) = .ok (some j) → Path w d (ns ++ [n]) j := by
      intro hc
      cases hs : o.own.coll.slot n with
      | none => simp [Coll.getElement, hs, Except.map] at hc
      | some l =>
        cases l with
        | nil => simp [Coll.getElement, hs, Except.map] at hc
        | cons a l =>
          simp only [Coll.getElement, hs, Except.map, Option.map_some, Except.ok.injEq, Option.some.injEq] at hc
          have hl := slot_some (hwf.inv _ _ ho) hs
          have : a ∈ o.own.coll.elements.filter (fun a => a.name == n) := by rw [← hl]; simp
          simp only [List.mem_filter, beq_iff_eq] at this
          obtain ⟨ha, hn⟩ := this
          have := Path.mem hp ho ha
          rwa [hn, hc] at this
    cases hk : o.kind with
    | plain => simp [hk] at h
    | ident => simp only [hk] at h; exact coll h
    | doc =>
      simp only [hk] at h
      cases hl : o.pkgs.lookup n with
      | none => simp only [hl] at h; exact coll h
      | some q =>
        simp only [hl, Except.ok.injEq, Option.some.injEq] at h
        subst h; exact .pkg hp ho (lookup_mem hl)
    | pkg =>
      simp only [hk] at h
      cases hl : o.pkgs.lookup n with
      | none => simp only [hl] at h; exact coll h
      | some q =>
        simp only [hl, Except.ok.injEq, Option.some.injEq] at h
        subst h; exact .pkg hp ho (lookup_mem hl)

/-- **C09 / C10 (soundness)** Whatever path text is looked up: if an object is returned, it is reached from
the singleton by exactly the non-empty segments of the text. -/
theorem C09_find_sound (H : Hier) (pc : Nat) (ops : List World.Op) (self j : Nat) (path : String)
    (h : (World.run H pc ops).find H self path = .ok (some j)) :
    Path (World.run H pc ops) singleton (((splitSlash path.toList).filter (· ≠ [])).map String.ofList) j := by
  have hwf := wf_run H pc ops
  generalize World.run H pc ops = w at *
  have key : ∀ (segs : List (List Char)) i ns, Path w singleton ns i → w.walk H i segs = .ok (some j) →
      Path w singleton (ns ++ (segs.filter (· ≠ [])).map String.ofList) j := by
    intro segs
    induction segs with
    | nil => intro i ns hp hw; simp only [walk, Except.ok.injEq, Option.some.injEq] at hw; subst hw; simpa using hp
    | cons s segs ih =>
      intro i ns hp hw
      simp only [walk] at hw
      split at hw
      · rename_i hs; subst hs; simpa using ih i ns hp hw
      · rename_i hs
        cases hg : w.getElement H i (String.ofList s) with
        | error e => simp [hg] at hw
        | ok r => cases r with
          | none => simp [hg] at hw
          | some k =>
            simp only [hg] at hw
            have := ih k (ns ++ [String.ofList s]) (getElement_path hwf hg hp) hw
            simpa [hs] using this
  simpa using key _ _ _ .root h

/-- an unambiguous path of three names, through packages to an element, although another package has a name of it -/
example : ∃ ops, UPath (World.run armodel k!"ARPackage" ops) singleton ["P", "Q", "m"] 3 ∧ (∀ n ∈ ["P", "Q", "m"], Plain n) ∧
    (World.run armodel k!"ARPackage" ops).find armodel singleton "/P/Q/m" = .ok (some 3) := by
  let r : CreateRow := ⟨k!"ARPackage", k!"createUnit", k!"Unit", ⟨.typed, true, .nowhere, .typed⟩, k!"", 0⟩
  let ops : List World.Op := [.createARPackage 0 "P", .createARPackage 1 "Q", .create 2 r "m" .ident, .create 1 r "Q" .ident, .createARPackage 1 "m"]
  have hu : UPath (World.run armodel k!"ARPackage" ops) singleton ["P", "Q", "m"] 3 := by
    have e0 : ("P", 1) ∈ ((World.run armodel k!"ARPackage" ops).get 0).elim [] (·.pkgs) := by decide +kernel
    have e1 : ("Q", 2) ∈ ((World.run armodel k!"ARPackage" ops).get 1).elim [] (·.pkgs) := by decide +kernel
    have e2 : ((World.run armodel k!"ARPackage" ops).get 2).elim [] (·.own.coll.elements) = [⟨3, "m", k!"Unit"⟩] := by decide +kernel
    have e3 : ((World.run armodel k!"ARPackage" ops).get 2).elim [] (·.pkgs) = [] := by decide +kernel
    cases g0 : (World.run armodel k!"ARPackage" ops).get 0 with
    | none => rw [g0] at e0; cases e0
    | some o0 =>
      cases g1 : (World.run armodel k!"ARPackage" ops).get 1 with
      | none => rw [g1] at e1; cases e1
      | some o1 =>
        cases g2 : (World.run armodel k!"ARPackage" ops).get 2 with
        | none => rw [g2] at e2; cases e2
        | some o2 =>
          rw [g0] at e0; rw [g1] at e1; rw [g2] at e2 e3
          have h2 := UPath.pkg (UPath.pkg .root g0 e0) g1 e1
          replace e2 : o2.own.coll.elements = _ := e2
          replace e3 : o2.pkgs = _ := e3
          have h3 := UPath.mem (e := ⟨3, "m", k!"Unit"⟩) h2 g2 (by rw [e2]; exact List.mem_cons_self ..) (by rw [e3]; simp)
            (by rw [e2]; intro e' he' _; exact List.mem_singleton.1 he')
          exact h3
  have hn : ∀ n ∈ ["P", "Q", "m"], Plain n := by simp [Plain]
  exact ⟨ops, hu, hn, by decide +kernel⟩

/-- **C09 fails without unambiguity**: two members of one package share a name, and the full name of a
child of the second one is not found at all. -/
theorem C09_ambiguous_broken : ∃ ops i ns, Path (World.run armodel k!"ARPackage" ops) singleton ns i ∧ (∀ n ∈ ns, Plain n)
    ∧ (World.run armodel k!"ARPackage" ops).find armodel singleton ((World.run armodel k!"ARPackage" ops).fullName i) = .ok none := by
  let r1 : CreateRow := ⟨k!"ARPackage", k!"createUnit", k!"Unit", ⟨.typed, true, .nowhere, .typed⟩, k!"", 0⟩
  let r2 : CreateRow := ⟨k!"ARPackage", k!"createSenderReceiverInterface", k!"SenderReceiverInterface", ⟨.typed, true, .nowhere, .typed⟩, k!"", 0⟩
  let r3 : CreateRow := ⟨k!"SenderReceiverInterface", k!"createDataElement", k!"VariableDataPrototype", ⟨.untyped, true, .list, .typed⟩, k!"dataElements", 0⟩
  let ops : List World.Op := [.createARPackage 0 "P", .create 1 r1 "A" .ident, .create 1 r2 "A" .ident, .create 3 r3 "X" .ident]
  refine ⟨ops, 4, ["P", "A", "X"], ?_, by simp [Plain], by decide +kernel⟩
  have e0 : (World.run armodel k!"ARPackage" ops).get 0 = some ⟨.doc, "", 0, 0, Owner.empty, [("P", 1)]⟩ := rfl
  have h1 : Path (World.run armodel k!"ARPackage" ops) singleton ["P"] 1 := Path.pkg .root e0 (List.mem_cons_self ..)
  have m3 : (⟨3, "A", k!"SenderReceiverInterface"⟩ : Elem) ∈ ((World.run armodel k!"ARPackage" ops).get 1).elim [] (·.own.coll.elements) := by
    decide +kernel
  have m4 : (⟨4, "X", k!"VariableDataPrototype"⟩ : Elem) ∈ ((World.run armodel k!"ARPackage" ops).get 3).elim [] (·.own.coll.elements) := by
    decide +kernel
  cases g1 : (World.run armodel k!"ARPackage" ops).get 1 with
  | none => rw [g1] at m3; cases m3
  | some o1 =>
    rw [g1] at m3
    have h3 := Path.mem h1 g1 m3
    cases g3 : (World.run armodel k!"ARPackage" ops).get 3 with
    | none => rw [g3] at m4; cases m4
    | some o3 =>
      rw [g3] at m4
      exact Path.mem h3 g3 m4

/-! ## C10 path lookup -/

/-- **C10** Descending along `p/q` is descending along `p` and then along `q`. -/
theorem C10_concat (H : Hier) (w : World) (i : Nat) (p q : String) :
    w.findFrom H i (p ++ "/" ++ q) = match w.findFrom H i p with
      | .error e => .error e
      | .ok none => .ok none
      | .ok (some j) => w.findFrom H j q := by
  have : (p ++ "/" ++ q).toList = p.toList ++ '/' :: q.toList := by simp [String.toList_append]
  rw [findFrom, this, splitSlash_append, walk_append]
  rfl

/-- **C10** The empty text denotes the starting object (so leading, trailing and doubled slashes are ignored). -/
theorem C10_empty (H : Hier) (w : World) (i : Nat) : w.findFrom H i "" = .ok (some i) := by
  simp [findFrom, splitSlash, walk]

/-- **C10** A single segment is one member lookup. -/
theorem C10_segment (H : Hier) (w : World) (i : Nat) (n : String) (hn : Plain n) :
    w.findFrom H i n = w.getElement H i n := by
  have h1 : n.toList ≠ [] := by simpa using hn.1
  rw [findFrom, splitSlash_single _ hn.2]
  simp only [walk, h1, if_false, String.ofList_toList]
  cases w.getElement H i n with
  | error e => rfl
  | ok r => cases r <;> rfl

/-- **C10** Leading, trailing and repeated slashes are ignored. -/
theorem C10_slashes (H : Hier) (w : World) (i : Nat) (p q : String) :
    w.findFrom H i ("/" ++ p) = w.findFrom H i p ∧ w.findFrom H i (p ++ "/") = w.findFrom H i p
    ∧ w.findFrom H i (p ++ "//" ++ q) = w.findFrom H i (p ++ "/" ++ q) := by
  refine ⟨?_, ?_, ?_⟩
  · have := C10_concat H w i "" p
    simpa [C10_empty] using this
  · have := C10_concat H w i p ""
    simp only [C10_empty, String.append_empty] at this
    rw [this]
    cases w.findFrom H i p with
    | error e => rfl
    | ok r => cases r <;> rfl
  · have h1 := C10_concat H w i p ("/" ++ q)
    have h2 := C10_concat H w i p q
    have h3 : ∀ j, w.findFrom H j ("/" ++ q) = w.findFrom H j q := by
      intro j; simpa [C10_empty] using C10_concat H w j "" q
    have e : p ++ "//" ++ q = p ++ "/" ++ ("/" ++ q) := by
      simp [String.append_assoc, ← String.toList_inj, String.toList_append]
    rw [e, h1, h2]
    simp only [h3]

/-- no removals in the history -/
def WNoRemove (ops : List World.Op) : Prop := ∀ op ∈ ops, ∀ r n t, op ≠ .remove r n t

theorem wfull_run (H : Hier) (pc : Nat) (ops : List World.Op) (h : WNoRemove ops) :
    ∀ w, (∀ i o, w.get i = some o → Full o.own.coll) →
      ∀ i o, (ops.foldl (step H pc) w).get i = some o → Full o.own.coll := by
  induction ops with
  | nil => intro w hw; exact hw
  | cons op ops ih =>
    intro w hw
    refine ih (fun o ho => h o (List.mem_cons_of_mem _ ho)) _ ?_
    have hal : ∀ (w1 : World) (o : Obj), (∀ i o, w1.get i = some o → Full o.own.coll) → o.own = Owner.empty →
        ∀ i p, (w1.alloc o).get i = some p → Full p.own.coll := by
      intro w1 o h1 ho i p hp
      by_cases e : i = w1.next
      · simp only [alloc, e, if_true, Option.some.injEq] at hp
        subst hp; rw [ho]; exact full_empty
      · simp only [alloc, e, if_false] at hp; exact h1 i p hp
    have hup : ∀ (w1 : World) (j : Nat) (o : Obj), (∀ i o, w1.get i = some o → Full o.own.coll) → Full o.own.coll →
        ∀ i p, (w1.upd j o).get i = some p → Full p.own.coll := by
      intro w1 j o h1 ho i p hp
      by_cases e : i = j
      · simp only [upd, e, if_true, Option.some.injEq] at hp
        subst hp; exact ho
      · simp only [upd, e, if_false] at hp; exact h1 i p hp
    cases op with
    | newDoc => exact hal _ _ hw rfl
    | createARPackage r n =>
      simp only [step, createARPackage]
      cases hr : w.get r with
      | none => exact hw
      | some p =>
        have := hup _ r { p with pkgs := p.pkgs ++ [(n, w.next)] } (hal w ⟨.pkg, n, pc, r, Owner.empty, []⟩ hw rfl) (hw r p hr)
        cases hkd : p.kind <;> cases hl : p.pkgs.lookup n <;> simp only [hkd, hl] <;> first | exact hw | simpa only [hkd] using this
    | create r row n k =>
      simp only [step]
      cases hr : w.get r with
      | none => exact hw
      | some p =>
        simp only
        split
        · split
          · exact hup _ r _ (hal w _ hw rfl) (full_create H row (hw r p hr) n w.next)
          · exact hw
        · exact hw
    | remove r n t => exact absurd rfl (h _ (List.mem_cons_self ..) r n t)
    | clear d =>
      simp only [step]
      cases hr : w.get d with
      | none => exact hw
      | some p =>
        simp only
        split
        · exact hup _ d _ hw full_empty
        · exact hw

/-- **C10** One descent step (histories without removals, see C05): in every object that can have members,
the name denotes the sub-package of that name if there is one, else the first member of that name, else
nothing; in an object that cannot have members the lookup raises `AttributeError`. -/
theorem C10_member (H : Hier) (pc : Nat) (ops : List World.Op) (hnr : WNoRemove ops) (i : Nat) (o : Obj)
    (ho : (World.run H pc ops).get i = some o) (n : String) :
    (World.run H pc ops).getElement H i n =
      if o.kind = .plain then .error .attributeError else .ok (Spec.member o n) := by
  have hf := wfull_run H pc ops hnr World.init (by
    intro i o h
    by_cases e : i = 0
    · simp only [World.init, e, if_true, Option.some.injEq] at h; subst h; exact full_empty
    · simp [World.init, e] at h) i o ho
  split
  · rename_i hk; simp [World.getElement, ho, hk]
  · rename_i hk; exact getElement_member (wf_run H pc ops) ho hk n (hf n)

/-- non-vacuity of C09/C10: a package and an element below it -/
example :
    let r : CreateRow := ⟨k!"ARPackage", k!"createUnit", k!"Unit", ⟨.typed, true, .nowhere, .typed⟩, k!"", 0⟩
    let w := World.run armodel k!"ARPackage" [.createARPackage 0 "P", .createARPackage 1 "Q", .create 2 r "m" .ident, .create 1 r "Q" .ident]
    w.fullName 3 = "/P/Q/m" ∧ w.find armodel 0 "/P/Q/m" = .ok (some 3) ∧ w.find armodel 0 "P//Q/" = .ok (some 2)
      ∧ w.find armodel 0 "/P/x/m" = .ok none := by decide +kernel

/-! ## C11 DEST -/

/-- the `isinstance` chain of `getDestType` (`AutosarTopLevelStructure/__init__.py:216-238`) -/
def destTable : List (Nat × String) :=
  [(k!"ImplementationDataType", "IMPLEMENTATION-DATA-TYPE"), (k!"ApplicationDataType", "APPLICATION-DATA-TYPE"),
   (k!"AtomicSwComponentType", "ATOMIC-SW-COMPONENT-TYPE"), (k!"CompositionSwComponentType", "COMPOSITION-SW-COMPONENT-TYPE"),
   (k!"SystemSignal", "SYSTEM-SIGNAL"), (k!"SystemSignalGroup", "SYSTEM-SIGNAL-GROUP"),
   (k!"RunnableEntity", "RUNNABLE-ENTITY"), (k!"BswSchedulableEntity", "BSW-SCHEDULABLE-ENTITY"),
   (k!"BswModuleEntry", "BSW-MODULE-ENTRY"), (k!"BswCalledEntity", "BSW-CALLED-ENTITY")]

theorem destOf_sound (H : Hier) (c : Nat) (t : List (Nat × String)) (s : String) (h : destOf H c t = .ok s) :
    ∃ e ∈ t, e.2 = s ∧ H.sub c e.1 = true := by
  induction t with
  | nil => cases h
  | cons a t ih =>
    obtain ⟨c', s'⟩ := a
    simp only [destOf] at h
    split at h
    · rename_i hs; cases h; exact ⟨_, List.mem_cons_self .., rfl, hs⟩
    · obtain ⟨e, he, h'⟩ := ih h; exact ⟨e, List.mem_cons_of_mem _ he, h'⟩

/-- **C11** A lookup with a DEST that returns an object returns one that the text path leads to and whose
class is a subclass of the class belonging to the DEST; a DEST outside the ten known ones never yields an
object. -/
theorem C11_dest (w : World) (self : Nat) (value dest : String) (hd : dest ≠ "") (i : Nat)
    (h : w.findRef armodel destTable self value (some dest) = .ok (some i)) :
    w.find armodel self value = .ok (some i)
    ∧ ∃ o, w.get i = some o ∧ ∃ e ∈ destTable, e.2 = dest ∧ armodel.sub o.cls e.1 = true := by
  unfold findRef at h
  cases hf : w.find armodel self value with
  | error e => simp [hf] at h
  | ok r => cases r with
    | none => simp [hf] at h
    | some j =>
      simp only [hf, hd, if_false] at h
      cases ho : w.get j with
      | none => simp [ho] at h
      | some o =>
        simp only [ho] at h
        cases hb : destOf armodel o.cls destTable with
        | error e => simp [hb] at h
        | ok b =>
          simp only [hb] at h
          split at h
          · cases h
          · rename_i hne
            simp only [Except.ok.injEq, Option.some.injEq] at h
            subst h
            have hbd : b = dest := by simpa using hne
            subst hbd
            exact ⟨rfl, o, ho, destOf_sound _ _ _ _ hb⟩

/-- **C11** Without DEST (or with an empty one) the lookup is the path lookup; an unresolved path gives `None`. -/
theorem C11_no_dest (w : World) (self : Nat) (value : String) (H : Hier) (t : List (Nat × String)) :
    w.findRef H t self value none = w.find H self value ∧ w.findRef H t self value (some "") = w.find H self value
    ∧ ∀ d, w.find H self value = .ok none → w.findRef H t self value d = .ok none := by
  refine ⟨?_, ?_, ?_⟩
  · unfold findRef; cases w.find H self value with
    | error e => rfl
    | ok r => cases r <;> rfl
  · unfold findRef; cases w.find H self value with
    | error e => rfl
    | ok r => cases r <;> simp
  · intro d h; simp [findRef, h]

/-- **C47 fails**: a reference whose DEST is the element's own tag raises: application components are
classified as `ATOMIC-SW-COMPONENT-TYPE`, units not at all. -/
theorem C47_own_dest_broken :
    let ra : CreateRow := ⟨k!"ARPackage", k!"createApplicationSwComponentType", k!"ApplicationSwComponentType", ⟨.typed, true, .nowhere, .typed⟩, k!"", 0⟩
    let ru : CreateRow := ⟨k!"ARPackage", k!"createUnit", k!"Unit", ⟨.typed, true, .nowhere, .typed⟩, k!"", 0⟩
    let w := World.run armodel k!"ARPackage" [.createARPackage 0 "P", .create 1 ra "A" .ident, .create 1 ru "U" .ident]
    w.findRef armodel destTable 0 "/P/A" (some "APPLICATION-SW-COMPONENT-TYPE") = .error .valueError
    ∧ w.findRef armodel destTable 0 "/P/U" (some "UNIT") = .error .notImplemented
    ∧ w.findRef armodel destTable 0 "/P/A" (some "ATOMIC-SW-COMPONENT-TYPE") = .ok (some 2) := by decide +kernel

/-- **C47 (partial)** With the DEST of one of the ten known classes, an element of that class is found
(`getDestType` does not confuse the ten classes).  Missing: every other tag (`C47_own_dest_broken`). -/
theorem C47_known_dest_partial (w : World) (self : Nat) (value : String) (i : Nat) (o : Obj) (e : Nat × String)
    (he : e ∈ destTable) (hcls : o.cls = e.1)
    (hf : w.find armodel self value = .ok (some i)) (ho : w.get i = some o) :
    w.findRef armodel destTable self value (some e.2) = .ok (some i) := by
  have h : ∀ e ∈ destTable, destOf armodel e.1 destTable = .ok e.2 ∧ e.2 ≠ "" := by decide +kernel
  obtain ⟨h1, h2⟩ := h e he
  simp [findRef, hf, ho, hcls, h1, h2]

/-- the hypotheses are met; with another of the ten the element is refused -/
example :
    let r : CreateRow := ⟨k!"ARPackage", k!"createSystemSignal", k!"SystemSignal", ⟨.typed, true, .nowhere, .typed⟩, k!"", 0⟩
    let w := World.run armodel k!"ARPackage" [.createARPackage 0 "P", .create 1 r "s" .ident]
    (k!"SystemSignal", "SYSTEM-SIGNAL") ∈ destTable ∧ (w.get 2).map (·.cls) = some k!"SystemSignal" ∧
      w.find armodel 0 "/P/s" = .ok (some 2) ∧ w.findRef armodel destTable 0 "/P/s" (some "SYSTEM-SIGNAL") = .ok (some 2) ∧
      w.findRef armodel destTable 0 "/P/s" (some "SYSTEM-SIGNAL-GROUP") = .error .valueError := by decide +kernel

/-! ## C12 documents -/

/-- **C12 fails**: a package created in a separate document is not found by that document's own `find`,
and what is found there is the content of the singleton. -/
theorem C12_broken :
    let w := World.run armodel k!"ARPackage" [.newDoc, .createARPackage 1 "A", .createARPackage 0 "B"]
    w.getElement armodel 1 "A" = .ok (some 2) ∧ w.find armodel 1 "/A" = .ok none
    ∧ w.getElement armodel 1 "B" = .ok none ∧ w.find armodel 1 "/B" = .ok (some 3) := by decide +kernel

/-- **C12 (partial)** For the singleton the claim holds: what its `find` returns is contained in it, and
everything it contains under unambiguous names is found.  Missing: every other document (`C12_broken`). -/
theorem C12_singleton_partial (H : Hier) (pc : Nat) (ops : List World.Op) :
    (∀ path j, (World.run H pc ops).find H singleton path = .ok (some j) →
      ∃ ns, Path (World.run H pc ops) singleton ns j)
    ∧ ∀ ns i, UPath (World.run H pc ops) singleton ns i → (∀ n ∈ ns, Plain n) →
      (World.run H pc ops).find H singleton (slashed ns) = .ok (some i) := by
  refine ⟨fun path j h => ⟨_, C09_find_sound H pc ops singleton j path h⟩, fun ns i hu hn => ?_⟩
  obtain ⟨od, hd, hk⟩ := (wf_run H pc ops).root
  have hpath : Path (World.run H pc ops) singleton ns i := by
    clear hn
    induction hu with
    | root => exact .root
    | pkg _ ho hm ih => exact .pkg ih ho hm
    | mem _ ho hm _ _ ih => exact .mem ih ho hm
  rw [← C09_full_name H pc ops singleton od hd hk ns i hpath]
  exact C09_resolves H pc ops ns i singleton hu hn

/-! ## C13 clear (members; the registries are in `Verif.Props.Registry`) -/

/-- **C13** After `clear()` a document object is a newly constructed document: no packages, no members,
and every lookup of a name in it gives `None`. -/
theorem C13_clear_members (H : Hier) (pc : Nat) (ops : List World.Op) (d : Nat) (o : Obj)
    (hd : (World.run H pc ops).get d = some o) (hk : o.kind = .doc) :
    let w' := step H pc (World.run H pc ops) (.clear d)
    w'.get d = some freshDoc ∧ w'.getARPackages d = [] ∧ ∀ n, w'.getElement H d n = .ok none := by
  have hs := (wf_run H pc ops).docs _ _ hd hk
  generalize World.run H pc ops = w at *
  have e : ({ o with own := Owner.empty, pkgs := [] } : Obj) = freshDoc := by
    simp only [static, Prod.mk.injEq] at hs
    obtain ⟨k, n, c, p, ow, pk⟩ := o
    simp only at hs
    obtain ⟨rfl, rfl, rfl, rfl⟩ := hs
    rfl
  have hg : (step H pc w (.clear d)).get d = some freshDoc := by
    rw [← e]; simp [step, hd, hk, upd]
  refine ⟨hg, ?_, ?_⟩
  · simp [getARPackages, hg, freshDoc, sortBy]
  · intro n; simp [World.getElement, hg, freshDoc, Owner.empty, Coll.empty, Coll.getElement, Coll.slot, Except.map]

/-- a document with a package, cleared: the package is gone, that of the other document is not -/
example :
    let w := World.run armodel k!"ARPackage" [.newDoc, .createARPackage 1 "A", .createARPackage 0 "B"]
    (w.get 1).any (fun o => o.kind == .doc) = true ∧ w.getElement armodel 1 "A" = .ok (some 2) ∧
      (step armodel k!"ARPackage" w (.clear 1)).getElement armodel 1 "A" = .ok none ∧
      (step armodel k!"ARPackage" w (.clear 1)).getElement armodel 0 "B" = .ok (some 3) := by decide +kernel

end Verif.Props
