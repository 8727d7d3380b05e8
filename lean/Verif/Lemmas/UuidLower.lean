import Verif.Lemmas.UuidUpper
import Verif.Lemmas.ListTool
/-!
# Every package and every element of a package is registered
-/
namespace Verif.Lemmas
open Verif Verif.Model Verif.Gen Verif.Spec

/-! ## sums over grandchildren -/

theorem sumOf_at {α : Type} {g : α → Nat} {l : List α} {i : Nat} {a : α} (h : l[i]? = some a) : g a ≤ sumOf g l :=
  sumOf_mem (List.mem_of_getElem? h)

theorem sumOf_at2 {α : Type} {g : α → Nat} {l : List α} {i j : Nat} {a b : α} (hij : i ≠ j) (hi : l[i]? = some a) (hj : l[j]? = some b) :
    g a + g b ≤ sumOf g l := by
  induction l generalizing i j with
  | nil => simp at hi
  | cons c l ih =>
    simp only [sumOf]
    cases i with
    | zero =>
      cases j with
      | zero => exact absurd rfl hij
      | succ j =>
        simp only [List.getElem?_cons_zero, Option.some.injEq, List.getElem?_cons_succ] at hi hj
        have := sumOf_at (g := g) hj
        subst hi; omega
    | succ i =>
      cases j with
      | zero =>
        simp only [List.getElem?_cons_zero, Option.some.injEq, List.getElem?_cons_succ] at hi hj
        have := sumOf_at (g := g) hi
        subst hj; omega
      | succ j =>
        simp only [List.getElem?_cons_succ] at hi hj
        have := ih (by omega) hi hj
        omega

/-- the sum over the grandchildren -/
def grand (H : Xml → Xml → Nat) (x : Xml) : Nat := sumOf (fun g => sumOf (H g) g.kids) x.kids

theorem grand_at {H : Xml → Xml → Nat} {x g y : Xml} {i j : Nat} (h1 : x.kids[i]? = some g) (h2 : g.kids[j]? = some y) : H g y ≤ grand H x :=
  Nat.le_trans (sumOf_at (g := H g) h2) (sumOf_at (g := fun g => sumOf (H g) g.kids) h1)

theorem grand_at2 {H : Xml → Xml → Nat} {x g y g' y' : Xml} {i j i' j' : Nat} (hne : ¬ (i = i' ∧ j = j')) (h1 : x.kids[i]? = some g)
    (h2 : g.kids[j]? = some y) (h1' : x.kids[i']? = some g') (h2' : g'.kids[j']? = some y') : H g y + H g' y' ≤ grand H x := by
  by_cases hi : i = i'
  · subst hi
    rw [h1] at h1'
    cases h1'
    exact Nat.le_trans (sumOf_at2 (g := H g) (fun e => hne ⟨rfl, e⟩) h2 h2') (sumOf_at (g := fun g => sumOf (H g) g.kids) h1)
  · have a1 := sumOf_at (g := H g) h2
    have a2 := sumOf_at (g := H g') h2'
    have a3 := sumOf_at2 (g := fun g => sumOf (H g) g.kids) hi h1 h1'
    simp only [grand]
    omega

/-! ## the methods -/

/-- reading the UUID of the element itself -/
def uuidHere (s : RSlot) : Bool := isUuid s && (match s.path with | .nil => true | _ => false)

theorem pkg_reader : allReaders pkgKey = some ⟨k!"ARPackage", R.readARPackages_ARPackage⟩ := by
  have h1 : readers pkgKey = some ⟨k!"ARPackage", R.readARPackages_ARPackage⟩ := by rw [readers]; rfl
  have h2 : twice.lookup pkgKey = none := by decide +kernel
  rw [allReaders, h1, h2]; rfl

theorem load_reader : allReaders k!"load" = some loadBody := by
  have h1 : readers k!"load" = some loadBody := by rw [readers, if_pos rfl]
  have h2 : twice.lookup k!"load" = none := by decide +kernel
  rw [allReaders, h1, h2]; rfl

theorem pkg_uuid : R.readIdentifiable_ARPackage.any uuidHere = true := by decide +kernel
theorem pkg_named : R.readARPackages_ARPackage.any isName = true := by decide +kernel
theorem load_unnamed : loadBody.slots.any isName = false := by decide +kernel
theorem sub_slot : R.readARPackages.contains subPkgSlot = true := by decide +kernel
theorem el_slot : R.readARPackageElements.contains elSlot = true := by decide +kernel

/-- the methods for elements of packages -/
def elOk (a : Key × Key) : Bool := a.1 != 0 && (a.1 == k!"ECUC-DESTINATION-URI-DEF-SET" || (allReaders a.2).any fun b => b.slots.any uuidHere && b.slots.any isName)

theorem els_ok : elementAlts.all elOk = true := by decide +kernel

theorem els_tags : (packageTags.map Prod.fst).all (fun t => elementAlts.any fun a => a.1 == t) = true := by decide +kernel

theorem pkg_names (ns : List Str) (y : Xml) : ownNames ⟨k!"ARPackage", R.readARPackages_ARPackage⟩ ns y = ns ++ [nameIn y] := by
  rw [ownNames, if_pos pkg_named, elemName_nameIn]

theorem load_names (ns : List Str) (y : Xml) : ownNames loadBody ns y = ns := by
  rw [ownNames, if_neg (by simp [load_unnamed])]

section
variable {sc : RKind → Xml → Bool} {u : Str}

/-- the calls of one slot -/
theorem slot_regs {rd : Key → List Str → Xml → List DocCall} {c : Key} {ns : List Str} {x : Xml} {s : RSlot} {l : List RSlot} (hs : s ∈ l) :
    sumOf (fun y => regs u (slotCalls sc rd c ns s y)) (select s.path x) ≤
      sumOf (fun s => regs u ((select s.path x).flatMap (slotCalls sc rd c ns s))) l := by
  have := sumOf_mem (g := fun s => regs u ((select s.path x).flatMap (slotCalls sc rd c ns s))) hs
  rwa [regs_flatMap] at this

theorem slot_mem {rd : Key → List Str → Xml → List DocCall} {b : RBody} {ns : List Str} {x y : Xml} {s : RSlot} (hs : s ∈ b.slots)
    (hy : y ∈ select s.path x) {e : DocCall} (he : e ∈ slotCalls sc rd b.cls (ownNames b ns x) s y) : e ∈ bodyCalls sc rd b ns x := by
  rw [bodyCalls, List.mem_append]
  exact .inl (List.mem_flatMap.2 ⟨s, hs, List.mem_flatMap.2 ⟨y, hy, he⟩⟩)

theorem uuidHere_calls {rd : Key → List Str → Xml → List DocCall} {c : Key} {ns : List Str} {s : RSlot} (hs : uuidHere s = true) (x y : Xml) :
    select s.path x = [x] ∧ slotCalls sc rd c ns s y = noteUuid c ns y := by
  simp only [uuidHere, Bool.and_eq_true] at hs
  obtain ⟨h1, h2⟩ := hs
  constructor
  · split at h2
    · rename_i e; rw [e]; rfl
    · cases h2
  · have h1' := h1
    simp only [isUuid] at h1'
    rw [slotCalls]
    split at h1'
    · rename_i n e
      rw [e]
      simp only [h1, if_true]
    · cases h1'

theorem pkg_el_slot : R.readARPackages_ARPackage = [{ field := k!"short_name", path := (.first [k!"SHORT-NAME"] .nil), item := .name, req := .always }] ++
    (R.readIdentifiable_ARPackage ++ R.readARPackages ++ R.readARPackageElements ++ R.readReferenceBases) := rfl

theorem sub_mem' : subPkgSlot ∈ R.readARPackages_ARPackage := by
  rw [pkg_el_slot]
  simp only [List.mem_append]
  exact .inr (.inl (.inl (.inr (by simpa using sub_slot))))

theorem el_mem' : elSlot ∈ R.readARPackages_ARPackage := by
  rw [pkg_el_slot]
  simp only [List.mem_append]
  exact .inr (.inl (.inr (by simpa using el_slot)))

theorem load_mem' : subPkgSlot ∈ loadBody.slots := by
  simp only [loadBody, List.mem_append]
  exact .inr (by simpa using sub_slot)

/-! ## what is called -/

theorem sub_calls {n : Nat} {c : Key} {ns : List Str} {y : Xml} (h : y.tag = k!"AR-PACKAGE") :
    slotCalls sc (objCalls sc n) c ns subPkgSlot y = objCalls sc n pkgKey ns y := by
  simp only [slotCalls, subPkgSlot, h]
  rfl

theorem elem_alt {t : Key} (h1 : t ∈ packageTags.map Prod.fst) (h2 : t ≠ k!"ECUC-DESTINATION-URI-DEF-SET") :
    ∃ k b, altOf elementAlts t = some k ∧ allReaders k = some b ∧ b.slots.any uuidHere = true ∧ b.slots.any isName = true := by
  obtain ⟨a, ha, e⟩ := List.any_eq_true.1 (List.all_eq_true.1 els_tags _ h1)
  obtain ⟨k, hk⟩ := altOf_some ⟨a, ha, beq_iff_eq.1 e⟩
  have h0 : ∀ a ∈ elementAlts, a.1 ≠ 0 := by
    intro a ha
    have := List.all_eq_true.1 els_ok a ha
    simp only [elOk, Bool.and_eq_true, bne_iff_ne] at this
    exact this.1
  have := List.all_eq_true.1 els_ok _ (altOf_pair h0 hk)
  simp only [elOk, Bool.and_eq_true, Bool.or_eq_true, beq_iff_eq] at this
  have := this.2.resolve_left h2
  cases hb : allReaders k with
  | none => rw [hb] at this; cases this
  | some b =>
    rw [hb] at this
    simp only [Option.any_some, Bool.and_eq_true] at this
    exact ⟨k, b, hk, hb, this.1, this.2⟩

/-- a package registers itself -/
theorem pkg_note {n : Nat} {ns : List Str} {y : Xml} (hn : y.depth ≤ n) (hu : y.attr k!"UUID" = some u) :
    DocCall.object u k!"ARPackage" (ns ++ [nameIn y]) ∈ objCalls sc n pkgKey ns y := by
  cases n with
  | zero => have := depth_pos y; omega
  | succ n =>
    rw [objCalls, pkg_reader]
    obtain ⟨s, hs, hu'⟩ := List.any_eq_true.1 pkg_uuid
    obtain ⟨h1, h2⟩ := uuidHere_calls (sc := sc) (rd := objCalls sc n) (c := k!"ARPackage") (ns := ns ++ [nameIn y]) hu' y y
    refine slot_mem (s := s) (y := y) ?_ (by rw [h1]; simp) ?_
    · show s ∈ R.readARPackages_ARPackage
      rw [pkg_el_slot]
      simp only [List.mem_append]
      exact .inr (.inl (.inl (.inl hs)))
    · rw [pkg_names, h2, noteUuid, hu]; simp

/-- so does an element -/
theorem elem_note {n : Nat} {ns : List Str} {y : Xml} (hn : y.depth ≤ n) (hu : y.attr k!"UUID" = some u) {k : Key} {b : RBody} (hb : allReaders k = some b)
    (h1 : b.slots.any uuidHere = true) (h2 : b.slots.any isName = true) : DocCall.object u b.cls (ns ++ [nameIn y]) ∈ objCalls sc n k ns y := by
  cases n with
  | zero => have := depth_pos y; omega
  | succ n =>
    rw [objCalls, hb]
    obtain ⟨s, hs, hu'⟩ := List.any_eq_true.1 h1
    obtain ⟨h3, h4⟩ := uuidHere_calls (sc := sc) (rd := objCalls sc n) (c := b.cls) (ns := ns ++ [nameIn y]) hu' y y
    refine slot_mem (s := s) (y := y) hs (by rw [h3]; simp) ?_
    rw [ownNames, if_pos h2, elemName_nameIn, h4, noteUuid, hu]; simp

theorem pkgStep_sub {x y : Xml} {i j : Nat} (h : PkgStep x i j y) : SubPkg x y := by
  obtain ⟨g, h1, h2, h3, h4⟩ := h
  exact ⟨g, List.mem_of_getElem? h1, h2, List.mem_of_getElem? h3, h4⟩

theorem elemStep_in {x y : Xml} {i j : Nat} (h : ElemStep x i j y) : InPkg x y := by
  obtain ⟨g, h1, h2, h3, _⟩ := h
  exact ⟨g, List.mem_of_getElem? h1, h2, List.mem_of_getElem? h3⟩

theorem sub_depth {x y : Xml} (h : SubPkg x y) : y.depth < x.depth := by
  obtain ⟨g, h1, _, h2, _⟩ := h
  exact Nat.lt_trans (depth_kid h2) (depth_kid h1)

theorem in_depth {x y : Xml} (h : InPkg x y) : y.depth < x.depth := by
  obtain ⟨g, h1, _, h2⟩ := h
  exact Nat.lt_trans (depth_kid h2) (depth_kid h1)

/-- what is called for a package in a package is called for that package -/
theorem pkg_sub {n : Nat} {ns : List Str} {x y : Xml} (h : SubPkg x y) {e : DocCall} (he : e ∈ objCalls sc n pkgKey (ns ++ [nameIn x]) y) :
    e ∈ objCalls sc (n + 1) pkgKey ns x := by
  rw [objCalls, pkg_reader]
  refine slot_mem sub_mem' ((select_subPkg x y).2 h) ?_
  obtain ⟨_, _, _, _, ht⟩ := h
  rw [pkg_names, sub_calls ht]
  exact he

theorem load_sub {n : Nat} {ns : List Str} {x y : Xml} (h : SubPkg x y) {e : DocCall} (he : e ∈ objCalls sc n pkgKey ns y) :
    e ∈ objCalls sc (n + 1) k!"load" ns x := by
  rw [objCalls, load_reader]
  refine slot_mem load_mem' ((select_subPkg x y).2 h) ?_
  obtain ⟨_, _, _, _, ht⟩ := h
  rw [load_names, sub_calls ht]
  exact he

theorem pkg_el {n : Nat} {ns : List Str} {x y : Xml} (h : InPkg x y) {k : Key} (hk : altOf elementAlts y.tag = some k) {e : DocCall}
    (he : e ∈ objCalls sc n k (ns ++ [nameIn x]) y) : e ∈ objCalls sc (n + 1) pkgKey ns x := by
  rw [objCalls, pkg_reader]
  refine slot_mem el_mem' ((select_inPkg x y).2 h) ?_
  rw [pkg_names]
  simp only [slotCalls, elSlot, hk]
  exact he

/-- the elements and packages in a package are registered -/
theorem elemStep_note {n : Nat} {ns : List Str} {x y : Xml} {i j : Nat} (hn : x.depth ≤ n) (h : ElemStep x i j y) (hu : y.attr k!"UUID" = some u) :
    ∃ c, DocCall.object u c (ns ++ [nameIn x, nameIn y]) ∈ objCalls sc n pkgKey ns x := by
  have hd := in_depth (elemStep_in h)
  obtain ⟨g, h1, h2, h3, h4, h5⟩ := h
  obtain ⟨k, b, hk, hb, hs1, hs2⟩ := elem_alt h4 h5
  cases n with
  | zero => have := depth_pos x; omega
  | succ n =>
    refine ⟨b.cls, pkg_el (elemStep_in ⟨g, h1, h2, h3, h4, h5⟩) hk ?_⟩
    have := elem_note (sc := sc) (ns := ns ++ [nameIn x]) (n := n) (by omega) hu hb hs1 hs2
    simpa using this

theorem held_note {n : Nat} {ns ms : List Str} {x y : Xml} {p : List Nat} (hn : x.depth ≤ n) (h : Held x p ms y) (hu : y.attr k!"UUID" = some u) :
    ∃ c, DocCall.object u c (ns ++ nameIn x :: ms) ∈ objCalls sc n pkgKey ns x := by
  induction h generalizing n ns with
  | @package x y i j h =>
    have hd := sub_depth (pkgStep_sub h)
    cases n with
    | zero => have := depth_pos x; omega
    | succ n =>
      refine ⟨k!"ARPackage", pkg_sub (pkgStep_sub h) ?_⟩
      have := pkg_note (sc := sc) (ns := ns ++ [nameIn x]) (n := n) (y := y) (by omega) hu
      simpa using this
  | @element x y z i j i' j' h h' =>
    have hd := sub_depth (pkgStep_sub h)
    cases n with
    | zero => have := depth_pos x; omega
    | succ n =>
      obtain ⟨c, hc⟩ := elemStep_note (sc := sc) (ns := ns ++ [nameIn x]) (n := n) (by omega) h' hu
      exact ⟨c, pkg_sub (pkgStep_sub h) (by simpa using hc)⟩
  | @inside x y z i j p ms h h' ih =>
    have hd := sub_depth (pkgStep_sub h)
    cases n with
    | zero => have := depth_pos x; omega
    | succ n =>
      obtain ⟨c, hc⟩ := ih (n := n) (ns := ns ++ [nameIn x]) (by omega) hu
      exact ⟨c, pkg_sub (pkgStep_sub h) (by simpa using hc)⟩

theorem doc_note {x y : Xml} {p : List Nat} {ms : List Str} (h : Held x p ms y) (hu : y.attr k!"UUID" = some u) :
    ∃ c, DocCall.object u c ms ∈ fileCalls sc x := by
  rw [fileCalls]
  cases hd : x.depth with
  | zero => have := depth_pos x; omega
  | succ n =>
    cases h with
    | @package _ y i j h =>
      have hd' := sub_depth (pkgStep_sub h)
      exact ⟨_, load_sub (pkgStep_sub h) (pkg_note (ns := []) (by omega) hu)⟩
    | @element _ y z i j i' j' h h' =>
      have hd' := sub_depth (pkgStep_sub h)
      obtain ⟨c, hc⟩ := elemStep_note (sc := sc) (ns := []) (n := n) (by omega) h' hu
      exact ⟨c, load_sub (pkgStep_sub h) hc⟩
    | @inside _ y z i j p ms h h' =>
      have hd' := sub_depth (pkgStep_sub h)
      obtain ⟨c, hc⟩ := held_note (sc := sc) (ns := []) (n := n) (by omega) h' hu
      exact ⟨c, load_sub (pkgStep_sub h) hc⟩

theorem pkg_no_elem : k!"AR-PACKAGE" ∉ packageTags.map Prod.fst := by decide +kernel

theorem held_pkg {n : Nat} {ns ms : List Str} {x y : Xml} {p : List Nat} (hn : x.depth ≤ n) (h : Held x p ms y) (ht : y.tag = k!"AR-PACKAGE")
    (hu : y.attr k!"UUID" = some u) : DocCall.object u k!"ARPackage" (ns ++ nameIn x :: ms) ∈ objCalls sc n pkgKey ns x := by
  induction h generalizing n ns with
  | @package x y i j h =>
    have hd := sub_depth (pkgStep_sub h)
    cases n with
    | zero => have := depth_pos x; omega
    | succ n =>
      refine pkg_sub (pkgStep_sub h) ?_
      have := pkg_note (sc := sc) (ns := ns ++ [nameIn x]) (n := n) (y := y) (by omega) hu
      simpa using this
  | @element x y z i j i' j' h h' =>
    obtain ⟨_, _, _, _, h4, _⟩ := h'
    rw [ht] at h4
    exact absurd h4 pkg_no_elem
  | @inside x y z i j p ms h h' ih =>
    have hd := sub_depth (pkgStep_sub h)
    cases n with
    | zero => have := depth_pos x; omega
    | succ n =>
      have hc := ih (n := n) (ns := ns ++ [nameIn x]) (by omega) ht hu
      exact pkg_sub (pkgStep_sub h) (by simpa using hc)

theorem doc_pkg {x y : Xml} {p : List Nat} {ms : List Str} (h : Held x p ms y) (ht : y.tag = k!"AR-PACKAGE") (hu : y.attr k!"UUID" = some u) :
    DocCall.object u k!"ARPackage" ms ∈ fileCalls sc x := by
  rw [fileCalls]
  cases hd : x.depth with
  | zero => have := depth_pos x; omega
  | succ n =>
    cases h with
    | @package _ y i j h =>
      have hd' := sub_depth (pkgStep_sub h)
      exact load_sub (pkgStep_sub h) (pkg_note (ns := []) (by omega) hu)
    | @element _ y z i j i' j' h h' =>
      obtain ⟨_, _, _, _, h4, _⟩ := h'
      rw [ht] at h4
      exact absurd h4 pkg_no_elem
    | @inside _ y z i j p ms h h' =>
      have hd' := sub_depth (pkgStep_sub h)
      exact load_sub (pkgStep_sub h) (held_pkg (ns := []) (n := n) (by omega) h' ht hu)

theorem regs_mem {cs : List DocCall} {c : Key} {ns : List Str} (h : DocCall.object u c ns ∈ cs) : 1 ≤ regs u cs :=
  List.countP_pos_iff.2 ⟨_, h, by simp [isObject]⟩

/-! ## how often -/

/-- the registrations for a grandchild of a package -/
def within (sc : RKind → Xml → Bool) (u : Str) (n : Nat) (ns : List Str) (g y : Xml) : Nat :=
  (if tagIs k!"AR-PACKAGES" g then (if tagIs k!"AR-PACKAGE" y then regs u (objCalls sc n pkgKey ns y) else 0) else 0) +
  (if tagIs k!"ELEMENTS" g then regs u (slotCalls sc (objCalls sc n) k!"ARPackage" ns elSlot y) else 0)

theorem pkgs_grand {f : Xml → Nat} {t t' : Key} {x : Xml} : sumOf f (select (.all t (.all t' .nil)) x) =
    grand (fun g y => if tagIs t g then (if tagIs t' y then f y else 0) else 0) x := by
  simp only [select, sumOf_flatMap, sumOf_filter, grand, sumOf]
  congr 1
  funext g
  split
  · simp
  · exact sumOf_zero.symm

theorem pkg_sum {F : RSlot → Nat} {a b c : Nat} (h1 : a ≤ sumOf F R.readIdentifiable_ARPackage) (h2 : b ≤ sumOf F R.readARPackages)
    (h3 : c ≤ sumOf F R.readARPackageElements) : a + (b + c) ≤ sumOf F R.readARPackages_ARPackage := by
  rw [pkg_el_slot, sumOf_append, sumOf_append, sumOf_append, sumOf_append]
  omega

theorem grand_add {H K : Xml → Xml → Nat} {x : Xml} : grand (fun g y => H g y + K g y) x = grand H x + grand K x := by
  simp only [grand, sumOf_add]

theorem pkg_lower {n : Nat} {ns : List Str} {x : Xml} :
    ownUuid u x + grand (within sc u n (ns ++ [nameIn x])) x ≤ regs u (objCalls sc (n + 1) pkgKey ns x) := by
  rw [objCalls, pkg_reader]
  simp only
  rw [bodyCalls, regs_append, regs_after, Nat.add_zero, regs_flatMap, pkg_names]
  simp only
  have h1 : ownUuid u x ≤ sumOf (fun s => regs u ((select s.path x).flatMap (slotCalls sc (objCalls sc n) k!"ARPackage" (ns ++ [nameIn x]) s))) R.readIdentifiable_ARPackage := by
    obtain ⟨s, hs, hu'⟩ := List.any_eq_true.1 pkg_uuid
    obtain ⟨h1, h2⟩ := uuidHere_calls (sc := sc) (rd := objCalls sc n) (c := k!"ARPackage") (ns := ns ++ [nameIn x]) hu' x x
    refine Nat.le_trans ?_ (slot_regs hs)
    rw [h1]
    simp only [sumOf, h2, regs_note]
    omega
  have h2 : grand (fun g y => if tagIs k!"AR-PACKAGES" g then (if tagIs k!"AR-PACKAGE" y then regs u (objCalls sc n pkgKey (ns ++ [nameIn x]) y) else 0) else 0) x ≤
      sumOf (fun s => regs u ((select s.path x).flatMap (slotCalls sc (objCalls sc n) k!"ARPackage" (ns ++ [nameIn x]) s))) R.readARPackages := by
    rw [← pkgs_grand]
    refine Nat.le_trans ?_ (slot_regs (by simpa using sub_slot))
    refine sumOf_le fun y hy => ?_
    obtain ⟨_, _, _, _, ht⟩ := (select_subPkg x y).1 hy
    rw [sub_calls ht]
  have h3 : grand (fun g y => if tagIs k!"ELEMENTS" g then regs u (slotCalls sc (objCalls sc n) k!"ARPackage" (ns ++ [nameIn x]) elSlot y) else 0) x ≤
      sumOf (fun s => regs u ((select s.path x).flatMap (slotCalls sc (objCalls sc n) k!"ARPackage" (ns ++ [nameIn x]) s))) R.readARPackageElements := by
    have e := pkgs_grand (f := fun y => regs u (slotCalls sc (objCalls sc n) k!"ARPackage" (ns ++ [nameIn x]) elSlot y)) (t := k!"ELEMENTS") (t' := 0) (x := x)
    have e0 : ∀ y, tagIs 0 y = true := fun y => rfl
    simp only [e0, if_true] at e
    rw [← e]
    exact slot_regs (by simpa using el_slot)
  have h4 : grand (within sc u n (ns ++ [nameIn x])) x = _ := grand_add
  rw [h4]
  exact pkg_sum h1 h2 h3

theorem load_lower {n : Nat} {ns : List Str} {x : Xml} :
    grand (fun g y => if tagIs k!"AR-PACKAGES" g then (if tagIs k!"AR-PACKAGE" y then regs u (objCalls sc n pkgKey ns y) else 0) else 0) x ≤
      regs u (objCalls sc (n + 1) k!"load" ns x) := by
  rw [objCalls, load_reader]
  simp only
  rw [bodyCalls, regs_append, regs_after, Nat.add_zero, regs_flatMap, load_names, ← pkgs_grand]
  refine Nat.le_trans ?_ (slot_regs load_mem')
  refine sumOf_le fun y hy => ?_
  obtain ⟨_, _, _, _, ht⟩ := (select_subPkg x y).1 hy
  rw [sub_calls ht]

theorem within_pkg {n : Nat} {ns : List Str} {g y : Xml} (h1 : g.tag = k!"AR-PACKAGES") (h2 : y.tag = k!"AR-PACKAGE") :
    regs u (objCalls sc n pkgKey ns y) ≤ within sc u n ns g y := by
  simp only [within, tagIs, h1, h2, beq_self_eq_true, Bool.or_true, if_true]
  omega

theorem within_el {n : Nat} {ns : List Str} {g y : Xml} {k : Key} (h1 : g.tag = k!"ELEMENTS") (hk : altOf elementAlts y.tag = some k) :
    regs u (objCalls sc n k ns y) ≤ within sc u n ns g y := by
  simp only [within, tagIs, h1, beq_self_eq_true, Bool.or_true, if_true, slotCalls, elSlot, hk]
  omega

/-- where the registrations of something in a package come from -/
theorem step_within {n : Nat} {ns ms : List Str} {x z : Xml} {p : List Nat} (hn : x.depth ≤ n + 1) (hu : z.attr k!"UUID" = some u)
    (h : (∃ i j, p = [i, j] ∧ ElemStep x i j z) ∨ Held x p ms z) :
    ∃ i j p' g y, p = i :: j :: p' ∧ x.kids[i]? = some g ∧ g.kids[j]? = some y ∧ 1 ≤ within sc u n ns g y ∧
      ((g.tag = k!"ELEMENTS" ∧ p' = [] ∧ z = y) ∨ (g.tag = k!"AR-PACKAGES" ∧ y.tag = k!"AR-PACKAGE" ∧
        ((p' = [] ∧ z = y) ∨ ∃ ms', (∃ i j, p' = [i, j] ∧ ElemStep y i j z) ∨ Held y p' ms' z))) := by
  rcases h with ⟨i, j, rfl, h⟩ | h
  · have hd := in_depth (elemStep_in h)
    obtain ⟨g, h1, h2, h3, h4, h5⟩ := h
    obtain ⟨k, b, hk, hb, hs1, hs2⟩ := elem_alt h4 h5
    refine ⟨i, j, [], g, z, rfl, h1, h3, ?_, .inl ⟨h2, rfl, rfl⟩⟩
    exact Nat.le_trans (regs_mem (elem_note (sc := sc) (ns := ns) (n := n) (by omega) hu hb hs1 hs2)) (within_el h2 hk)
  · cases h with
    | @package _ y i j h =>
      have hd := sub_depth (pkgStep_sub h)
      obtain ⟨g, h1, h2, h3, h4⟩ := h
      refine ⟨i, j, [], g, z, rfl, h1, h3, ?_, .inr ⟨h2, h4, .inl ⟨rfl, rfl⟩⟩⟩
      exact Nat.le_trans (regs_mem (pkg_note (sc := sc) (ns := ns) (n := n) (by omega) hu)) (within_pkg h2 h4)
    | @element _ y z i j i' j' h h' =>
      have hd := sub_depth (pkgStep_sub h)
      obtain ⟨g, h1, h2, h3, h4⟩ := h
      refine ⟨i, j, [i', j'], g, y, rfl, h1, h3, ?_, .inr ⟨h2, h4, .inr ⟨[], .inl ⟨i', j', rfl, h'⟩⟩⟩⟩
      obtain ⟨c, hc⟩ := elemStep_note (sc := sc) (ns := ns) (n := n) (by omega) h' hu
      exact Nat.le_trans (regs_mem hc) (within_pkg h2 h4)
    | @inside _ y z i j p' ms h h' =>
      have hd := sub_depth (pkgStep_sub h)
      obtain ⟨g, h1, h2, h3, h4⟩ := h
      refine ⟨i, j, p', g, y, rfl, h1, h3, ?_, .inr ⟨h2, h4, .inr ⟨ms, .inr h'⟩⟩⟩
      obtain ⟨c, hc⟩ := held_note (sc := sc) (ns := ns) (n := n) (by omega) h' hu
      exact Nat.le_trans (regs_mem hc) (within_pkg h2 h4)

/-- two places in a package -/
theorem pkg_two {n : Nat} {ns ms ms' : List Str} {x z z' : Xml} {p q : List Nat} (hn : x.depth ≤ n)
    (hu : z.attr k!"UUID" = some u) (hu' : z'.attr k!"UUID" = some u) (hpq : p ≠ q)
    (hp : (p = [] ∧ z = x) ∨ (∃ i j, p = [i, j] ∧ ElemStep x i j z) ∨ Held x p ms z)
    (hq : (q = [] ∧ z' = x) ∨ (∃ i j, q = [i, j] ∧ ElemStep x i j z') ∨ Held x q ms' z') :
    2 ≤ regs u (objCalls sc n pkgKey ns x) := by
  induction n generalizing ns ms ms' x z z' p q with
  | zero => have := depth_pos x; omega
  | succ n ih =>
    refine Nat.le_trans ?_ pkg_lower
    rcases hp with ⟨rfl, rfl⟩ | hp
    · rcases hq with ⟨rfl, _⟩ | hq
      · exact absurd rfl hpq
      · obtain ⟨i, j, p', g, y, _, h1, h2, h3, _⟩ := step_within (sc := sc) (n := n) (ns := ns ++ [nameIn z]) hn hu' hq
        have h4 := grand_at (H := within sc u n (ns ++ [nameIn z])) h1 h2
        have : ownUuid u z = 1 := by rw [ownUuid, if_pos hu]
        omega
    · obtain ⟨i, j, p', g, y, rfl, h1, h2, h3, hc⟩ := step_within (sc := sc) (n := n) (ns := ns ++ [nameIn x]) hn hu hp
      rcases hq with ⟨rfl, rfl⟩ | hq
      · have h4 := grand_at (H := within sc u n (ns ++ [nameIn z'])) h1 h2
        have : ownUuid u z' = 1 := by rw [ownUuid, if_pos hu']
        omega
      · obtain ⟨i', j', q', g', y', rfl, h1', h2', h3', hc'⟩ := step_within (sc := sc) (n := n) (ns := ns ++ [nameIn x]) hn hu' hq
        by_cases hij : i = i' ∧ j = j'
        · obtain ⟨rfl, rfl⟩ := hij
          rw [h1] at h1'; cases h1'
          rw [h2] at h2'; cases h2'
          have hne : p' ≠ q' := fun e => hpq (by rw [e])
          have hd : y.depth ≤ n := by
            have := depth_kid (List.mem_of_getElem? h1)
            have := depth_kid (List.mem_of_getElem? h2)
            omega
          rcases hc with ⟨a1, rfl, rfl⟩ | ⟨a1, a2, hc⟩
          · rcases hc' with ⟨_, rfl, _⟩ | ⟨b1, _⟩
            · exact absurd rfl hne
            · rw [a1] at b1; exact absurd b1 (by decide)
          · rcases hc' with ⟨b1, _⟩ | ⟨b1, b2, hc'⟩
            · rw [a1] at b1; exact absurd b1 (by decide)
            · have h4 := grand_at (H := within sc u n (ns ++ [nameIn x])) h1 h2
              have h5 := within_pkg (sc := sc) (u := u) (n := n) (ns := ns ++ [nameIn x]) a1 a2
              have h6 : 2 ≤ regs u (objCalls sc n pkgKey (ns ++ [nameIn x]) y) := by
                rcases hc with hc | ⟨m1, hc⟩
                · rcases hc' with hc' | ⟨m2, hc'⟩
                  · exact ih (ms := []) (ms' := []) hd hu hu' hne (.inl hc) (.inl hc')
                  · exact ih (ms := []) hd hu hu' hne (.inl hc) (.inr hc')
                · rcases hc' with hc' | ⟨m2, hc'⟩
                  · exact ih (ms' := []) hd hu hu' hne (.inr hc) (.inl hc')
                  · exact ih hd hu hu' hne (.inr hc) (.inr hc')
              omega
        · have := grand_at2 (H := within sc u n (ns ++ [nameIn x])) hij h1 h2 h1' h2'
          omega

/-- two places in a file -/
theorem doc_two {ms ms' : List Str} {x z z' : Xml} {p q : List Nat} (hu : z.attr k!"UUID" = some u) (hu' : z'.attr k!"UUID" = some u) (hpq : p ≠ q)
    (hp : Held x p ms z) (hq : Held x q ms' z') : 2 ≤ regs u (fileCalls sc x) := by
  rw [fileCalls]
  cases hd : x.depth with
  | zero => have := depth_pos x; omega
  | succ n =>
    refine Nat.le_trans ?_ load_lower
    have key : ∀ {ms : List Str} {z : Xml} {p : List Nat}, z.attr k!"UUID" = some u → Held x p ms z → ∃ i j p' g y, p = i :: j :: p' ∧ x.kids[i]? = some g ∧
        g.kids[j]? = some y ∧ g.tag = k!"AR-PACKAGES" ∧ y.tag = k!"AR-PACKAGE" ∧ 1 ≤ regs u (objCalls sc n pkgKey [] y) ∧
        ∃ ms', (p' = [] ∧ z = y) ∨ (∃ i j, p' = [i, j] ∧ ElemStep y i j z) ∨ Held y p' ms' z := by
      intro ms z p hu h
      cases h with
      | @package _ y i j h =>
        have hd := sub_depth (pkgStep_sub h)
        obtain ⟨g, h1, h2, h3, h4⟩ := h
        exact ⟨i, j, [], g, z, rfl, h1, h3, h2, h4, regs_mem (pkg_note (sc := sc) (ns := []) (n := n) (by omega) hu), [], .inl ⟨rfl, rfl⟩⟩
      | @element _ y z i j i' j' h h' =>
        have hd := sub_depth (pkgStep_sub h)
        obtain ⟨g, h1, h2, h3, h4⟩ := h
        obtain ⟨c, hc⟩ := elemStep_note (sc := sc) (ns := []) (n := n) (by omega) h' hu
        exact ⟨i, j, [i', j'], g, y, rfl, h1, h3, h2, h4, regs_mem hc, [], .inr (.inl ⟨i', j', rfl, h'⟩)⟩
      | @inside _ y z i j p' ms h h' =>
        have hd := sub_depth (pkgStep_sub h)
        obtain ⟨g, h1, h2, h3, h4⟩ := h
        obtain ⟨c, hc⟩ := held_note (sc := sc) (ns := []) (n := n) (by omega) h' hu
        exact ⟨i, j, p', g, y, rfl, h1, h3, h2, h4, regs_mem hc, ms, .inr (.inr h')⟩
    obtain ⟨i, j, p', g, y, rfl, h1, h2, h3, h4, h5, m, hc⟩ := key hu hp
    obtain ⟨i', j', q', g', y', rfl, h1', h2', h3', h4', h5', m', hc'⟩ := key hu' hq
    by_cases hij : i = i' ∧ j = j'
    · obtain ⟨rfl, rfl⟩ := hij
      rw [h1] at h1'; cases h1'
      rw [h2] at h2'; cases h2'
      refine Nat.le_trans ?_ (grand_at h1 h2)
      simp only [tagIs, h3, h4, beq_self_eq_true, Bool.or_true, if_true]
      have hd' : y.depth ≤ n := by
        have := depth_kid (List.mem_of_getElem? h1)
        have := depth_kid (List.mem_of_getElem? h2)
        omega
      exact pkg_two hd' hu hu' (fun e => hpq (by rw [e])) hc hc'
    · refine Nat.le_trans ?_ (grand_at2 hij h1 h2 h1' h2')
      simp only [tagIs, h3, h4, h3', h4', beq_self_eq_true, Bool.or_true, if_true]
      omega

/-- two places in files -/
theorem files_two {xs : List Xml} {a b : Place} {ns ms : List Str} (hab : a ≠ b) (ha : HeldAt xs u a ns) (hb : HeldAt xs u b ms) :
    2 ≤ regs u (filesCalls sc xs) := by
  obtain ⟨x, y, h1, h2, h3⟩ := ha
  obtain ⟨x', y', h1', h2', h3'⟩ := hb
  rw [filesCalls, regs_keep, regs_flatMap]
  obtain ⟨i, p⟩ := a
  obtain ⟨j, q⟩ := b
  by_cases hij : i = j
  · subst hij
    simp only at h1 h1' h2 h2'
    rw [h1] at h1'; cases h1'
    exact Nat.le_trans (doc_two h3 h3' (fun e => hab (by rw [e])) h2 h2') (sumOf_at (g := fun x => regs u (fileCalls sc x)) h1)
  · obtain ⟨c, hc⟩ := doc_note (sc := sc) h2 h3
    obtain ⟨c', hc'⟩ := doc_note (sc := sc) h2' h3'
    have h4 := regs_mem hc
    have h5 := regs_mem hc'
    have := sumOf_at2 (g := fun x => regs u (fileCalls sc x)) hij h1 h1'
    omega

theorem files_note {xs : List Xml} {a : Place} {ns : List Str} (ha : HeldAt xs u a ns) : ∃ c, DocCall.object u c ns ∈ filesCalls sc xs := by
  obtain ⟨x, y, h1, h2, h3⟩ := ha
  obtain ⟨c, hc⟩ := doc_note (sc := sc) h2 h3
  exact ⟨c, object_keep.2 (List.mem_flatMap.2 ⟨x, List.mem_of_getElem? h1, hc⟩)⟩

end

end Verif.Lemmas
