import Verif.Model.ListTool
import Verif.Spec.ListTool
import Verif.Lemmas.Define
import Verif.Lemmas.AdminLoad
/-!
# What the listing tools list
-/
namespace Verif.Lemmas
open Verif Verif.Model Verif.Gen Verif.Spec

/-! ## reading packages -/

section
variable {py : Py} {strict : Bool}

theorem mapE_both {α β ε : Type} {f : α → Except ε β} {l : List α} {r : List β} (h : mapE f l = .ok r) :
    (∀ b ∈ r, ∃ a ∈ l, f a = .ok b) ∧ ∀ a ∈ l, ∃ b ∈ r, f a = .ok b := by
  replace h := mapE_ok h
  induction h with
  | nil => exact ⟨by simp, by simp⟩
  | cons h1 _ ih =>
    rename_i a b l r _
    refine ⟨?_, ?_⟩
    · intro c hc
      rcases List.mem_cons.1 hc with rfl | hc
      · exact ⟨a, by simp, h1⟩
      · obtain ⟨a', ha', e⟩ := ih.1 c hc; exact ⟨a', by simp [ha'], e⟩
    · intro c hc
      rcases List.mem_cons.1 hc with rfl | hc
      · exact ⟨b, by simp, h1⟩
      · obtain ⟨a', ha', e⟩ := ih.2 c hc; exact ⟨a', by simp [ha'], e⟩

theorem elemName_nameIn (y : Xml) : elemName y = nameIn y := by
  have e : (fun k : Xml => k.tag == k!"SHORT-NAME") = tagIs k!"SHORT-NAME" := by
    funext k; simp [tagIs]
  simp only [elemName, nameIn, select, walk, e, find_filter]
  cases (y.kids.filter (tagIs k!"SHORT-NAME")) with
  | nil => rfl
  | cons a _ => rfl

/-- the method for a package -/
def pkgKey : Key := k!"readARPackages_ARPackage"

/-- reading the packages in a package -/
def subPkgSlot : RSlot := { field := k!"arPackages", path := (.all k!"AR-PACKAGES" (.all k!"AR-PACKAGE" .nil)), item := (.objs [(k!"AR-PACKAGE", pkgKey)]), named := true }

/-- reading the elements in a package -/
def elSlot : RSlot := { field := k!"elements", path := (.all k!"ELEMENTS" (.all 0 .nil)), item := (.objs elementAlts), elems := true, named := true }

def pkgBodyOk (b : RBody) : Bool := (b.slots.filter (fun s => hits k!"arPackages" s.key) == [subPkgSlot]) && (b.slots.filter (fun s => hits k!"elements" s.key) == [elSlot]) && nameOk b

theorem pkgBody_right : (readers pkgKey).any pkgBodyOk = true := by decide +kernel

theorem docBody_right : (loadBody.slots.filter (fun s => hits k!"arPackages" s.key) == [subPkgSlot]) = true ∧
    (loadBody.slots.filter (fun s => hits k!"elements" s.key) == []) = true := by decide +kernel

theorem select_subPkg (x y : Xml) : y ∈ select subPkgSlot.path x ↔ SubPkg x y := by
  simp only [subPkgSlot, select, List.mem_flatMap, List.mem_filter, SubPkg]
  constructor
  · rintro ⟨g, ⟨hg, ht⟩, z, ⟨hz, hz'⟩, hy⟩
    rw [List.mem_singleton] at hy
    subst hy
    exact ⟨g, hg, by simpa [tagIs] using ht, hz, by simpa [tagIs] using hz'⟩
  · rintro ⟨g, hg, ht, hz, hz'⟩
    exact ⟨g, ⟨hg, by simp [tagIs, ht]⟩, y, ⟨hz, by simp [tagIs, hz']⟩, by simp⟩

theorem select_inPkg (x y : Xml) : y ∈ select elSlot.path x ↔ InPkg x y := by
  simp only [elSlot, select, List.mem_flatMap, List.mem_filter, InPkg]
  constructor
  · rintro ⟨g, ⟨hg, ht⟩, z, ⟨hz, _⟩, hy⟩
    rw [List.mem_singleton] at hy
    subst hy
    exact ⟨g, hg, by simpa [tagIs] using ht, hz⟩
  · rintro ⟨g, hg, ht, hz⟩
    exact ⟨g, ⟨hg, by simp [tagIs, ht]⟩, y, ⟨hz, by simp [tagIs]⟩, by simp⟩

/-- tags and classes belong together -/
def tagsRight (C : Key) (T : List Key) : Bool :=
  (elementAlts.all fun a => a.1 != 0 && (match readers a.2 with
    | some b => nameOk b && (T.contains a.1 == armodel.sub b.cls C)
    | none => false)) && T.all fun t => elementAlts.any fun a => a.1 == t

theorem altOf_pair {l : List (Key × Key)} {t k : Key} (h0 : ∀ a ∈ l, a.1 ≠ 0) (h : altOf l t = some k) : (t, k) ∈ l := by
  induction l with
  | nil => cases h
  | cons a l ih =>
    simp only [altOf] at h
    split at h
    · rename_i ha
      cases h
      rw [← ha]; simp
    · exact List.mem_cons_of_mem _ (ih (fun a ha => h0 a (by simp [ha])) h)

theorem altOf_some {l : List (Key × Key)} {t : Key} (h : ∃ a ∈ l, a.1 = t) : ∃ k, altOf l t = some k := by
  induction l with
  | nil => obtain ⟨_, h, _⟩ := h; cases h
  | cons a l ih =>
    simp only [altOf]
    split
    · exact ⟨_, rfl⟩
    · rename_i ha
      obtain ⟨b, hb, e⟩ := h
      rcases List.mem_cons.1 hb with rfl | hb
      · exact absurd e ha
      · exact ih ⟨b, hb, e⟩

/-- all names but the last are names of packages -/
def roles : List Str → List (Role × Str)
  | [] => []
  | [n] => [(.element, n)]
  | n :: m :: r => (.package, n) :: roles (m :: r)

theorem roles_cons {n : Str} {p : List Str} (h : p ≠ []) : roles (n :: p) = (.package, n) :: roles p := by
  cases p with
  | nil => exact absurd rfl h
  | cons m r => rfl

theorem inFile_ne {T : List Key} {x : Xml} {p : List Str} (h : InFile T x p) : p ≠ [] := by cases h <;> simp

/-- elements of the packages, by class -/
inductive Found {F : Type} (C : Key) : MObj F → List Str → MObj F → Prop
  | element {o v : MObj F} : v ∈ o.get k!"elements" → v.inst [C] = true → Found C o [v.name] v
  | package {o v w : MObj F} {p : List Str} : v ∈ o.get k!"arPackages" → Found C v p w → Found C o (v.name :: p) w

theorem found_ne {F : Type} {C : Key} {o w : MObj F} {p : List Str} (h : Found C o p w) : p ≠ [] := by cases h <;> simp

theorem found_reaches {F : Type} {C : Key} {o w : MObj F} {p : List Str} : Found C o p w ↔ Reaches o (roles p) w ∧ p ≠ [] ∧ w.inst [C] = true := by
  constructor
  · intro h
    induction h with
    | element hv hc => exact ⟨.step _ _ _ .element [] hv (.here _), by simp, hc⟩
    | package hv h ih =>
      rw [roles_cons ih.2.1]
      exact ⟨.step _ _ _ .package _ hv ih.1, by simp, ih.2.2⟩
  · rintro ⟨h, hne, hc⟩
    induction p generalizing o with
    | nil => exact absurd rfl hne
    | cons n p ih =>
      cases p with
      | nil =>
        cases h with
        | step _ v _ _ _ hv h =>
          cases h
          exact .element hv hc
      | cons m r =>
        cases h with
        | step _ v _ _ _ hv h => exact .package hv (ih h (by simp))

/-- an element of the class on a package -/
inductive InPkgs (T : List Key) : Xml → List Str → Prop
  | element {y e : Xml} : InPkg y e → e.tag ∈ T → InPkgs T y [nameIn e]
  | package {x y : Xml} {p : List Str} : SubPkg x y → InPkgs T y p → InPkgs T x (nameIn y :: p)

theorem inFile_iff {T : List Key} {x : Xml} {q : List Str} : InFile T x q ↔ ∃ y p, SubPkg x y ∧ InPkgs T y p ∧ q = nameIn y :: p := by
  constructor
  · intro h
    induction h with
    | element h1 h2 h3 => exact ⟨_, _, h1, .element h2 h3, rfl⟩
    | package h1 _ ih =>
      obtain ⟨y, p, h2, h3, rfl⟩ := ih
      exact ⟨_, _, h1, .package h2 h3, rfl⟩
  · rintro ⟨y, p, h1, h2, rfl⟩
    induction h2 generalizing x with
    | element h2 h3 => exact .element h1 h2 h3
    | package h2 h3 ih => exact .package h1 (ih h2)

theorem defs_one {k : Key} {b : RBody} (hb : readers k = some b) {g : Role} {s : RSlot} {alts : List (Key × Key)}
    (hs : (b.slots.filter (fun s => hits g.attr s.key) == [s]) = true) (hi : s.item = .objs alts) {x : Xml} {n : Str} {d : Key × Xml} :
    d ∈ defsIn k x g n ↔ d.2 ∈ select s.path x ∧ elemName d.2 = n ∧ altOf alts d.2.tag = some d.1 := by
  have hs := beq_iff_eq.1 hs
  have hm : ∀ a, (a ∈ b.slots ∧ hits g.attr a.key = true) ↔ a = s := by
    intro a
    have := List.mem_filter (p := fun s => hits g.attr s.key) (x := a) (as := b.slots)
    rw [hs, List.mem_singleton] at this
    exact this.symm
  unfold defsIn
  rw [hb]
  simp only [List.mem_flatMap]
  constructor
  · rintro ⟨a, ha, hd⟩
    split at hd
    swap
    · cases hd
    rename_i hh
    obtain rfl := (hm a).1 ⟨ha, hh⟩
    rw [hi] at hd
    obtain ⟨y, hy, h⟩ := List.mem_filterMap.1 hd
    split at h
    swap
    · cases h
    rename_i hn
    obtain ⟨k', hk, rfl⟩ := Option.map_eq_some_iff.1 h
    exact ⟨hy, hn, hk⟩
  · rintro ⟨h1, h2, h3⟩
    obtain ⟨ha, hh⟩ := (hm s).2 rfl
    refine ⟨s, ha, ?_⟩
    rw [if_pos hh, hi]
    refine List.mem_filterMap.2 ⟨d.2, h1, ?_⟩
    rw [if_pos h2, h3]
    rfl

theorem pkg_defs_body : ∃ b, readers pkgKey = some b ∧ (b.slots.filter (fun s => hits k!"arPackages" s.key) == [subPkgSlot]) = true ∧
    (b.slots.filter (fun s => hits k!"elements" s.key) == [elSlot]) = true := by
  have hr := pkgBody_right
  cases hb : readers pkgKey with
  | none => rw [hb] at hr; cases hr
  | some b =>
    rw [hb] at hr
    have hr : pkgBodyOk b = true := hr
    simp only [pkgBodyOk, Bool.and_eq_true (a := _ && _)] at hr
    have h := (Bool.and_eq_true _ _ ▸ hr.1 : _ ∧ _)
    exact ⟨b, rfl, h.1, h.2⟩

/-- the definitions of a package are packages -/
theorem defs_sub {k : Key} {b : RBody} (hb : readers k = some b) (hs : (b.slots.filter (fun s => hits k!"arPackages" s.key) == [subPkgSlot]) = true)
    {x : Xml} {n : Str} {d : Key × Xml} : d ∈ defsIn k x .package n ↔ SubPkg x d.2 ∧ nameIn d.2 = n ∧ d.1 = pkgKey := by
  rw [defs_one hb (g := .package) hs rfl, select_subPkg, elemName_nameIn]
  constructor
  · rintro ⟨h1, h2, h3⟩
    have ⟨_, _, ht⟩ := h1
    rw [ht.2.2] at h3
    exact ⟨h1, h2, (Option.some.inj h3).symm⟩
  · rintro ⟨h1, h2, h3⟩
    have ⟨_, _, ht⟩ := h1
    refine ⟨h1, h2, ?_⟩
    rw [ht.2.2, h3]
    rfl

theorem defs_elem {y : Xml} {n : Str} {d : Key × Xml} : d ∈ defsIn pkgKey y .element n ↔ InPkg y d.2 ∧ nameIn d.2 = n ∧ altOf elementAlts d.2.tag = some d.1 := by
  obtain ⟨b, hb, _, h⟩ := pkg_defs_body
  rw [defs_one hb (g := .element) h rfl, select_inPkg, elemName_nameIn]

/-- what a package has, in terms of definitions -/
theorem inPkgs_defs {T : List Key} (hT : ∀ t ∈ T, ∃ k, altOf elementAlts t = some k) {y : Xml} {p : List Str} :
    InPkgs T y p ↔ p ≠ [] ∧ ∃ d ∈ definitions pkgKey y (roles p), d.2.tag ∈ T := by
  obtain ⟨b, hb, h1, _⟩ := pkg_defs_body
  constructor
  · intro h
    induction h with
    | @element y e he ht =>
      obtain ⟨k, hk⟩ := hT _ ht
      refine ⟨by simp, (k, e), ?_, ht⟩
      rw [roles, definitions]
      exact List.mem_flatMap.2 ⟨(k, e), defs_elem.2 ⟨he, rfl, hk⟩, by simp [definitions]⟩
    | @package x y p hy _ ih =>
      obtain ⟨hne, d, hd, ht⟩ := ih
      refine ⟨by simp, d, ?_, ht⟩
      rw [roles_cons hne, definitions]
      exact List.mem_flatMap.2 ⟨(pkgKey, y), (defs_sub hb h1).2 ⟨hy, rfl, rfl⟩, hd⟩
  · rintro ⟨hne, d, hd, ht⟩
    induction p generalizing y with
    | nil => exact absurd rfl hne
    | cons n p ih =>
      cases p with
      | nil =>
        rw [roles, definitions] at hd
        obtain ⟨e, he, hd⟩ := List.mem_flatMap.1 hd
        rw [definitions, List.mem_singleton] at hd
        obtain rfl : d = e := hd
        obtain ⟨h3, h4, _⟩ := defs_elem.1 he
        rw [← h4]
        exact .element h3 ht
      | cons m r =>
        rw [roles_cons (by simp), definitions] at hd
        obtain ⟨e, he, hd⟩ := List.mem_flatMap.1 hd
        obtain ⟨h3, h4, h5⟩ := (defs_sub hb h1).1 he
        rw [h5] at hd
        rw [← h4]
        exact .package h3 (ih (by simp) hd)

theorem pkg_alt {y : Xml} {p : List Str} (hne : p ≠ []) {d : Key × Xml} (hd : d ∈ definitions pkgKey y (roles p)) : altOf elementAlts d.2.tag = some d.1 := by
  obtain ⟨b, hb, h1, _⟩ := pkg_defs_body
  induction p generalizing y with
  | nil => exact absurd rfl hne
  | cons n p ih =>
    cases p with
    | nil =>
      rw [roles, definitions] at hd
      obtain ⟨e, he, hd⟩ := List.mem_flatMap.1 hd
      rw [definitions, List.mem_singleton] at hd
      obtain rfl : d = e := hd
      exact (defs_elem.1 he).2.2
    | cons m r =>
      rw [roles_cons (by simp), definitions] at hd
      obtain ⟨e, he, hd⟩ := List.mem_flatMap.1 hd
      rw [((defs_sub hb h1).1 he).2.2] at hd
      exact ih (by simp) hd

theorem no_elements {x : Xml} {n : Str} : definitions k!"load" x (roles [n]) = [] := by
  have hb : readers k!"load" = some loadBody := rfl
  rw [roles, definitions, List.flatMap_eq_nil_iff]
  intro e he
  unfold defsIn at he
  rw [hb] at he
  obtain ⟨s, hs, he⟩ := List.mem_flatMap.1 he
  split at he
  · rename_i hh
    have : s ∈ loadBody.slots.filter (fun s => hits k!"elements" s.key) := List.mem_filter.2 ⟨hs, hh⟩
    rw [beq_iff_eq.1 docBody_right.2] at this
    cases this
  · cases he

theorem load_alt {x : Xml} {p : List Str} (hne : p ≠ []) {d : Key × Xml} (hd : d ∈ definitions k!"load" x (roles p)) : altOf elementAlts d.2.tag = some d.1 := by
  have hb : readers k!"load" = some loadBody := rfl
  cases p with
  | nil => exact absurd rfl hne
  | cons n q =>
    cases q with
    | nil => rw [no_elements] at hd; cases hd
    | cons m r =>
      rw [roles_cons (by simp), definitions] at hd
      obtain ⟨e, he, hd⟩ := List.mem_flatMap.1 hd
      rw [((defs_sub hb docBody_right.1).1 he).2.2] at hd
      exact pkg_alt (by simp) hd

theorem inFile_defs {T : List Key} (hT : ∀ t ∈ T, ∃ k, altOf elementAlts t = some k) {x : Xml} {p : List Str} :
    InFile T x p ↔ p ≠ [] ∧ ∃ d ∈ definitions k!"load" x (roles p), d.2.tag ∈ T := by
  have hb : readers k!"load" = some loadBody := rfl
  rw [inFile_iff]
  constructor
  · rintro ⟨y, q, hy, hq, rfl⟩
    obtain ⟨hne, d, hd, h⟩ := (inPkgs_defs hT).1 hq
    refine ⟨by simp, d, ?_, h⟩
    rw [roles_cons hne, definitions]
    exact List.mem_flatMap.2 ⟨(pkgKey, y), (defs_sub hb docBody_right.1).2 ⟨hy, rfl, rfl⟩, hd⟩
  · rintro ⟨hne, d, hd, h⟩
    cases p with
    | nil => exact absurd rfl hne
    | cons n q =>
      cases q with
      | nil =>
        rw [no_elements] at hd; cases hd
      | cons m r =>
        rw [roles_cons (by simp), definitions] at hd
        obtain ⟨e, he, hd⟩ := List.mem_flatMap.1 hd
        obtain ⟨h3, h4, h5⟩ := (defs_sub hb docBody_right.1).1 he
        rw [h5] at hd
        exact ⟨e.2, m :: r, h3, (inPkgs_defs hT).2 ⟨by simp, d, hd, h⟩, by rw [h4]⟩

/-- what the files have and what was loaded from them -/
theorem files_found {C : Key} {T : List Key} (hT : tagsRight C T = true) {xs : List Xml} {d : MObj py.F} (h : loadAll py strict (newDoc py) xs = .ok d)
    (p : List Str) : (∃ w, Found C d p w) ↔ ∃ x ∈ xs, InFile T x p := by
  simp only [tagsRight, Bool.and_eq_true, List.all_eq_true, bne_iff_ne] at hT
  obtain ⟨hT1, hT2⟩ := hT
  have h0 : ∀ a ∈ elementAlts, a.1 ≠ 0 := fun a ha => (hT1 a ha).1
  have halt : ∀ t k, altOf elementAlts t = some k → ∃ b, readers k = some b ∧ (t ∈ T ↔ armodel.sub b.cls C = true) := by
    intro t k hk
    have := (hT1 _ (altOf_pair h0 hk)).2
    split at this
    · rename_i b hb
      simp only [Bool.and_eq_true, beq_iff_eq] at this
      refine ⟨b, hb, ?_⟩
      rw [← this.2, List.contains_iff_mem]
    · cases this
  have hall : ∀ t ∈ T, ∃ k, altOf elementAlts t = some k := by
    intro t ht
    obtain ⟨a, ha, hat⟩ := List.any_eq_true.1 (hT2 _ ht)
    exact altOf_some ⟨a, ha, beq_iff_eq.1 hat⟩
  have key : (∃ w, Found C d p w) ↔ p ≠ [] ∧ ∃ c, Holds d (roles p) c ∧ armodel.sub c C = true := by
    simp only [found_reaches]
    constructor
    · rintro ⟨w, h1, h2, h3⟩
      exact ⟨h2, w.cls, ⟨w, h1, rfl⟩, by simpa [MObj.inst] using h3⟩
    · rintro ⟨h2, c, ⟨w, h1, rfl⟩, h3⟩
      exact ⟨w, h1, h2, by simpa [MObj.inst] using h3⟩
  have hr : p ≠ [] → roles p ≠ [] := by
    intro hp
    cases p with
    | nil => exact absurd rfl hp
    | cons n q => cases q <;> simp [roles]
  rw [key]
  constructor
  · rintro ⟨hp, c, hh, hc⟩
    obtain ⟨x, hm, e, he, b, hb, rfl⟩ := (loads_holds h (hr hp) c).1 hh
    obtain ⟨b', hb', hi⟩ := halt _ _ (load_alt hp he)
    rw [hb] at hb'; cases hb'
    exact ⟨x, hm, (inFile_defs hall).2 ⟨hp, e, he, hi.2 hc⟩⟩
  · rintro ⟨x, hm, hx⟩
    obtain ⟨hp, e, he, ht⟩ := (inFile_defs hall).1 hx
    obtain ⟨b, hb, hi⟩ := halt _ _ (load_alt hp he)
    exact ⟨hp, b.cls, (loads_holds h (hr hp) _).2 ⟨x, hm, e, he, b, hb, rfl⟩, hi.1 ht⟩

end

/-! ## the listing -/

section
variable {F : Type}

theorem byName_mem {l : List (MObj F)} {v : MObj F} : v ∈ byName l ↔ v ∈ l := (sortBy_perm _ l).mem_iff

theorem ofClass_mem {c : Key} {sorted : Bool} {o v : MObj F} : v ∈ ofClass c sorted o ↔ v ∈ o.get k!"elements" ∧ v.inst [c] = true := by
  unfold ofClass
  cases sorted
  · simp
  · simp [byName_mem]

theorem collectPkg_mem {c : Key} {sorted : Bool} {n : Nat} {o : MObj F} (hn : o.depth ≤ n) (p : List Str) (w : MObj F) :
    (p, w) ∈ collectPkg c sorted n o ↔ Found c o p w := by
  induction n generalizing o p with
  | zero => have := mdepth_pos o; omega
  | succ n ih =>
    simp only [collectPkg, List.mem_append, List.mem_flatMap, List.mem_map, byName_mem, ofClass_mem]
    constructor
    · rintro (⟨v, hv, ⟨q, u⟩, hq, e⟩ | ⟨v, ⟨hv, hc⟩, e⟩)
      · cases e
        have := depth_get hv
        exact .package hv ((ih (by omega) _).1 hq)
      · cases e
        exact .element hv hc
    · intro h
      cases h with
      | element hv hc => exact .inr ⟨w, ⟨hv, hc⟩, rfl⟩
      | package hv h =>
        have := depth_get hv
        exact .inl ⟨_, hv, (_, w), (ih (by omega) _).2 h, rfl⟩

theorem collectDoc_mem {c : Key} {sorted : Bool} {d : MObj F} (hd : d.get k!"elements" = []) (p : List Str) (w : MObj F) :
    (p, w) ∈ collectDoc c sorted d ↔ Found c d p w := by
  simp only [collectDoc, List.mem_flatMap, List.mem_map, byName_mem]
  constructor
  · rintro ⟨v, hv, ⟨q, u⟩, hq, e⟩
    cases e
    have := depth_get hv
    exact .package hv ((collectPkg_mem (by omega) _ _).1 hq)
  · intro h
    cases h with
    | element hv hc => rw [hd] at hv; cases hv
    | package hv h =>
      have := depth_get hv
      exact ⟨_, hv, (_, w), (collectPkg_mem (by omega) _ _).2 h, rfl⟩

theorem found_last {C : Key} {o w : MObj F} {p : List Str} (h : Found C o p w) : lastName p = w.name := by
  induction h with
  | element _ _ => rfl
  | package _ h ih =>
    rename_i p _
    cases p with
    | nil => exact absurd rfl (found_ne h)
    | cons a p => exact ih

theorem nodup_inj {α β : Type} {f : α → β} {l : List α} (hf : ∀ a b, f a = f b → a = b) (h : l.Nodup) : (l.map f).Nodup := by
  rw [List.Nodup, List.pairwise_map]
  exact h.imp fun hne e => hne (hf _ _ e)

theorem nodup_flat {l : List (MObj F)} {f : MObj F → List (List Str)} (hn : (l.map MObj.name).Nodup) (hf : ∀ v ∈ l, (f v).Nodup) :
    (l.flatMap fun v => (f v).map (v.name :: ·)).Nodup := by
  induction l with
  | nil => exact List.nodup_nil
  | cons v l ih =>
    rw [List.map_cons, List.nodup_cons] at hn
    rw [List.flatMap_cons, List.nodup_append]
    refine ⟨?_, ih hn.2 fun v hv => hf v (by simp [hv]), ?_⟩
    · exact nodup_inj (fun a b h => (List.cons.inj h).2) (hf v (by simp))
    · intro a ha b hb e
      obtain ⟨p, _, rfl⟩ := List.mem_map.1 ha
      obtain ⟨u, hu, hb⟩ := List.mem_flatMap.1 hb
      obtain ⟨q, _, rfl⟩ := List.mem_map.1 hb
      exact hn.1 (List.mem_map.2 ⟨u, hu, (List.cons.inj e).1.symm⟩)

theorem collectPkg_nodup {c : Key} {sorted : Bool} {n : Nat} {o : MObj F} (hn : o.depth ≤ n) (hu : Uniq o) : ((collectPkg c sorted n o).map Prod.fst).Nodup := by
  induction n generalizing o with
  | zero => have := mdepth_pos o; omega
  | succ n ih =>
    have h1 := hu [] o (.here o) .package
    have h2 := hu [] o (.here o) .element
    simp only [collectPkg, List.map_append, List.map_flatMap, List.map_map, Function.comp_def]
    rw [List.nodup_append]
    refine ⟨?_, ?_, ?_⟩
    · have := nodup_flat (l := byName (o.get k!"arPackages")) (f := fun p => (collectPkg c sorted n p).map Prod.fst)
        (((sortBy_perm _ _).map _).nodup_iff.2 h1) ?_
      · simpa [List.map_map, Function.comp_def] using this
      · intro v hv
        rw [byName_mem] at hv
        have := depth_get hv
        exact ih (by omega) (hu.kid (g := .package) hv)
    · have h3 : ((ofClass c sorted o).map MObj.name).Nodup := by
        have h4 : (((o.get k!"elements").filter (MObj.inst [c])).map MObj.name).Nodup := h2.sublist ((List.filter_sublist).map _)
        unfold ofClass
        cases sorted
        · exact h4
        · exact ((sortBy_perm _ _).map _).nodup_iff.2 h4
      have := nodup_inj (f := fun n : Str => [n]) (fun a b h => (List.cons.inj h).1) h3
      simpa [List.map_map, Function.comp_def] using this
    · intro a ha b hb e
      obtain ⟨v, hv, ha⟩ := List.mem_flatMap.1 ha
      obtain ⟨⟨q, u⟩, hq, rfl⟩ := List.mem_map.1 ha
      obtain ⟨e', _, rfl⟩ := List.mem_map.1 hb
      rw [byName_mem] at hv
      have := depth_get hv
      have := found_ne ((collectPkg_mem (by omega) _ _).1 hq)
      exact this (List.cons.inj e).2

theorem collectDoc_nodup {c : Key} {sorted : Bool} {d : MObj F} (hu : Uniq d) : ((collectDoc c sorted d).map Prod.fst).Nodup := by
  have h1 := hu [] d (.here d) .package
  simp only [collectDoc, List.map_flatMap, List.map_map, Function.comp_def]
  have := nodup_flat (l := byName (d.get k!"arPackages")) (f := fun p => (collectPkg c sorted d.depth p).map Prod.fst)
    (((sortBy_perm _ _).map _).nodup_iff.2 h1) ?_
  · simpa [List.map_map, Function.comp_def] using this
  · intro v hv
    rw [byName_mem] at hv
    have := depth_get hv
    exact collectPkg_nodup (by omega) (hu.kid (g := .package) hv)

/-- the lines, for the elements of a class that are elements of another class as well (`none`: no filter) -/
theorem printed {c : Key} {sorted : Bool} {d : MObj F} (hd : d.get k!"elements" = []) (hu : Uniq d) (only : Option Key) (long : Bool) :
    ∃ ps : List (List Str), printPaths only long (collectDoc c sorted d) = ps.map (fun p => if long then fullNameOf p else lastName p) ∧ ps.Nodup ∧
      ps.Pairwise (fun a b => String.ofList (lastName a) ≤ String.ofList (lastName b)) ∧
      ∀ p, p ∈ ps ↔ ∃ w, Found c d p w ∧ ∀ c', only = some c' → w.inst [c'] = true := by
  have key : ∀ l : List (List Str × MObj F), l.Sublist (collectDoc c sorted d) → (∀ p w, (p, w) ∈ l ↔ Found c d p w ∧ ∀ c', only = some c' → w.inst [c'] = true) →
      ∃ ps : List (List Str), ((sortBy (fun e => String.ofList e.2.name) l).map fun e => if long then fullNameOf e.1 else e.2.name) =
        ps.map (fun p => if long then fullNameOf p else lastName p) ∧ ps.Nodup ∧
      ps.Pairwise (fun a b => String.ofList (lastName a) ≤ String.ofList (lastName b)) ∧
      ∀ p, p ∈ ps ↔ ∃ w, Found c d p w ∧ ∀ c', only = some c' → w.inst [c'] = true := by
    intro l hl hm
    have hperm := sortBy_perm (fun e : List Str × MObj F => String.ofList e.2.name) l
    have hlast : ∀ e ∈ sortBy (fun e : List Str × MObj F => String.ofList e.2.name) l, e.2.name = lastName e.1 := by
      intro e he
      exact (found_last ((hm e.1 e.2).1 (hperm.mem_iff.1 he)).1).symm
    refine ⟨(sortBy (fun e => String.ofList e.2.name) l).map Prod.fst, ?_, ?_, ?_, ?_⟩
    · rw [List.map_map]
      refine List.map_congr_left fun e he => ?_
      simp only [Function.comp, hlast e he]
    · exact (hperm.map _).nodup_iff.2 ((collectDoc_nodup hu).sublist (hl.map _))
    · rw [List.pairwise_map]
      refine (sortBy_sorted (fun e : List Str × MObj F => String.ofList e.2.name) l).imp_of_mem fun ha hb h => ?_
      rw [← hlast _ ha, ← hlast _ hb]
      exact h
    · intro p
      simp only [List.mem_map, hperm.mem_iff]
      constructor
      · rintro ⟨⟨q, w⟩, he, rfl⟩
        exact ⟨w, (hm _ _).1 he⟩
      · rintro ⟨w, hw⟩
        exact ⟨(p, w), (hm _ _).2 hw, rfl⟩
  cases only with
  | none =>
    refine key _ (List.Sublist.refl _) fun p w => ?_
    rw [collectDoc_mem hd]
    simp
  | some c' =>
    refine key _ List.filter_sublist fun p w => ?_
    rw [List.mem_filter, collectDoc_mem hd]
    simp

end

end Verif.Lemmas
