import Verif.Spec.AnyOrder
import Verif.Lemmas.Unsaved
/-!
# The order of objects that are written in the order of their names
-/
namespace Verif.Lemmas
open Verif Verif.Model Verif.Spec

/-! ## Sorting -/

theorem insertBy_comm {α : Type} {key : α → String} {x y : α} (h : key x ≠ key y) (l : List α) :
    insertBy key y (insertBy key x l) = insertBy key x (insertBy key y l) := by
  have anti : ∀ {a b : String}, a ≤ b → b ≤ a → a = b := fun h1 h2 => String.le_antisymm h1 h2
  have tot : ∀ {a b : String}, ¬ a ≤ b → b ≤ a := fun {a b} h => (String.le_total a b).resolve_left h
  have tr : ∀ {a b c : String}, a ≤ b → b ≤ c → a ≤ c := fun h1 h2 => String.le_trans h1 h2
  induction l with
  | nil =>
    simp only [insertBy]
    by_cases h1 : key y ≤ key x
    · rw [if_pos h1, if_neg fun h2 => h (anti h2 h1)]
    · rw [if_neg h1, if_pos (tot h1)]
  | cons z l ih =>
    simp only [insertBy]
    by_cases hx : key x ≤ key z
    · by_cases hy : key y ≤ key z
      · rw [if_pos hx, if_pos hy]
        simp only [insertBy]
        by_cases h1 : key y ≤ key x
        · rw [if_pos h1, if_neg fun h2 => h (anti h2 h1), if_pos hx]
        · rw [if_neg h1, if_pos (tot h1), if_pos hy]
      · rw [if_pos hx, if_neg hy]
        simp only [insertBy]
        rw [if_neg fun h1 => hy (tr h1 hx), if_neg hy, if_pos hx]
    · by_cases hy : key y ≤ key z
      · rw [if_neg hx, if_pos hy]
        simp only [insertBy]
        rw [if_pos hy, if_neg fun h1 => hx (tr h1 hy), if_neg hx]
      · rw [if_neg hx, if_neg hy]
        simp only [insertBy]
        rw [if_neg hy, if_neg hx, ih]

theorem sortBy_block {α : Type} (key : α → String) {vs vs' : List α} (hp : vs.Perm vs') (hn : (vs.map key).Nodup) (l r : List α) :
    sortBy key (l ++ (vs ++ r)) = sortBy key (l ++ (vs' ++ r)) := by
  unfold sortBy
  simp only [List.foldr_append]
  rw [hp.foldr_eq']
  intro x hx y hy z
  by_cases h : key x = key y
  · rw [List.inj_on_of_nodup_map hn hx hy h]
  · exact insertBy_comm h z

theorem byName_block {F : Type} {vs vs' : List (MObj F)} (hp : vs.Perm vs') (hn : (vs.map MObj.name).Nodup) (l r : List (MObj F)) :
    byName (l ++ (vs ++ r)) = byName (l ++ (vs' ++ r)) := by
  refine sortBy_block _ hp ?_ l r
  have : (vs.map fun o => String.ofList o.name) = (vs.map MObj.name).map String.ofList := by rw [List.map_map]; rfl
  rw [this]
  exact hn.map fun a b h => by simpa using congrArg String.toList h

/-! ## What a writer method sees -/

section
variable {F : Type}

/-- what a test looks at: an attribute, and of which classes; whether the order does not matter -/
def condLooks : Cond → List (Key × List Key × Bool)
  | .any fs => fs.map fun s => (s.1, s.2, true)
  | .none fs => fs.map fun s => (s.1, s.2, true)
  | _ => []

/-- what a writer method looks at -/
def looks : WB → List (Key × List Key × Bool)
  | .nil => []
  | .attr _ _ f r | .text _ f r | .prim _ _ f r | .oprim _ _ _ f r => (f, [], false) :: looks r
  | .each f v a _ _ r => (f, v, a.sort) :: looks r
  | .wrap c _ b r | .when c b r => condLooks c ++ (looks b ++ looks r)
  | .fail _ _ r => looks r

/-- what it sees -/
def seen (u : Key × List Key × Bool) (o : MObj F) : List (MObj F) := if u.2.2 then byName (o.view u.1 u.2.1) else o.view u.1 u.2.1

/-- the same down to a depth, as the writer sees it -/
def NearTo : Nat → MObj F → MObj F → Prop
  | 0, o, o' => Facade o o'
  | n + 1, o, o' => Facade o o' ∧ ∀ w b, Handed o.cls w → writers w = some b → ∀ u ∈ looks b, List.Forall₂ (NearTo n) (seen u o) (seen u o')

theorem NearTo.facade {n : Nat} {o o' : MObj F} (h : NearTo n o o') : Facade o o' := by
  cases n with
  | zero => exact h
  | succ n => exact h.1

theorem near_refl (n : Nat) (o : MObj F) : NearTo n o o := by
  induction n generalizing o with
  | zero => exact ⟨rfl, rfl, fun _ => Iff.rfl⟩
  | succ n ih => exact ⟨⟨rfl, rfl, fun _ => Iff.rfl⟩, fun _ _ _ _ _ _ => List.forall₂_same.2 fun v _ => ih v⟩

theorem seen_rel {R : MObj F → MObj F → Prop} (hR : ∀ a b, R a b → Facade a b) {o o' : MObj F} {u : Key × List Key × Bool}
    (h : List.Forall₂ R (o.get u.1) (o'.get u.1)) : List.Forall₂ R (seen u o) (seen u o') := by
  have hv : List.Forall₂ R (o.view u.1 u.2.1) (o'.view u.1 u.2.1) := by
    unfold MObj.view
    split
    · exact h
    · exact filter_rel (fun a b hab => by unfold MObj.inst; rw [(hR a b hab).cls]) h
  unfold seen
  split
  · exact sortBy_rel (fun a b hab => by rw [(hR a b hab).name]) hv
  · exact hv

/-- may the values of an attribute that have these classes be in any order when this is looked at -/
def mindless (a : Key × Bool) (K : List Key) (u : Key × List Key × Bool) : Bool :=
  !hits u.1 a || u.2.2 || (!u.2.1.isEmpty && K.all fun k => !u.2.1.any (armodel.sub k))

theorem seen_moved {c : Key} {l r : List ((Key × Bool) × List (MObj F))} {a : Key × Bool} {vs vs' : List (MObj F)} {K : List Key}
    (hc : ∀ v ∈ vs, v.cls ∈ K) (hn : (vs.map MObj.name).Nodup) (hp : vs.Perm vs') {u : Key × List Key × Bool} (hu : mindless a K u = true) :
    seen u (MObj.mk c (l ++ (a, vs) :: r)) = seen u (.mk c (l ++ (a, vs') :: r)) := by
  obtain ⟨f, v, s⟩ := u
  by_cases hh : hits f a = true
  · cases s with
    | true =>
      unfold seen MObj.view
      simp only [if_true]
      rw [get_mk_app, get_mk_app, get_mk_cons, get_mk_cons]
      simp only [hh, if_true]
      cases v with
      | nil => exact byName_block hp hn _ _
      | cons k v =>
        simp only [List.filter_append]
        exact byName_block (hp.filter _) (hn.sublist ((List.filter_sublist).map _)) _ _
    | false =>
      simp only [mindless, hh, Bool.not_true, Bool.false_or, Bool.and_eq_true, Bool.not_eq_true', List.isEmpty_eq_false_iff, List.all_eq_true] at hu
      have no : ∀ w ∈ vs, w.inst v = false := fun w hw => hu.2 _ (hc w hw)
      have no' : ∀ w ∈ vs', w.inst v = false := fun w hw => no w (hp.mem_iff.2 hw)
      unfold seen MObj.view
      simp only [Bool.false_eq_true, if_false]
      cases v with
      | nil => exact absurd rfl hu.1
      | cons k v =>
        simp only
        rw [get_mk_app, get_mk_app, get_mk_cons, get_mk_cons]
        simp only [hh, if_true, List.filter_append]
        have h1 : vs.filter (MObj.inst (k :: v)) = [] := List.filter_eq_nil_iff.2 fun w hw => by rw [no w hw]; simp
        have h2 : vs'.filter (MObj.inst (k :: v)) = [] := List.filter_eq_nil_iff.2 fun w hw => by rw [no' w hw]; simp
        rw [h1, h2]
  · have : (MObj.mk c (l ++ (a, vs) :: r)).get f = (MObj.mk c (l ++ (a, vs') :: r)).get f := by
      rw [get_mk_app, get_mk_app, get_mk_cons, get_mk_cons]
      simp only [hh, Bool.false_eq_true, if_false]
    unfold seen MObj.view
    simp only [this]

end

/-! ## The table -/

/-- a method of the writer puts these objects in the order of their names, if it looks at them -/
def freeB (b : WB) (e : Key × (Key × Bool) × List Key) : Bool := (looks b).all (mindless e.2.1 e.2.2)

/-- methods that write some of the element collections in `freeOrder` as they are; they are called for objects of other classes only -/
def minders : List Key := [k!"writeARPackage_ARPackage", k!"writeBswServiceDependency_BswServiceDependency"]

def freesB (w : Key) (b : WB) : Bool := minders.contains w || freeOrder.all (freeB b)

def mindedB (b : WB) : Bool := (branches b).all fun x => !minders.contains x.body || (match writers x.body with
  | none => true
  | some b' => freeOrder.all fun e => !x.takes e.1 || freeB b' e)

theorem frees_table : Gen.writeTable.all freesB = true := by decide +kernel

theorem frees_save : freeOrder.all (freeB saveBody) = true := by decide +kernel

theorem minded_table : Gen.writeTable.all (fun _ b => mindedB b) = true := by decide +kernel

theorem minded_save : mindedB saveBody = true := by decide +kernel

theorem free_handed {e : Key × (Key × Bool) × List Key} (he : e ∈ freeOrder) {w : Key} (hw : Handed e.1 w) {b : WB} (hb : writers w = some b) : freeB b e = true := by
  by_cases hs : w = k!"save"
  · rw [hs] at hb
    cases hb
    exact List.all_eq_true.1 frees_save e he
  have hf : freesB w b = true := by
    have hb' : Gen.writeTable.find? w = some b := by
      unfold writers at hb
      rwa [if_neg hs] at hb
    exact (Bst.all_toList _ _).1 frees_table _ (Bst.find?_mem hb')
  unfold freesB at hf
  rw [Bool.or_eq_true] at hf
  rcases hf with hm | hf
  · rcases hw with hw | ⟨w0, b0, h0, x, hx, ht, hw⟩
    · exact absurd hw hs
    · have hc : mindedB b0 = true := by
        unfold writers at h0
        split at h0
        · cases h0; exact minded_save
        · exact (Bst.all_toList _ _).1 minded_table _ (Bst.find?_mem h0)
      have := List.all_eq_true.1 hc x hx
      rw [hw, hm, hb] at this
      simp only [Bool.not_true, Bool.false_or] at this
      have := List.all_eq_true.1 this e he
      simpa [ht] using this
  · exact List.all_eq_true.1 hf e he

theorem free_fields : (freeOrder.all fun e => e.2.1.1 != k!"short_name" && e.2.1.1 != k!"schema_location") = true := by decide +kernel

theorem free_hits {e : Key × (Key × Bool) × List Key} (he : e ∈ freeOrder) :
    hits k!"short_name" e.2.1 = false ∧ hits k!"schema_location" e.2.1 = false ∧ e.2.1.1 ≠ k!"schema_location" := by
  have := List.all_eq_true.1 free_fields e he
  simp only [Bool.and_eq_true, bne_iff_ne] at this
  have h1 : (k!"short_name" == k!"elements") = false := by decide
  have h2 : (k!"schema_location" == k!"elements") = false := by decide
  refine ⟨?_, ?_, this.2⟩
  · unfold hits; rw [h1, beq_false_of_ne this.1]; simp
  · unfold hits; rw [h2, beq_false_of_ne this.2]; simp

/-! ## Documents -/

section
variable {F : Type}

theorem get_moved {c f : Key} {l r : List ((Key × Bool) × List (MObj F))} {a : Key × Bool} {vs vs' : List (MObj F)} (h : hits f a = false) :
    (MObj.mk c (l ++ (a, vs) :: r)).get f = (MObj.mk c (l ++ (a, vs') :: r)).get f := by
  rw [get_mk_app, get_mk_app, get_mk_cons, get_mk_cons]
  simp only [h, Bool.false_eq_true, if_false]

theorem moved_near {o o' : MObj F} (h : Moved o o') (n : Nat) : NearTo n o o' := by
  induction h generalizing n with
  | @here c l r a vs vs' K hK hc hn hp =>
    have hf : Facade (MObj.mk c (l ++ (a, vs) :: r)) (MObj.mk c (l ++ (a, vs') :: r)) := by
      refine ⟨rfl, ?_, fun s => by constructor <;> intro h <;> cases h⟩
      unfold MObj.name
      rw [get_moved (free_hits hK).1]
    cases n with
    | zero => exact hf
    | succ n =>
      refine ⟨hf, fun w b hw hb u hu => ?_⟩
      rw [seen_moved hc hn hp (List.all_eq_true.1 (free_handed hK hw hb) u hu)]
      exact List.forall₂_same.2 fun v _ => near_refl n v
  | @inside c l r a us ws v v' h ih =>
    have hall : ∀ n f, List.Forall₂ (NearTo n) ((MObj.mk c (l ++ (a, us ++ v :: ws) :: r)).get f) ((MObj.mk c (l ++ (a, us ++ v' :: ws) :: r)).get f) := by
      intro n f
      have same : ∀ l : List (MObj F), List.Forall₂ (NearTo n) l l := fun l => List.forall₂_same.2 fun v _ => near_refl n v
      rw [get_mk_app, get_mk_app, get_mk_cons, get_mk_cons]
      refine List.rel_append (same _) (List.rel_append ?_ (same _))
      split
      · exact List.rel_append (same _) (.cons (ih n) (same _))
      · exact .nil
    have hf : Facade (MObj.mk c (l ++ (a, us ++ v :: ws) :: r)) (MObj.mk c (l ++ (a, us ++ v' :: ws) :: r)) := by
      refine ⟨rfl, ?_, fun s => by constructor <;> intro h <;> cases h⟩
      unfold MObj.name
      have := hall 0 k!"short_name"
      revert this
      generalize (MObj.mk c (l ++ (a, us ++ v :: ws) :: r)).get k!"short_name" = x
      generalize (MObj.mk c (l ++ (a, us ++ v' :: ws) :: r)).get k!"short_name" = y
      intro h
      cases h with
      | nil => rfl
      | cons h _ => exact Facade.str h
    cases n with
    | zero => exact hf
    | succ n => exact ⟨hf, fun _ _ _ _ u _ => seen_rel (fun _ _ h => h.facade) (hall n u.1)⟩

end

section
variable {py : Py} {repr : py.F → Str} {strict : Bool}

theorem holds_near {R : MObj py.F → MObj py.F → Prop} {o o' : MObj py.F} (ho : Facade o o') {c : Cond}
    (h : ∀ u ∈ condLooks c, List.Forall₂ R (seen u o) (seen u o')) : c.holds o = c.holds o' := by
  have em : ∀ s : Key × List Key, List.Forall₂ R (seen (s.1, s.2, true) o) (seen (s.1, s.2, true) o') → (o.view s.1 s.2).isEmpty = (o'.view s.1 s.2).isEmpty := by
    intro s h
    have e : ∀ l : List (MObj py.F), (byName l).isEmpty = l.isEmpty := fun l => by
      have : (byName l).length = l.length := (sortBy_perm _ l).length_eq
      rw [Bool.eq_iff_iff, List.isEmpty_iff_length_eq_zero, List.isEmpty_iff_length_eq_zero, this]
    have := isEmpty_rel h
    simpa only [seen, if_true, e] using this
  cases c with
  | always => rfl
  | cls cs => exact inst_facade ho cs
  | notcls cs => simp only [Cond.holds, inst_facade ho cs]
  | any fs =>
    simp only [Cond.holds]
    have : ∀ s ∈ fs, (o.view s.1 s.2).isEmpty = (o'.view s.1 s.2).isEmpty := fun s hs => em s (h _ (List.mem_map.2 ⟨s, hs, rfl⟩))
    rw [Bool.eq_iff_iff, List.any_eq_true, List.any_eq_true]
    constructor
    · rintro ⟨s, hs, h'⟩; exact ⟨s, hs, by rw [← this s hs]; exact h'⟩
    · rintro ⟨s, hs, h'⟩; exact ⟨s, hs, by rw [this s hs]; exact h'⟩
  | none fs =>
    simp only [Cond.holds]
    have : ∀ s ∈ fs, (o.view s.1 s.2).isEmpty = (o'.view s.1 s.2).isEmpty := fun s hs => em s (h _ (List.mem_map.2 ⟨s, hs, rfl⟩))
    rw [Bool.eq_iff_iff, List.all_eq_true, List.all_eq_true]
    constructor
    · intro h' s hs; rw [← this s hs]; exact h' s hs
    · intro h' s hs; rw [this s hs]; exact h' s hs

theorem writeB_near {wr : Key → MObj py.F → Except PyErr Out} {o o' : MObj py.F} (ho : Facade o o') {w0 : Key} {B : WB} (hB : writers w0 = some B) {W : WB}
    (hu : ∀ u ∈ looks W, List.Forall₂ (Equal wr) (seen u o) (seen u o')) (hb : ∀ e ∈ branches W, e ∈ branches B) :
    writeB py repr strict wr o W = writeB py repr strict wr o' W := by
  induction W with
  | nil => rfl
  | attr n k f r ih =>
    simp only [looks, List.mem_cons, forall_eq_or_imp] at hu
    have h1 : List.Forall₂ (Equal wr) (o.get f) (o'.get f) := hu.1
    simp only [writeB, ih hu.2 hb, attrOf_rel n k h1]
  | text k f r ih =>
    simp only [looks, List.mem_cons, forall_eq_or_imp] at hu
    have h1 : List.Forall₂ (Equal wr) (o.get f) (o'.get f) := hu.1
    simp only [writeB, ih hu.2 hb, textOf_rel k h1]
  | prim t k f r ih =>
    simp only [looks, List.mem_cons, forall_eq_or_imp] at hu
    have h1 : List.Forall₂ (Equal wr) (o.get f) (o'.get f) := hu.1
    simp only [writeB, ih hu.2 hb, mapE_rel (fun a b hab => prim_rel t k hab) h1]
  | oprim u t k f r ih =>
    simp only [looks, List.mem_cons, forall_eq_or_imp] at hu
    have h1 : List.Forall₂ (Equal wr) (o.get f) (o'.get f) := hu.1
    simp only [writeB, ih hu.2 hb, mapE_rel (fun a b hab => prim_rel t k hab) h1]
  | each f v a cs ot r ih =>
    simp only [looks, List.mem_cons, forall_eq_or_imp] at hu
    simp only [branches, List.mem_append] at hb
    have hi : List.Forall₂ (Equal wr) (if a.sort then byName (o.view f v) else o.view f v) (if a.sort then byName (o'.view f v) else o'.view f v) := hu.1
    simp only [writeB, ih hu.2 fun e he => hb e (.inr he)]
    rw [mapE_rel (R := Equal wr) (g := writeCase py strict wr cs ot) ?_ hi]
    intro x y hxy
    unfold writeCase
    rw [hxy.facade.cls]
    split
    next k hk => exact hxy.out _ (.inr ⟨w0, B, hB, k, hb k (.inl (List.mem_of_find?_eq_some hk)), by simpa using List.find?_some hk, rfl⟩)
    next => rfl
  | wrap c t b r ihb ihr =>
    simp only [looks, List.mem_append] at hu
    simp only [branches, List.mem_append] at hb
    simp only [writeB, ihb (fun f hf => hu f (.inr (.inl hf))) fun e he => hb e (.inl he), ihr (fun f hf => hu f (.inr (.inr hf))) fun e he => hb e (.inr he),
      holds_near ho fun f hf => hu f (.inl hf)]
  | when c b r ihb ihr =>
    simp only [looks, List.mem_append] at hu
    simp only [branches, List.mem_append] at hb
    simp only [writeB, ihb (fun f hf => hu f (.inr (.inl hf))) fun e he => hb e (.inl he), ihr (fun f hf => hu f (.inr (.inr hf))) fun e he => hb e (.inr he),
      holds_near ho fun f hf => hu f (.inl hf)]
  | fail e a r ih => simp only [writeB, ih hu hb]

theorem writeObj_near {n : Nat} {w : Key} {o o' : MObj py.F} (h : NearTo n o o') (hw : Handed o.cls w) :
    writeObj py repr strict writers n w o = writeObj py repr strict writers n w o' := by
  induction n generalizing w o o' with
  | zero => rfl
  | succ n ih =>
    simp only [writeObj]
    split
    · rfl
    next b hb =>
      refine writeB_near h.1 hb (fun u hu => ?_) fun _ he => he
      exact (h.2 w b hw hb u hu).imp fun v v' hv => ⟨hv.facade, fun w' hw' => ih hv hw'⟩

theorem withSchema_moved {d d' : MObj py.F} (h : Moved d d') : Moved (withSchema py d) (withSchema py d') := by
  cases h with
  | @here c l r a vs vs' K hK hc hn hp =>
    unfold withSchema
    have e := get_moved (c := c) (l := l) (r := r) (vs := vs) (vs' := vs') (free_hits hK).2.1
    rw [e]
    split
    · simp only [List.map_append, List.map_cons]
      rw [if_neg (free_hits hK).2.2, if_neg (free_hits hK).2.2]
      exact .here hK hc hn hp
    · exact .here hK hc hn hp
  | @inside c l r a us ws v v' h =>
    unfold withSchema
    rw [get_mk_app, get_mk_app, get_mk_cons, get_mk_cons]
    by_cases ha : hits k!"schema_location" a = true
    · simp only [ha, if_true, List.append_eq_nil_iff, reduceCtorEq, false_and, and_false, if_false]
      exact .inside h
    · have hn : a.1 ≠ k!"schema_location" := fun e => ha (by simp [hits, e])
      simp only [ha, Bool.false_eq_true, if_false]
      split
      · simp only [List.map_append, List.map_cons]
        rw [if_neg hn, if_neg hn]
        exact .inside h
      · exact .inside h

theorem save_moved {d d' : MObj py.F} (h : Moved d d') : save py repr strict d' = save py repr strict d := by
  have h := withSchema_moved h
  unfold save
  have e : writeObj py repr strict writers (withSchema py d').depth k!"save" (withSchema py d') =
      writeObj py repr strict writers (withSchema py d).depth k!"save" (withSchema py d) := by
    rw [writeObj_stable (m := max (withSchema py d).depth (withSchema py d').depth) (Nat.le_refl _) (Nat.le_max_right _ _),
      writeObj_stable (n := (withSchema py d).depth) (m := max (withSchema py d).depth (withSchema py d').depth) (Nat.le_refl _) (Nat.le_max_left _ _)]
    exact (writeObj_near (moved_near h _) (.inl rfl)).symm
  rw [e]

theorem save_sameButOrder {d d' : MObj py.F} (h : SameButOrder d d') : save py repr strict d' = save py repr strict d := by
  induction h with
  | refl => rfl
  | tail _ h ih => rw [save_moved h, ih]

end

end Verif.Lemmas
