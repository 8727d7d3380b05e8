import Verif.Spec.Shrink
import Verif.Lemmas.Remove
/-!
# Removing an element from a file that is loaded and saved: lemmas
-/
namespace Verif.Lemmas
open Verif Verif.Model Verif.Spec

/-- the attributes that must not grow, because the writer does something else if they are empty, or because of the order -/
def fixedFields : List Key :=
  [k!"short_name", k!"schema_location", k!"l", k!"compuScaleContents.compuConst.compuConstContentType.vt", k!"compuScaleContents.compuRationalCoeffs",
   k!"_receiverIRefs", k!"modeGroupIRef", k!"portArgValues"]

/-- none of the attributes above -/
def freeKey (k : Key × Bool) : Bool := fixedFields.all fun f => !hits f k

section
variable {F : Type}

/-- an object, not a value -/
def IsObj (v : MObj F) : Prop := ∃ c us, v = .mk c us

mutual
/-- the second document is the first one with objects added, but not in the attributes above -/
inductive GainedAt : MObj F → MObj F → Prop
  | scal (s : Scalar F) : GainedAt (.scal s) (.scal s)
  | inside (c : Key) (fs fs' : List ((Key × Bool) × List (MObj F))) : GainedAtIn fs fs' → GainedAt (.mk c fs) (.mk c fs')
@[inherit_doc GainedAt]
inductive GainedAtIn : List ((Key × Bool) × List (MObj F)) → List ((Key × Bool) × List (MObj F)) → Prop
  | nil : GainedAtIn [] []
  | same (k : Key × Bool) (vs vs' : List (MObj F)) (fs fs' : List ((Key × Bool) × List (MObj F))) :
      List.Forall₂ GainedAt vs vs' → GainedAtIn fs fs' → GainedAtIn ((k, vs) :: fs) ((k, vs') :: fs')
  | more (k : Key × Bool) (vs vs' : List (MObj F)) (fs fs' : List ((Key × Bool) × List (MObj F))) : freeKey k = true →
      Grown GainedAt IsObj vs vs' → GainedAtIn fs fs' → GainedAtIn ((k, vs) :: fs) ((k, vs') :: fs')
end

/-- two objects that are the same but for objects added inside -/
structure AkinG (o o' : MObj F) : Prop where
  cls : o.cls = o'.cls
  get : ∀ f, Grown GainedAt IsObj (o.get f) (o'.get f)
  fixed : ∀ f ∈ fixedFields, List.Forall₂ GainedAt (o.get f) (o'.get f)

theorem ga_in {f : Key} {fs fs' : List ((Key × Bool) × List (MObj F))} (h : GainedAtIn fs fs') :
    Grown GainedAt IsObj (fs.flatMap fun e => if hits f e.1 then e.2 else []) (fs'.flatMap fun e => if hits f e.1 then e.2 else []) := by
  induction fs generalizing fs' with
  | nil => cases h; exact .nil
  | cons e fs ih =>
    cases h with
    | same k vs vs' _ fs' hv hf =>
      simp only [List.flatMap_cons]
      refine grown_append ?_ (ih hf)
      split
      · exact grown_of hv
      · exact .nil
    | more k vs vs' _ fs' hk hv hf =>
      simp only [List.flatMap_cons]
      refine grown_append ?_ (ih hf)
      split
      · exact hv
      · exact .nil

theorem ga_fixed {f : Key} (hf : f ∈ fixedFields) {fs fs' : List ((Key × Bool) × List (MObj F))} (h : GainedAtIn fs fs') :
    List.Forall₂ GainedAt (fs.flatMap fun e => if hits f e.1 then e.2 else []) (fs'.flatMap fun e => if hits f e.1 then e.2 else []) := by
  induction fs generalizing fs' with
  | nil => cases h; exact .nil
  | cons e fs ih =>
    cases h with
    | same k vs vs' _ fs' hv hr =>
      simp only [List.flatMap_cons]
      refine List.rel_append ?_ (ih hr)
      split
      · exact hv
      · exact .nil
    | more k vs vs' _ fs' hk hv hr =>
      simp only [List.flatMap_cons]
      refine List.rel_append ?_ (ih hr)
      have : hits f k = false := by
        have := List.all_eq_true.1 hk f hf
        simpa using this
      simp [this]

theorem ga_akin {o o' : MObj F} (h : GainedAt o o') : AkinG o o' := by
  cases h with
  | scal s => exact ⟨rfl, fun f => .nil, fun f _ => .nil⟩
  | inside c fs fs' hf => exact ⟨rfl, fun f => ga_in hf, fun f h => ga_fixed h hf⟩

theorem ga_str {o o' : MObj F} (h : GainedAt o o') : o.str = o'.str := by
  cases h with
  | scal s => rfl
  | inside => rfl

theorem ga_name {o o' : MObj F} (h : AkinG o o') : o.name = o'.name := by
  have := h.fixed k!"short_name" (by decide)
  unfold MObj.name
  cases hg : o.get k!"short_name" with
  | nil => rw [hg] at this; cases hg' : o'.get k!"short_name" with
    | nil => rfl
    | cons w ws => rw [hg'] at this; cases this
  | cons w ws => rw [hg] at this; cases hg' : o'.get k!"short_name" with
    | nil => rw [hg'] at this; cases this
    | cons w' ws' => rw [hg'] at this; cases this with | cons h1 h2 => exact ga_str h1

theorem ga_inst (w : List Key) {a b : MObj F} (h : GainedAt a b) : a.inst w = b.inst w := by
  unfold MObj.inst; rw [(ga_akin h).cls]

theorem ga_view {o o' : MObj F} (h : AkinG o o') (f : Key) (w : List Key) : Grown GainedAt IsObj (o.view f w) (o'.view f w) := by
  unfold MObj.view
  cases w with
  | nil => exact h.get f
  | cons a w => exact grown_filter (h.get f) fun a b hab => ga_inst _ hab

theorem ga_viewFixed {o o' : MObj F} (h : AkinG o o') {f : Key} (hf : f ∈ fixedFields) (w : List Key) :
    List.Forall₂ GainedAt (o.view f w) (o'.view f w) := by
  unfold MObj.view
  cases w with
  | nil => exact h.fixed f hf
  | cons a w => exact filter_rel (fun a b hab => ga_inst _ hab) (h.fixed f hf)

/-- all attributes of a test are fixed -/
def allFixed (fs : List (Key × List Key)) : Bool := fs.all fun s => fixedFields.contains s.1

theorem ga_empty {o o' : MObj F} (h : AkinG o o') {fs : List (Key × List Key)} (hf : allFixed fs = true) {s : Key × List Key} (hs : s ∈ fs) :
    (o.view s.1 s.2).isEmpty = (o'.view s.1 s.2).isEmpty :=
  rel_isEmpty (ga_viewFixed h (List.contains_iff_mem.1 (List.all_eq_true.1 hf s hs)) s.2)

/-- a test that is met before is met after -/
theorem ga_any {o o' : MObj F} (h : AkinG o o') {fs : List (Key × List Key)} (hd : (Cond.any fs).holds o = true) : (Cond.any fs).holds o' = true := by
  simp only [Cond.holds, List.any_eq_true, Bool.not_eq_true'] at hd ⊢
  obtain ⟨s, hs, hn⟩ := hd
  refine ⟨s, hs, ?_⟩
  have := grown_length (ga_view h s.1 s.2)
  cases hv : o'.view s.1 s.2 with
  | nil =>
    rw [hv] at this
    have : o.view s.1 s.2 = [] := List.eq_nil_of_length_eq_zero (Nat.le_zero.1 this)
    rw [this] at hn; cases hn
  | cons a l => rfl

theorem ga_anyFixed {o o' : MObj F} (h : AkinG o o') {fs : List (Key × List Key)} (hf : allFixed fs = true) : (Cond.any fs).holds o = (Cond.any fs).holds o' := by
  simp only [Cond.holds]
  rw [Bool.eq_iff_iff, List.any_eq_true, List.any_eq_true]
  exact exists_congr fun s => and_congr_right fun hs => by rw [ga_empty h hf hs]

theorem ga_noneFixed {o o' : MObj F} (h : AkinG o o') {fs : List (Key × List Key)} (hf : allFixed fs = true) : (Cond.none fs).holds o = (Cond.none fs).holds o' := by
  simp only [Cond.holds]
  rw [Bool.eq_iff_iff, List.all_eq_true, List.all_eq_true]
  exact forall_congr' fun s => imp_congr_right fun hs => by rw [ga_empty h hf hs]

end

/-! ## Sorting -/

section
variable {α β : Type} {R : α → β → Prop} {A : β → Prop} {f : α → String} {g : β → String}

theorem insertBy_sorted (b : β) {m : List β} (h : m.Pairwise fun x y => g x ≤ g y) : (insertBy g b m).Pairwise fun x y => g x ≤ g y := by
  induction m with
  | nil => exact List.pairwise_singleton _ _
  | cons y m ih =>
    rw [List.pairwise_cons] at h
    unfold insertBy
    split
    · rename_i hb
      refine List.pairwise_cons.2 ⟨fun z hz => ?_, List.pairwise_cons.2 h⟩
      rcases List.mem_cons.1 hz with rfl | hz
      · exact hb
      · exact String.le_trans hb (h.1 z hz)
    · rename_i hb
      refine List.pairwise_cons.2 ⟨fun z hz => ?_, ih h.2⟩
      rcases List.mem_cons.1 ((insertBy_perm g b m).mem_iff.1 hz) with rfl | hz
      · exact (String.le_total _ _).resolve_left hb
      · exact h.1 z hz

theorem sortBy_ordered (m : List β) : (sortBy g m).Pairwise fun x y => g x ≤ g y := by
  induction m with
  | nil => exact .nil
  | cons b m ih => exact insertBy_sorted b ih

theorem insertBy_keep (hR : ∀ a b, R a b → f a = g b) {a : α} {b : β} (hab : R a b) {l : List α} {m : List β} (h : Grown R A l m)
    (hm : m.Pairwise fun x y => g x ≤ g y) : Grown R A (insertBy f a l) (insertBy g b m) := by
  induction h with
  | nil => exact .keep hab .nil
  | @keep x y l m hxy h ih =>
    unfold insertBy
    rw [hR a b hab, hR x y hxy]
    split
    · exact .keep hab (.keep hxy h)
    · exact .keep hxy (ih (List.pairwise_cons.1 hm).2)
  | @add y l m hy h ih =>
    rw [List.pairwise_cons] at hm
    by_cases hb : g b ≤ g y
    · have : insertBy f a l = a :: l := by
        cases h with
        | nil => rfl
        | keep hxy h' =>
          unfold insertBy
          rw [hR a b hab, hR _ _ hxy, if_pos (String.le_trans hb (hm.1 _ (by simp)))]
        | @add z _ m' hz h' =>
          have key : ∀ {l : List α} {m : List β}, Grown R A l m → (∀ z ∈ m, g y ≤ g z) → insertBy f a l = a :: l := by
            intro l m hg hm
            induction hg with
            | nil => rfl
            | keep hxy _ _ => unfold insertBy; rw [hR a b hab, hR _ _ hxy, if_pos (String.le_trans hb (hm _ (by simp)))]
            | add _ _ ih => exact ih fun z hz => hm z (by simp [hz])
          exact key h' fun z hz => hm.1 z (by simp [hz])
      rw [this]
      unfold insertBy
      rw [if_pos hb]
      exact .keep hab (.add hy h)
    · conv => rhs; unfold insertBy
      rw [if_neg hb]
      exact .add hy (ih hm.2)

theorem insertBy_new {b : β} (hb : A b) {l : List α} {m : List β} (h : Grown R A l m) : Grown R A l (insertBy g b m) := by
  induction h with
  | nil => exact .add hb .nil
  | @keep x y l m hxy h ih =>
    unfold insertBy
    split
    · exact .add hb (.keep hxy h)
    · exact .keep hxy ih
  | @add y l m hy h ih =>
    unfold insertBy
    split
    · exact .add hb (.add hy h)
    · exact .add hy ih

theorem sortBy_grown (hR : ∀ a b, R a b → f a = g b) {l : List α} {m : List β} (h : Grown R A l m) : Grown R A (sortBy f l) (sortBy g m) := by
  induction h with
  | nil => exact .nil
  | keep hxy _ ih => exact insertBy_keep hR hxy ih (sortBy_ordered _)
  | add hy _ ih => exact insertBy_new hy ih

end

/-! ## Writing -/

/-- what is written of the larger object contains what is written of the smaller one -/
structure OutG (a a' : Out) : Prop where
  attrs : a.attrs = a'.attrs
  text : a.text = a'.text
  kids : Grown PartOf (fun _ => True) a.kids a'.kids

mutual
theorem partOf_refl : ∀ x : Xml, PartOf x x
  | .node t as s ks => .node t as s ks ks (partOf_reflL ks)
theorem partOf_reflL : ∀ ks : List Xml, Grown PartOf (fun _ => True) ks ks
  | [] => .nil
  | x :: ks => .keep (partOf_refl x) (partOf_reflL ks)
end

theorem outG_refl (a : Out) : OutG a a := ⟨rfl, rfl, partOf_reflL _⟩

theorem outG_app {a a' b b' : Out} (h : OutG a a') (h' : OutG b b') : OutG (a.app b) (a'.app b') :=
  ⟨by simp only [Out.app, h.attrs, h'.attrs], by simp only [Out.app, h.text, h'.text], grown_append h.kids h'.kids⟩

theorem outG_new {a : Out} (h : Out.bare a) : OutG {} a := ⟨h.1.symm, h.2.symm, grown_all fun _ _ => trivial⟩

theorem outG_outs {l l' : List Out} (h : Grown OutG Out.bare l l') : OutG (outs l) (outs l') := by
  induction h with
  | nil => exact outG_refl _
  | keep h _ ih => exact outG_app h ih
  | @add b l m hb _ ih =>
    have := outG_app (outG_new hb) ih
    have he : ({} : Out).app (outs l) = outs l := by
      generalize outs l = o
      obtain ⟨as, s, ks⟩ := o
      simp only [Out.app, List.nil_append]
      split <;> simp_all
    rwa [he] at this

theorem outG_node {a a' : Out} (h : OutG a a') (t : Key) : PartOf (a.node t) (a'.node t) := by
  unfold Out.node
  rw [h.attrs, h.text]
  exact .node _ _ _ _ _ h.kids

/-- the same for one element -/
def OneG (a a' : Out) : Prop := Out.bare a ∧ Out.bare a' ∧ ∃ t as s ks ks', a.kids = [.node t as s ks] ∧ a'.kids = [.node t as s ks'] ∧
  Grown PartOf (fun _ => True) ks ks'

theorem outG_into {a a' b b' : Out} (h : OneG a a') (h' : OutG b b') : OutG (a.into b) (a'.into b') := by
  obtain ⟨h1, h2, t, as, s, ks, ks', hk, hk', hg⟩ := h
  unfold Out.into
  rw [hk, hk']
  refine ⟨by simp [h1.1, h2.1], by simp [h1.2, h2.2], ?_⟩
  simp only [h'.attrs, h'.text]
  exact .keep (.node _ _ _ _ _ (grown_append hg h'.kids)) .nil

theorem outG_nest {l l' : List Out} (h : List.Forall₂ OneG l l') : OutG (nest l) (nest l') := by
  induction h with
  | nil => exact outG_refl _
  | cons h _ ih => exact outG_into h ih

theorem grown_flatLength {α β γ δ : Type} {R : α → β → Prop} {A : β → Prop} {f : α → List γ} {g : β → List δ}
    (hR : ∀ a b, R a b → (f a).length ≤ (g b).length) {l : List α} {m : List β} (h : Grown R A l m) : (l.flatMap f).length ≤ (m.flatMap g).length := by
  induction h with
  | nil => exact Nat.le_refl _
  | keep h1 _ ih => simp only [List.flatMap_cons, List.length_append]; exact Nat.add_le_add (hR _ _ h1) ih
  | add _ _ ih => simp only [List.flatMap_cons, List.length_append]; exact Nat.le_trans ih (Nat.le_add_left _ _)

/-- there are at least as many elements at each place -/
theorem partOf_walk (ts : List Key) {x x' : Xml} (h : PartOf x x') : (walk ts x).length ≤ (walk ts x').length := by
  induction ts generalizing x x' with
  | nil => exact Nat.le_refl _
  | cons t ts ih =>
    cases h with
    | node u as s ks ks' hk =>
      exact grown_flatLength (fun a b hab => ih hab) (grown_filter hk fun a b hab => by cases hab; rfl)

/-- only fixed attributes are nested or tested for being empty, and what is added under a test is in elements of its own -/
def steadyB : WB → Bool
  | .nil => true
  | .attr _ _ _ r | .text _ _ r | .prim _ _ _ r | .oprim _ _ _ _ r | .fail _ _ r => steadyB r
  | .each f _ a _ _ r => (a != .nested || fixedFields.contains f) && steadyB r
  | .wrap c _ b r => (match c with
      | .none fs => allFixed fs
      | _ => true) && steadyB b && steadyB r
  | .when c b r => (match c with
      | .none fs => allFixed fs
      | .any fs => kidsOnly b || allFixed fs
      | _ => true) && steadyB b && steadyB r

set_option maxRecDepth 100000 in
theorem steady_table : (Gen.writeTable.all fun _ b => steadyB b) = true := by decide +kernel

theorem steady_save : steadyB saveBody = true := by decide +kernel

theorem steady_of {k : Key} {b : WB} (hb : writers k = some b) : steadyB b = true := by
  unfold writers at hb
  split at hb
  · cases hb; exact steady_save
  · exact (Bst.all_toList _ _).1 steady_table _ (Bst.find?_mem hb)

section
variable {py : Py} {repr : py.F → Str} {strict : Bool}

theorem attrOf_ga {n : Key} {k : WAKind} {l l' : List (MObj py.F)} (h : Grown GainedAt IsObj l l') {r' : Out}
    (h2 : writeAttrOf py strict n k l' = .ok r') : writeAttrOf py strict n k l = .ok r' := by
  cases h with
  | nil => exact h2
  | keep hv _ =>
    cases hv with
    | scal s => simpa only [writeAttrOf] using h2
    | inside => cases h2
  | add hv _ => obtain ⟨c, us, rfl⟩ := hv; cases h2

theorem textOf_ga {k : WAKind} {l l' : List (MObj py.F)} (h : Grown GainedAt IsObj l l') {r' : Out}
    (h2 : writeTextOf py strict k l' = .ok r') : writeTextOf py strict k l = .ok r' := by
  cases h with
  | nil => exact h2
  | keep hv _ =>
    cases hv with
    | scal s => simpa only [writeTextOf] using h2
    | inside => cases h2
  | add hv _ => obtain ⟨c, us, rfl⟩ := hv; cases h2

theorem prims_ga {t : Key} {k : WKind} {l l' : List (MObj py.F)} (h : Grown GainedAt IsObj l l') {ys' : List Xml}
    (h2 : mapE (writePrim py repr t k) l' = .ok ys') : mapE (writePrim py repr t k) l = .ok ys' := by
  obtain ⟨ys, hy, hg⟩ := mapE_less (S := Eq) (B := fun _ => False) (f := writePrim py repr t k) (fun a b y hab hb => by
    cases hab with
    | scal s => exact ⟨y, hb, rfl⟩
    | inside => cases hb) (fun b y hb h => by obtain ⟨c, us, rfl⟩ := hb; cases h) h h2
  have := grown_none hg fun _ _ h => h
  rw [List.forall₂_eq_eq_eq] at this
  rw [hy, this]

theorem seqE_ga {a b a' b' : Except PyErr Out} {r' : Out} (h' : seqE a' b' = .ok r')
    (ha : ∀ x', a' = .ok x' → ∃ x, a = .ok x ∧ OutG x x') (hb : ∀ x', b' = .ok x' → ∃ x, b = .ok x ∧ OutG x x') :
    ∃ r, seqE a b = .ok r ∧ OutG r r' := by
  obtain ⟨x', y', h1', h2', rfl⟩ := seqE_split h'
  obtain ⟨x, hx, gx⟩ := ha _ h1'
  obtain ⟨y, hy, gy⟩ := hb _ h2'
  exact ⟨x.app y, by simp only [seqE, hx, hy], outG_app gx gy⟩

theorem write_shrunk (n : Nat) : ∀ (b : WB) (o o' : MObj py.F) (out' : Out), kidsApart writers b = true → steadyB b = true → AkinG o o' →
    writeB py repr strict (writeObj py repr strict writers n) o' b = .ok out' →
    ∃ out, writeB py repr strict (writeObj py repr strict writers n) o b = .ok out ∧ OutG out out' := by
  induction n using Nat.strongRecOn with
  | _ n ihn =>
    intro b
    induction b with
    | nil => intro o o' out' _ _ _ h'; cases h'; exact ⟨{}, rfl, outG_refl _⟩
    | attr a k f r ih =>
      intro o o' out' ha hs hA h'
      exact seqE_ga h' (fun x' h2 => ⟨x', attrOf_ga (hA.get f) h2, outG_refl _⟩) fun x' h2 => ih o o' x' ha hs hA h2
    | text k f r ih =>
      intro o o' out' ha hs hA h'
      exact seqE_ga h' (fun x' h2 => ⟨x', textOf_ga (hA.get f) h2, outG_refl _⟩) fun x' h2 => ih o o' x' ha hs hA h2
    | prim t k f r ih =>
      intro o o' out' ha hs hA h'
      refine seqE_ga h' (fun x' h2 => ?_) fun x' h2 => ih o o' x' ha hs hA h2
      obtain ⟨ys', hy', rfl⟩ := map_split h2
      exact ⟨_, by rw [prims_ga (hA.get f) hy']; rfl, outG_refl _⟩
    | oprim u t k f r ih =>
      intro o o' out' ha hs hA h'
      refine seqE_ga h' (fun x' h2 => ?_) fun x' h2 => ih o o' x' ha hs hA h2
      obtain ⟨ys', hy', rfl⟩ := map_split h2
      exact ⟨_, by rw [prims_ga (hA.get f) hy']; rfl, outG_refl _⟩
    | wrap d t b r ihb ih =>
      intro o o' out' ha hs hA h'
      simp only [kidsApart, steadyB, Bool.and_eq_true] at ha hs
      refine seqE_ga h' (fun x' h2 => ?_) fun x' h2 => ih o o' x' ha.2 hs.2 hA h2
      have hmono : d.holds o = true → d.holds o' = true := by
        intro hd
        cases d with
        | always => rfl
        | any fs => exact ga_any hA hd
        | none fs => rw [← ga_noneFixed hA hs.1.1]; exact hd
        | cls cs => simpa only [Cond.holds, MObj.inst, hA.cls] using hd
        | notcls cs => simpa only [Cond.holds, MObj.inst, hA.cls] using hd
      by_cases hd : d.holds o = true
      · rw [if_pos (hmono hd)] at h2
        obtain ⟨y', hy', rfl⟩ := map_split h2
        obtain ⟨y, hy, hg⟩ := ihb o o' y' ha.1 hs.1.2 hA hy'
        exact ⟨{ kids := [y.node t] }, by rw [if_pos hd, hy]; rfl, rfl, rfl, .keep (outG_node hg t) .nil⟩
      · refine ⟨{}, by rw [if_neg hd], ?_⟩
        split at h2
        · obtain ⟨y', hy', rfl⟩ := map_split h2
          exact outG_new ⟨rfl, rfl⟩
        · cases h2; exact outG_refl _
    | «when» d b r ihb ih =>
      intro o o' out' ha hs hA h'
      simp only [kidsApart, steadyB, Bool.and_eq_true] at ha hs
      refine seqE_ga h' (fun x' h2 => ?_) fun x' h2 => ih o o' x' ha.2 hs.2 hA h2
      have hcase : d.holds o = d.holds o' ∨ (d.holds o = false ∧ kidsOnly b = true) := by
        cases d with
        | always => exact .inl rfl
        | any fs =>
          have h0 := hs.1.1
          rw [Bool.or_eq_true] at h0
          rcases h0 with hk | hf
          · by_cases hd : (Cond.any fs).holds o = true
            · exact .inl (by rw [hd, ga_any hA hd])
            · exact .inr ⟨by simpa using hd, hk⟩
          · exact .inl (ga_anyFixed hA hf)
        | none fs => exact .inl (ga_noneFixed hA hs.1.1)
        | cls cs => exact .inl (by simp only [Cond.holds, MObj.inst, hA.cls])
        | notcls cs => exact .inl (by simp only [Cond.holds, MObj.inst, hA.cls])
      rcases hcase with hd | ⟨hd, hk⟩
      · rw [hd]
        split at h2
        · rename_i hd'
          rw [if_pos hd']
          exact ihb o o' x' ha.1 hs.1.2 hA h2
        · rename_i hd'
          rw [if_neg hd']
          exact ⟨x', h2, outG_refl _⟩
      · rw [hd]
        refine ⟨{}, rfl, ?_⟩
        split at h2
        · exact outG_new (bare_B (bare_obj n) hk ha.1 h2)
        · cases h2; exact outG_refl _
    | fail e al r ih =>
      intro o o' out' ha hs hA h'
      exact seqE_ga h' (fun x' h2 => ⟨x', h2, outG_refl _⟩) fun x' h2 => ih o o' x' ha hs hA h2
    | each f w a cs oth r ih =>
      intro o o' out' ha hs hA h'
      simp only [kidsApart, steadyB, Bool.and_eq_true] at ha hs
      refine seqE_ga h' (fun x' h2 => ?_) fun x' h2 => ih o o' x' ha.2 hs.2 hA h2
      obtain ⟨ys', hy', rfl⟩ := map_split h2
      -- an object that is there before and after
      have hone : ∀ p q y', GainedAt p q → writeCase py strict (writeObj py repr strict writers n) cs oth q = .ok y' →
          ∃ y, writeCase py strict (writeObj py repr strict writers n) cs oth p = .ok y ∧ OutG y y' ∧ (a = .nested → OneG y y') := by
        intro p q y' hpq hq
        have hc := (ga_akin hpq).cls
        cases hf : cs.find? (fun k => k.takes q.cls) with
        | none =>
          have he : writeCase py strict (writeObj py repr strict writers n) cs oth p = writeCase py strict (writeObj py repr strict writers n) cs oth q := by
            simp only [writeCase, hc, hf]
          refine ⟨y', by rw [he, hq], outG_refl _, fun hnest => ?_⟩
          obtain ⟨k0, hk0, ht, ht'⟩ : ∃ x, x ∈ cs ∧ x.pos = [] ∧ x.neg = [] := by simpa [hnest] using ha.1.2
          have := List.find?_eq_none.1 hf k0 hk0
          simp [Case.takes, ht, ht'] at this
        | some cc =>
          have hf' : cs.find? (fun k => k.takes p.cls) = some cc := by rw [hc]; exact hf
          simp only [writeCase, hf] at hq
          simp only [writeCase, hf']
          have hb := List.all_eq_true.1 ha.1.1 cc (List.mem_of_find?_eq_some hf)
          split at hb
          · cases hb
          · rename_i b' hb'
            rw [Bool.and_eq_true] at hb
            have hbare' := bare_obj _ _ _ _ _ hb' hb.1 hq
            cases n with
            | zero => cases hq
            | succ n =>
              have hq0 := hq
              unfold writeObj at hq ⊢
              rw [hb'] at hq ⊢
              obtain ⟨y, hy, hg⟩ := ihn n (Nat.lt_succ_self n) b' p q y' (apart_of hb') (steady_of hb') (ga_akin hpq) hq
              refine ⟨y, hy, hg, fun hnest => ⟨⟨hg.attrs.trans hbare'.1, hg.text.trans hbare'.2⟩, hbare', ?_⟩⟩
              obtain ⟨t, r', rfl⟩ := one_of (by simpa [hnest] using hb.2)
              have hap := apart_of hb'
              have hst := steady_of hb'
              simp only [kidsApart, steadyB, Bool.and_eq_true] at hap hst
              obtain ⟨z', hz', rfl⟩ := one_write hq
              obtain ⟨z, hz, rfl⟩ := one_write hy
              obtain ⟨z1, hz1, hg1⟩ := ihn n (Nat.lt_succ_self n) r' p q z' hap.1 hst.1.2 (ga_akin hpq) hz'
              rw [hz] at hz1
              cases hz1
              exact ⟨t, z.attrs, z.text, z.kids, z'.kids, rfl, by simp [Out.node, hg1.attrs, hg1.text], hg1.kids⟩
      -- a new object
      have hnew : ∀ q y', IsObj q → writeCase py strict (writeObj py repr strict writers n) cs oth q = .ok y' → Out.bare y' := by
        intro q y' _ hq
        rcases case_eq hq with ⟨_, rfl⟩ | ⟨cc, hcc, hq⟩
        · exact ⟨rfl, rfl⟩
        · have hb := List.all_eq_true.1 ha.1.1 cc (List.mem_of_find?_eq_some hcc)
          split at hb
          · cases hb
          · rename_i b' hb'
            rw [Bool.and_eq_true] at hb
            exact bare_obj _ _ _ _ _ hb' hb.1 hq
      cases ha' : a with
      | nested =>
        have hf : f ∈ fixedFields := by
          have := hs.1
          rw [ha'] at this
          exact List.contains_iff_mem.1 (by simpa using this)
        rw [ha'] at hy'
        obtain ⟨ys, hy, hg⟩ := mapE_less (A := fun _ => False) (B := fun _ => False)
          (fun p q y' hpq hq => let ⟨y, h1, _, h3⟩ := hone p q y' hpq hq; ⟨y, h1, h3 ha'⟩) (fun _ _ h => h.elim) (grown_of (ga_viewFixed hA hf w)) hy'
        exact ⟨nest ys, congrArg (Except.map (Arr.outs .nested)) hy, outG_nest (grown_none hg fun _ _ h => h)⟩
      | plain =>
        rw [ha'] at hy'
        obtain ⟨ys, hy, hg⟩ := mapE_less (fun p q y' hpq hq => let ⟨y, h1, h2, _⟩ := hone p q y' hpq hq; ⟨y, h1, h2⟩) hnew (ga_view hA f w) hy'
        exact ⟨outs ys, congrArg (Except.map (Arr.outs .plain)) hy, outG_outs hg⟩
      | sorted =>
        rw [ha'] at hy'
        obtain ⟨ys, hy, hg⟩ := mapE_less (fun p q y' hpq hq => let ⟨y, h1, h2, _⟩ := hone p q y' hpq hq; ⟨y, h1, h2⟩) hnew
          (sortBy_grown (f := fun o : MObj py.F => String.ofList o.name) (fun p q hpq => by rw [ga_name (ga_akin hpq)]) (ga_view hA f w)) hy'
        exact ⟨outs ys, congrArg (Except.map (Arr.outs .sorted)) hy, outG_outs hg⟩

/-! ## Saving -/

theorem ga_map {F : Type} {t : Key} {s : Scalar F} {fs fs' : List ((Key × Bool) × List (MObj F))} (h : GainedAtIn fs fs') :
    GainedAtIn (fs.map fun e => if e.1.1 = t then (e.1, [.scal s]) else e) (fs'.map fun e => if e.1.1 = t then (e.1, [.scal s]) else e) := by
  induction fs generalizing fs' with
  | nil => cases h; exact .nil
  | cons e fs ih =>
    cases h with
    | same k vs vs' _ fs' hv hf =>
      simp only [List.map_cons]
      split
      · exact .same _ _ _ _ _ (.cons (.scal _) .nil) (ih hf)
      · exact .same _ _ _ _ _ hv (ih hf)
    | more k vs vs' _ fs' hk hv hf =>
      simp only [List.map_cons]
      split
      · exact .same _ _ _ _ _ (.cons (.scal _) .nil) (ih hf)
      · exact .more _ _ _ _ _ hk hv (ih hf)

theorem schema_ga {d d' : MObj py.F} (h : GainedAt d d') : AkinG (withSchema py d) (withSchema py d') := by
  have hA := ga_akin h
  have he : d.get k!"schema_location" = [] ↔ d'.get k!"schema_location" = [] := by
    have := rel_isEmpty (hA.fixed k!"schema_location" (by decide))
    rw [← List.isEmpty_iff, ← List.isEmpty_iff, this]
  unfold withSchema
  by_cases hs : d.get k!"schema_location" = []
  · rw [if_pos hs, if_pos (he.1 hs)]
    cases h with
    | scal s => exact ga_akin (.scal s)
    | inside c fs fs' hf => exact ⟨rfl, fun f => ga_in (ga_map hf), fun f h => ga_fixed h (ga_map hf)⟩
  · rw [if_neg hs, if_neg fun h' => hs (he.2 h')]
    exact hA

theorem save_shrunk {d d' : MObj py.F} (h : GainedAt d d') {y' : Xml} (h2 : save py repr strict d' = .ok y') :
    ∃ y, save py repr strict d = .ok y ∧ PartOf y y' := by
  unfold save at h2 ⊢
  split at h2
  · cases h2
  · rename_i out' hw'
    split at h2
    · rename_i x' hx'
      cases h2
      have hm := writeObj_mono (Nat.le_max_right (withSchema py d).depth (withSchema py d').depth) hw'
      generalize hN : max (withSchema py d).depth (withSchema py d').depth = N at hm
      have hle : (withSchema py d).depth ≤ N := by rw [← hN]; exact Nat.le_max_left _ _
      rw [writeObj_stable (Nat.le_refl _) hle]
      cases N with
      | zero => cases hm
      | succ n =>
        have hm : writeB py repr strict (writeObj py repr strict writers n) (withSchema py d') saveBody = .ok out' := hm
        obtain ⟨out, ho, hg⟩ := write_shrunk n saveBody _ _ out' apart_save steady_save (schema_ga h) hm
        obtain ⟨z, hz, rfl⟩ := one_write ho
        have hr : writeObj py repr strict writers (n + 1) k!"save" (withSchema py d) = .ok { kids := [z.node k!"AUTOSAR"] } := ho
        refine ⟨z.node k!"AUTOSAR", by rw [hr], ?_⟩
        have := hg.kids
        rw [hx'] at this
        cases this with
        | keep h _ => exact h
        | add _ h => cases h
    · cases h2

/-! ## Reading -/

/-- a new element with this tag adds no objects to the attributes that must not grow -/
def Steady (t : Key) : Prop := ∀ k b, readers k = some b → ∀ s ∈ b.slots, keepsAll s = true → freeKey s.key = true ∨
  (0 ∉ listTags (tagFor k) s.path ∧ t ∉ listTags (tagFor k) s.path)

/-- what is checked for one slot of the method `k` -/
def slotSteady (k : Key) (s : RSlot) : Bool := !keepsAll s || freeKey s.key || (listTags (tagFor k) s.path).all fun u => u != 0 && movers.contains u

set_option maxRecDepth 100000 in
theorem slotSteady_table : (Gen.readTable.all fun k b => b.slots.all (slotSteady k)) = true := by decide +kernel

theorem slotSteady_load : loadBody.slots.all (slotSteady k!"load") = true := by decide +kernel

theorem slotSteady_of {k : Key} {b : RBody} (hb : readers k = some b) {s : RSlot} (hs : s ∈ b.slots) : slotSteady k s = true := by
  unfold readers at hb
  split at hb
  · rename_i hk; subst hk; cases hb; exact List.all_eq_true.1 slotSteady_load s hs
  · exact List.all_eq_true.1 ((Bst.all_toList _ _).1 slotSteady_table _ (Bst.find?_mem hb)) s hs

theorem steady_tag {t : Key} (h : t ∉ movers) : Steady t := by
  intro k b hb s hs hk
  have h1 := slotSteady_of hb hs
  simp only [slotSteady, hk, Bool.not_true, Bool.false_or, Bool.or_eq_true, List.all_eq_true, Bool.and_eq_true, bne_iff_ne] at h1
  refine h1.imp_right fun h1 => ⟨fun h0 => (h1 _ h0).1 rfl, fun h0 => h (List.contains_iff_mem.1 (h1 _ h0).2)⟩

theorem readItem_rel {e : Xml} {i : Item} {rd rd' : Key → Xml → Except RErr (MObj py.F)} {S : MObj py.F → MObj py.F → Prop} (hS : ∀ s, S (.scal s) (.scal s))
    (halt : ∀ alts, i = .objs alts → ∀ a ∈ alts, tagFor a.2 ∈ singles → a.1 ∈ singles)
    (hrd : ∀ k y y' v v', KinAt e (tagFor k) y y' → rd k y = .ok v → rd' k y' = .ok v' → S v v')
    {y y' : Xml} (hl : Kin e y y') {vs vs' : List (MObj py.F)} (h1 : readItem py strict rd i y = .ok vs)
    (h2 : readItem py strict rd' i y' = .ok vs') : List.Forall₂ S vs vs' := by
  cases i with
  | prim k =>
    have : readKind py k y = readKind py k y' := by
      obtain ⟨t, as, s, ks⟩ := y
      obtain ⟨t', as', s', ks'⟩ := y'
      obtain ⟨q1, q2, q3, _⟩ := hl
      simp only [Xml.tag, Xml.attrs, Xml.text] at q1 q2 q3
      subst q1 q2 q3
      cases k <;> rfl
    simp only [readItem] at h1 h2
    rw [← this] at h2
    rw [h1] at h2; cases h2
    exact forall₂_same _ fun v hv => by obtain ⟨s, rfl⟩ := scalars_only h1 v hv; exact hS s
  | attr n k =>
    simp only [readItem, Xml.attr, hl.attrs] at h1 h2
    rw [h1] at h2; cases h2
    split at h1
    · cases h1; exact .nil
    · exact forall₂_same _ fun v hv => by obtain ⟨s, rfl⟩ := scalars_only h1 v hv; exact hS s
  | name =>
    simp only [readItem, hl.text] at h1 h2
    split at h1
    · cases h1
    · rename_i hn
      rw [if_neg hn] at h2
      cases h1; cases h2
      exact .cons (hS _) .nil
  | objs alts =>
    simp only [readItem, ← hl.tag] at h1 h2
    split at h1
    · rename_i ha; rw [ha] at h2; cases h1; cases h2; exact .nil
    · rename_i k ha
      rw [ha] at h2
      simp only at h2
      split at h1
      · cases h1
      · rename_i v hv
        split at h2
        · cases h2
        · rename_i v' hv'
          cases h1; cases h2
          exact .cons (hrd k y y' v v' ⟨hl, halt alts rfl _ (alt_listed ha)⟩ hv hv') .nil
  | guard tags g =>
    have hz : ∀ {rd : Key → Xml → Except RErr (MObj py.F)} {y vs}, readItem py strict rd (.guard tags g) y = .ok vs → vs = [] := by
      intro rd y vs h
      simp only [readItem] at h
      split at h
      · cases h; rfl
      · split at h <;> cases h <;> rfl
    rw [hz h1, hz h2]; exact .nil
  | want t er =>
    have hz : ∀ {rd : Key → Xml → Except RErr (MObj py.F)} {y vs}, readItem py strict rd (.want t er) y = .ok vs → vs = [] := by
      intro rd y vs h
      simp only [readItem] at h
      split at h <;> cases h; rfl
    rw [hz h1, hz h2]; exact .nil
  | crash er => cases h1

theorem read_isObj {n : Nat} {k : Key} {x : Xml} {v : MObj py.F} (h : readObj py strict readers n k x = .ok v) : IsObj v := by
  cases n with
  | zero => cases h
  | succ n =>
    simp only [readObj] at h
    split at h
    · cases h
    · simp only [readBody] at h
      split at h
      · cases h
      · split at h
        · cases h; exact ⟨_, _, rfl⟩
        · cases h

theorem slots_ga {f g : RSlot → Except RErr (List (MObj py.F))} {l : List RSlot}
    (h : ∀ s ∈ l, ∀ ws ws', f s = .ok ws → g s = .ok ws' → List.Forall₂ GainedAt ws ws' ∨ (freeKey s.key = true ∧ Grown GainedAt IsObj ws ws'))
    {vs vs' : List (List (MObj py.F))} (h1 : mapE f l = .ok vs) (h2 : mapE g l = .ok vs') :
    GainedAtIn ((l.map RSlot.key).zip vs) ((l.map RSlot.key).zip vs') := by
  induction l generalizing vs vs' with
  | nil => exact .nil
  | cons s l ih =>
    unfold mapE at h1 h2
    split at h1
    · cases h1
    · rename_i w hw
      split at h1
      · cases h1
      · rename_i ws hws
        split at h2
        · cases h2
        · rename_i w' hw'
          split at h2
          · cases h2
          · rename_i ws' hws'
            cases h1; cases h2
            have hr := ih (fun t ht => h t (by simp [ht])) hws hws'
            rcases h s (by simp) w w' hw hw' with hs | ⟨hk, hs⟩
            · exact .same _ _ _ _ _ hs hr
            · exact .more _ _ _ _ _ hk hs hr

theorem read_gainedAt {e : Xml} (hw : Joins e.tag) (hq : Steady e.tag) (n n' : Nat) (k : Key) {x x' : Xml} (h : KinAt e (tagFor k) x x') {v v' : MObj py.F}
    (h1 : readObj py strict readers n k x = .ok v) (h2 : readObj py strict readers n' k x' = .ok v') : GainedAt v v' := by
  induction n generalizing n' k x x' v v' with
  | zero => cases h1
  | succ n ih =>
    cases n' with
    | zero => cases h2
    | succ n' =>
      simp only [readObj] at h1 h2
      cases hb : readers k with
      | none => rw [hb] at h1; cases h1
      | some b =>
        rw [hb] at h1 h2
        simp only [readBody] at h1 h2
        split at h1
        · cases h1
        · rename_i vs hvs
          split at h2
          · cases h2
          · rename_i vs' hvs'
            split at h1
            · split at h2
              · cases h1; cases h2
                refine .inside _ _ _ (slots_ga (fun s hs ws ws' g1 g2 => ?_) hvs hvs')
                obtain ⟨ls, f1, rfl, _⟩ := readSlot_ok g1
                obtain ⟨ls', f2, rfl, _⟩ := readSlot_ok g2
                obtain ⟨w1, w0, wa⟩ := hw k b hb s hs
                simp only [disturbs, List.mem_append, not_or] at w1 w0
                have hsel := select_grown s.path h w0.1 w1.1
                have hkin : ∀ y y' us us', Kin e y y' → readItem py strict (readObj py strict readers n) s.item y = .ok us →
                    readItem py strict (readObj py strict readers n') s.item y' = .ok us' → List.Forall₂ GainedAt us us' :=
                  fun y y' us us' hy q1 q2 => readItem_rel (fun s => .scal s) wa (fun k y y' v v' hy hv hv' => ih n' k hy hv hv') hy q1 q2
                have flat : List.Forall₂ (Kin e) (select s.path x) (select s.path x') →
                    List.Forall₂ GainedAt (if s.last then keepLast ls.flatten else ls.flatten) (if s.last then keepLast ls'.flatten else ls'.flatten) := by
                  intro hf
                  have := List.rel_flatten (mapE_pairs hkin hf f1 f2)
                  split
                  · exact keepLast_rel this
                  · exact this
                cases ha : keepsAll s with
                | true =>
                  rcases hq k b hb s hs ha with hk | ⟨z0, zt⟩
                  · have hl : s.last = false := by
                      cases hl : s.last with
                      | false => rfl
                      | true => simp [keepsAll, hl] at ha
                    refine .inr ⟨hk, ?_⟩
                    simp only [hl]
                    refine grown_flatten (mapE_grown hkin (fun y us hy q => ?_) hsel f1 f2)
                    intro v hv
                    obtain ⟨rfl, _⟩ := hy
                    obtain ⟨k, hk⟩ := readItem_new ha q v hv
                    exact read_isObj hk
                  · exact .inl (flat (grown_none hsel (by rintro b _ ⟨_, h | h⟩; exact zt h; exact z0 h)))
                | false =>
                  rw [ha] at w1 w0
                  exact .inl (flat (grown_none hsel (by rintro b _ ⟨_, h | h⟩; exact w1.2 h; exact w0.2 h)))
              · cases h2
            · cases h1

theorem load_gainedAt {e : Xml} (hw : Joins e.tag) (hq : Steady e.tag) {x x' : Xml} (h : Inserted e x x') {d d' : MObj py.F}
    (h1 : load py strict x = .ok d) (h2 : load py strict x' = .ok d') : GainedAt d d' := by
  unfold load at h1 h2
  split at h1
  · cases h1
  · split at h2
    · cases h2
    · exact read_gainedAt hw hq _ _ k!"load" ⟨ins_kin h, fun h => absurd h (by decide)⟩ h1 h2

end

end Verif.Lemmas
