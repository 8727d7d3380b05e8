import Verif.Spec.Unsaved
import Verif.Lemmas.Program
import Verif.Lemmas.Fuel
import Verif.Lemmas.Connectors
/-!
# Attributes that are not written
-/
namespace Verif.Lemmas
open Verif Verif.Model Verif.Spec

section
variable {F : Type}

/-! ## Documents that are the same to the writer -/

/-- what is seen of an object without looking into it -/
structure Facade (o o' : MObj F) : Prop where
  cls : o'.cls = o.cls
  name : o'.name = o.name
  scal : ∀ s, o = .scal s ↔ o' = .scal s

theorem Facade.str {o o' : MObj F} (h : Facade o o') : o'.str = o.str := by
  cases o with
  | scal s => rw [(h.scal s).1 rfl]
  | mk c fs =>
    cases o' with
    | scal s => cases (h.scal s).2 rfl
    | mk c' fs' => rfl

/-- the same down to a depth, but for attributes the writer does not look at -/
def AlikeTo : Nat → MObj F → MObj F → Prop
  | 0, o, o' => Facade o o'
  | n + 1, o, o' => Facade o o' ∧ ∀ f, ¬ Unwritten o.cls f → List.Forall₂ (AlikeTo n) (o.get f) (o'.get f)

theorem AlikeTo.facade {n : Nat} {o o' : MObj F} (h : AlikeTo n o o') : Facade o o' := by
  cases n with
  | zero => exact h
  | succ n => exact h.1

theorem alike_refl (n : Nat) (o : MObj F) : AlikeTo n o o := by
  induction n generalizing o with
  | zero => exact ⟨rfl, rfl, fun _ => Iff.rfl⟩
  | succ n ih => exact ⟨⟨rfl, rfl, fun _ => Iff.rfl⟩, fun f _ => List.forall₂_same.2 fun v _ => ih v⟩

theorem get_mk_app (c : Key) (l r : List ((Key × Bool) × List (MObj F))) (f : Key) : (MObj.mk c (l ++ r)).get f = (MObj.mk c l).get f ++ (MObj.mk c r).get f := by
  simp [MObj.get, MObj.fields]

theorem get_mk_cons (c : Key) (e : (Key × Bool) × List (MObj F)) (r : List ((Key × Bool) × List (MObj F))) (f : Key) :
    (MObj.mk c (e :: r)).get f = (if hits f e.1 then e.2 else []) ++ (MObj.mk c r).get f := by
  simp [MObj.get, MObj.fields]

theorem get_enriched {c f g : Key} {fs : List ((Key × Bool) × List (MObj F))} {vs : List (MObj F)} (h : g ≠ f) :
    (MObj.mk c (fs ++ [((f, false), vs)])).get g = (MObj.mk c fs).get g := by
  rw [get_mk_app, get_mk_cons]
  have : hits g (f, false) = false := by simpa [hits] using fun h' => h h'.symm
  rw [this]
  simp [MObj.get, MObj.fields]

theorem enriched_alike {o o' : MObj F} (h : Enriched o o') (n : Nat) : AlikeTo n o o' := by
  induction h generalizing n with
  | @here c f fs vs h =>
    have hf : Facade (MObj.mk c fs) (MObj.mk c (fs ++ [((f, false), vs)])) := by
      refine ⟨rfl, ?_, fun s => by constructor <;> intro h <;> cases h⟩
      unfold MObj.name
      rw [get_enriched (fun e => h.1 e.symm)]
    cases n with
    | zero => exact hf
    | succ n =>
      refine ⟨hf, fun g hg => ?_⟩
      rw [get_enriched (fun e => hg (by rw [e]; exact h))]
      exact List.forall₂_same.2 fun v _ => alike_refl n v
  | @inside c l r a us ws v v' h ih =>
    have hall : ∀ n f, List.Forall₂ (AlikeTo n) ((MObj.mk c (l ++ (a, us ++ v :: ws) :: r)).get f) ((MObj.mk c (l ++ (a, us ++ v' :: ws) :: r)).get f) := by
      intro n f
      have same : ∀ l : List (MObj F), List.Forall₂ (AlikeTo n) l l := fun l => List.forall₂_same.2 fun v _ => alike_refl n v
      rw [get_mk_app, get_mk_app, get_mk_cons, get_mk_cons]
      refine List.rel_append (same _) (List.rel_append ?_ (same _))
      split
      · exact List.rel_append (same _) (.cons (ih n) (same _))
      · exact .nil
    have hf : Facade (MObj.mk c (l ++ (a, us ++ v :: ws) :: r)) (MObj.mk c (l ++ (a, us ++ v' :: ws) :: r)) := by
      refine ⟨rfl, ?_, fun s => by constructor <;> intro h <;> cases h⟩
      unfold MObj.name
      have := hall 0 k!"short_name"
      revert this
      generalize (MObj.mk c (l ++ (a, us ++ v :: ws) :: r)).get k!"short_name" = x
      generalize (MObj.mk c (l ++ (a, us ++ v' :: ws) :: r)).get k!"short_name" = y
      intro h
      cases h with
      | nil => rfl
      | cons h _ => exact Facade.str h
    cases n with
    | zero => exact hf
    | succ n => exact ⟨hf, fun f _ => hall n f⟩

theorem changeAt_split {a : Key × Bool} {g : List (MObj F) → List (MObj F)} {fs : List ((Key × Bool) × List (MObj F))} {v : MObj F} {i : Nat}
    (h : (valsAt a fs)[i]? = some v) : ∃ l vs r, fs = l ++ (a, vs) :: r ∧ valsAt a fs = vs ∧ changeAt a g fs = l ++ (a, g vs) :: r := by
  induction fs with
  | nil => cases h
  | cons e fs ih =>
    obtain ⟨k, vs⟩ := e
    simp only [valsAt, changeAt] at h ⊢
    by_cases hk : k = a
    · simp only [hk, if_true]
      exact ⟨[], vs, fs, rfl, rfl, rfl⟩
    · simp only [hk, if_false] at h ⊢
      obtain ⟨l, vs', r, h1, h2, h3⟩ := ih h
      exact ⟨(k, vs) :: l, vs', r, by rw [h1]; rfl, h2, by rw [h3]; rfl⟩

/-- giving values to an object in an attribute of an object -/
theorem enriched_change {o v v' : MObj F} {a : Key × Bool} {i : Nat} (hv : (o.vals a)[i]? = some v) (h : Enriched v v') :
    Enriched o (o.change a fun vs => vs.set i v') := by
  cases o with
  | scal s => cases hv
  | mk c fs =>
    obtain ⟨l, vs, r, h1, h2, h3⟩ := changeAt_split (fs := fs) (g := fun vs => vs.set i v') hv
    have hv : vs[i]? = some v := by rw [← h2]; exact hv
    obtain ⟨hi, rfl⟩ := List.getElem?_eq_some_iff.1 hv
    simp only [MObj.change]
    rw [h3, h1]
    have h4 : vs = vs.take i ++ vs[i] :: vs.drop (i + 1) := by rw [← List.drop_eq_getElem_cons hi, List.take_append_drop]
    have h5 : vs.set i v' = vs.take i ++ v' :: vs.drop (i + 1) := List.set_eq_take_append_cons_drop.trans (if_pos hi)
    rw [h5]
    conv => lhs; rw [h4]
    exact .inside h

end

/-! ## Writing them -/

section
variable {py : Py} {repr : py.F → Str} {strict : Bool}

theorem mapE_rel {α β ε : Type} {R : α → α → Prop} {f g : α → Except ε β} (hR : ∀ a b, R a b → f a = g b) {l m : List α} (h : List.Forall₂ R l m) :
    mapE f l = mapE g m := by
  induction h with
  | nil => rfl
  | cons hab _ ih => simp only [mapE, hR _ _ hab, ih]

/-- the values are the same to what a writer method does with them -/
structure Equal (wr : Key → MObj py.F → Except PyErr Out) (v v' : MObj py.F) : Prop where
  facade : Facade v v'
  out : ∀ w, Handed v.cls w → wr w v = wr w v'

theorem inst_facade {o o' : MObj py.F} (h : Facade o o') (cs : List Key) : o.inst cs = o'.inst cs := by
  unfold MObj.inst
  rw [h.cls]

theorem view_rel {R : MObj py.F → MObj py.F → Prop} (hR : ∀ a b, R a b → Facade a b) {o o' : MObj py.F} {f : Key} (h : List.Forall₂ R (o.get f) (o'.get f))
    (v : List Key) : List.Forall₂ R (o.view f v) (o'.view f v) := by
  unfold MObj.view
  split
  · exact h
  · exact filter_rel (fun a b hab => inst_facade (hR a b hab) _) h

theorem isEmpty_rel {α : Type} {R : α → α → Prop} {l m : List α} (h : List.Forall₂ R l m) : l.isEmpty = m.isEmpty := by
  cases h <;> rfl

theorem holds_alike {R : MObj py.F → MObj py.F → Prop} (hR : ∀ a b, R a b → Facade a b) {o o' : MObj py.F} (ho : Facade o o') {c : Cond}
    (h : ∀ f ∈ condUses c, List.Forall₂ R (o.get f) (o'.get f)) : c.holds o = c.holds o' := by
  cases c with
  | always => rfl
  | cls cs => exact inst_facade ho cs
  | notcls cs => simp only [Cond.holds, inst_facade ho cs]
  | any fs =>
    simp only [Cond.holds]
    rw [Bool.eq_iff_iff, List.any_eq_true, List.any_eq_true]
    have : ∀ s ∈ fs, (o.view s.1 s.2).isEmpty = (o'.view s.1 s.2).isEmpty := fun s hs =>
      isEmpty_rel (view_rel hR (h s.1 (List.mem_map.2 ⟨s, hs, rfl⟩)) s.2)
    constructor
    · rintro ⟨s, hs, h'⟩; exact ⟨s, hs, by rw [← this s hs]; exact h'⟩
    · rintro ⟨s, hs, h'⟩; exact ⟨s, hs, by rw [this s hs]; exact h'⟩
  | none fs =>
    simp only [Cond.holds]
    rw [Bool.eq_iff_iff, List.all_eq_true, List.all_eq_true]
    have : ∀ s ∈ fs, (o.view s.1 s.2).isEmpty = (o'.view s.1 s.2).isEmpty := fun s hs =>
      isEmpty_rel (view_rel hR (h s.1 (List.mem_map.2 ⟨s, hs, rfl⟩)) s.2)
    constructor
    · intro h' s hs; rw [← this s hs]; exact h' s hs
    · intro h' s hs; rw [this s hs]; exact h' s hs

theorem attrOf_rel {wr : Key → MObj py.F → Except PyErr Out} (n : Key) (k : WAKind) {l m : List (MObj py.F)} (h : List.Forall₂ (Equal wr) l m) :
    writeAttrOf py strict n k l = writeAttrOf py strict n k m := by
  cases h with
  | nil => rfl
  | @cons v v' l m h _ =>
    cases v with
    | scal s => rw [(h.facade.scal s).1 rfl]; rfl
    | mk c fs =>
      cases v' with
      | scal s => cases (h.facade.scal s).2 rfl
      | mk c' fs' => rfl

theorem textOf_rel {wr : Key → MObj py.F → Except PyErr Out} (k : WAKind) {l m : List (MObj py.F)} (h : List.Forall₂ (Equal wr) l m) :
    writeTextOf py strict k l = writeTextOf py strict k m := by
  cases h with
  | nil => rfl
  | @cons v v' l m h _ =>
    cases v with
    | scal s => rw [(h.facade.scal s).1 rfl]; rfl
    | mk c fs =>
      cases v' with
      | scal s => cases (h.facade.scal s).2 rfl
      | mk c' fs' => rfl

theorem prim_rel {wr : Key → MObj py.F → Except PyErr Out} (t : Key) (k : WKind) {v v' : MObj py.F} (h : Equal wr v v') :
    writePrim py repr t k v = writePrim py repr t k v' := by
  cases v with
  | scal s => rw [(h.facade.scal s).1 rfl]
  | mk c fs =>
    cases v' with
    | scal s => cases (h.facade.scal s).2 rfl
    | mk c' fs' => rfl

theorem writeB_alike {wr : Key → MObj py.F → Except PyErr Out} {o o' : MObj py.F} (ho : Facade o o') {w0 : Key} {B : WB} (hB : writers w0 = some B) {W : WB}
    (hu : ∀ f ∈ uses W, List.Forall₂ (Equal wr) (o.get f) (o'.get f)) (hb : ∀ e ∈ branches W, e ∈ branches B) :
    writeB py repr strict wr o W = writeB py repr strict wr o' W := by
  induction W with
  | nil => rfl
  | attr n k f r ih =>
    simp only [uses, List.mem_cons, forall_eq_or_imp] at hu
    simp only [writeB, ih hu.2 hb, attrOf_rel n k hu.1]
  | text k f r ih =>
    simp only [uses, List.mem_cons, forall_eq_or_imp] at hu
    simp only [writeB, ih hu.2 hb, textOf_rel k hu.1]
  | prim t k f r ih =>
    simp only [uses, List.mem_cons, forall_eq_or_imp] at hu
    simp only [writeB, ih hu.2 hb, mapE_rel (fun a b hab => prim_rel t k hab) hu.1]
  | oprim u t k f r ih =>
    simp only [uses, List.mem_cons, forall_eq_or_imp] at hu
    simp only [writeB, ih hu.2 hb, mapE_rel (fun a b hab => prim_rel t k hab) hu.1]
  | each f v a cs ot r ih =>
    simp only [uses, List.mem_cons, forall_eq_or_imp] at hu
    simp only [branches, List.mem_append] at hb
    have hv := view_rel (fun _ _ h => Equal.facade h) hu.1 v
    have hi : List.Forall₂ (Equal wr) (if a.sort then byName (o.view f v) else o.view f v) (if a.sort then byName (o'.view f v) else o'.view f v) := by
      split
      · exact sortBy_rel (fun a b hab => by rw [hab.facade.name]) hv
      · exact hv
    simp only [writeB, ih hu.2 fun e he => hb e (.inr he)]
    rw [mapE_rel (R := Equal wr) (g := writeCase py strict wr cs ot) ?_ hi]
    intro x y hxy
    unfold writeCase
    rw [hxy.facade.cls]
    split
    next k hk => exact hxy.out _ (.inr ⟨w0, B, hB, k, hb k (.inl (List.mem_of_find?_eq_some hk)), by simpa using List.find?_some hk, rfl⟩)
    next => rfl
  | wrap c t b r ihb ihr =>
    simp only [uses, List.mem_append] at hu
    simp only [branches, List.mem_append] at hb
    simp only [writeB, ihb (fun f hf => hu f (.inl (.inr hf))) fun e he => hb e (.inl he), ihr (fun f hf => hu f (.inr hf)) fun e he => hb e (.inr he),
      holds_alike (fun _ _ h => Equal.facade h) ho fun f hf => hu f (.inl (.inl hf))]
  | when c b r ihb ihr =>
    simp only [uses, List.mem_append] at hu
    simp only [branches, List.mem_append] at hb
    simp only [writeB, ihb (fun f hf => hu f (.inl (.inr hf))) fun e he => hb e (.inl he), ihr (fun f hf => hu f (.inr hf)) fun e he => hb e (.inr he),
      holds_alike (fun _ _ h => Equal.facade h) ho fun f hf => hu f (.inl (.inl hf))]
  | fail e a r ih => simp only [writeB, ih hu hb]

theorem writeObj_alike {n : Nat} {w : Key} {o o' : MObj py.F} (h : AlikeTo n o o') (hw : Handed o.cls w) :
    writeObj py repr strict writers n w o = writeObj py repr strict writers n w o' := by
  induction n generalizing w o o' with
  | zero => rfl
  | succ n ih =>
    simp only [writeObj]
    split
    · rfl
    next b hb =>
      refine writeB_alike h.1 hb (fun f hf => ?_) fun _ he => he
      exact (h.2 f fun hn => hn.2 w b hw hb f hf (.inl rfl)).imp fun v v' hv => ⟨hv.facade, fun w' hw' => ih hv hw'⟩

theorem withSchema_enriched {d d' : MObj py.F} (h : Enriched d d') : Enriched (withSchema py d) (withSchema py d') := by
  cases h with
  | @here c f fs vs h =>
    have hf : k!"schema_location" ≠ f := fun e => h.2 k!"save" saveBody (.inl rfl) rfl k!"schema_location" (by decide) (.inl e)
    unfold withSchema
    rw [get_enriched hf]
    split
    · simp only [List.map_append, List.map_cons, List.map_nil]
      rw [if_neg (fun e => hf e.symm)]
      exact .here vs h
    · exact .here vs h
  | @inside c l r a us ws v v' h =>
    unfold withSchema
    rw [get_mk_app, get_mk_app, get_mk_cons, get_mk_cons]
    by_cases ha : hits k!"schema_location" a = true
    · simp only [ha, if_true, List.append_eq_nil_iff, reduceCtorEq, false_and, and_false, if_false]
      exact .inside h
    · have hn : a.1 ≠ k!"schema_location" := fun e => ha (by simp [hits, e])
      simp only [ha, Bool.false_eq_true, if_false]
      split
      · simp only [List.map_append, List.map_cons]
        rw [if_neg hn, if_neg hn]
        exact .inside h
      · exact .inside h

theorem save_enriched {d d' : MObj py.F} (h : Enriched d d') : save py repr strict d' = save py repr strict d := by
  have h := withSchema_enriched h
  unfold save
  have e : writeObj py repr strict writers (withSchema py d').depth k!"save" (withSchema py d') =
      writeObj py repr strict writers (withSchema py d).depth k!"save" (withSchema py d) := by
    rw [writeObj_stable (m := max (withSchema py d).depth (withSchema py d').depth) (Nat.le_refl _) (Nat.le_max_right _ _),
      writeObj_stable (n := (withSchema py d).depth) (m := max (withSchema py d).depth (withSchema py d').depth) (Nat.le_refl _) (Nat.le_max_left _ _)]
    exact (writeObj_alike (enriched_alike h _) (.inl rfl)).symm
  rw [e]

end

/-! ## Attributes that are not read -/

section
variable {py : Py}

theorem readAs_typed {T : Key → Option RBody} (hT : ∀ k b, T k = some b → Tidy T b) {k k' : Key} {o v : MObj py.F} (h : ReadAs T k o k' v)
    (ho : HasType T k o) : HasType T k' v := by
  induction h with
  | here => exact ho
  | @inside k b o v w s alts t k' k'' b' hb hs ha hal hb' hv hc _ ih =>
    obtain ⟨hm, _⟩ := slotAt_mem hs
    obtain ⟨b0, vss, h1, h2, h3, h4⟩ := hasType_iff.1 ho
    rw [hb] at h1
    cases h1
    have hslot : SlotTyped (HasType T) s (o.vals s.key) := by
      rw [h2]
      exact vals_slot h3 hs
    have hval := hslot.kinds v hv
    rw [ha] at hval
    obtain ⟨t2, k2, hal2, hty⟩ := hval
    have hk : k2 = k' := by
      obtain ⟨b2, _, hb2, hv2, _⟩ := hasType_iff.1 hty
      refine (hT k b hb).alts s hm alts ha t2 t k2 k' b2 b' hal2 hal hb2 hb' ?_
      rw [← hc, hv2]
      rfl
    subst hk
    exact ih hty

theorem unfilled {T : Key → Option RBody} {k : Key} {b : RBody} {o : MObj py.F} (h : HasType T k o) (hb : T k = some b) {f : Key}
    (hf : ∀ s ∈ b.slots, hits f s.key = false) : o.get f = [] := by
  obtain ⟨b0, vss, h1, h2, _, _⟩ := hasType_iff.1 h
  rw [hb] at h1
  cases h1
  rw [h2]
  unfold MObj.get
  rw [List.flatMap_eq_nil_iff]
  intro e he
  obtain ⟨s, hs, he'⟩ := List.mem_map.1 (List.of_mem_zip he).1
  rw [← he', hf s hs]
  rfl

end
end Verif.Lemmas
