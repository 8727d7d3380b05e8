import Verif.Spec.Change
import Verif.Lemmas.Connectors
/-!
# Changing one object of a document: lemmas
-/
namespace Verif.Lemmas
open Verif Verif.Model Verif.Spec

/-- nothing is added to the element itself -/
def kidsOnly : WB → Bool
  | .nil => true
  | .attr .. | .text .. => false
  | .prim _ _ _ r | .oprim _ _ _ _ r | .wrap _ _ _ r | .fail _ _ r | .each _ _ _ _ _ r => kidsOnly r
  | .when _ b r => kidsOnly b && kidsOnly r

/-- one element is made, whatever the object -/
def oneAlways : WB → Bool
  | .wrap .always _ _ .nil => true
  | _ => false

/-- what is called for objects is of the forms above -/
def kidsApart (T : Key → Option WB) : WB → Bool
  | .nil => true
  | .attr _ _ _ r | .text _ _ r | .prim _ _ _ r | .oprim _ _ _ _ r | .fail _ _ r => kidsApart T r
  | .each _ _ a cs _ r => (cs.all fun c => match T c.body with
      | none => false
      | some b => kidsOnly b && (a != .nested || oneAlways b)) && (a != .nested || cs.any fun c => c.pos.isEmpty && c.neg.isEmpty) && kidsApart T r
  | .wrap _ _ b r | .when _ b r => kidsApart T b && kidsApart T r

set_option maxRecDepth 100000 in
theorem apart_table : (Gen.writeTable.all fun _ b => kidsApart writers b) = true := by decide +kernel

theorem apart_save : kidsApart writers saveBody = true := by decide +kernel

theorem apart_of {k : Key} {b : WB} (hb : writers k = some b) : kidsApart writers b = true := by
  unfold writers at hb
  split at hb
  · cases hb; exact apart_save
  · exact (Bst.all_toList _ _).1 apart_table _ (Bst.find?_mem hb)

section
variable {F : Type} {c : Key} {us us' : List ((Key × Bool) × List (MObj F))}

local notation "Sw" => Swapped (MObj.mk c us) (MObj.mk c us')

theorem sw_cls {o o' : MObj F} (h : Sw o o') : o.cls = o'.cls := by
  cases h <;> rfl

theorem sw_in {f : Key} {fs fs' : List ((Key × Bool) × List (MObj F))} (h : SwappedIn (MObj.mk c us) (MObj.mk c us') fs fs') :
    List.Forall₂ Sw (fs.flatMap fun e => if hits f e.1 then e.2 else []) (fs'.flatMap fun e => if hits f e.1 then e.2 else []) := by
  induction fs generalizing fs' with
  | nil => cases h; exact .nil
  | cons e fs ih =>
    cases h with
    | cons k vs vs' _ fs' hv hf =>
      simp only [List.flatMap_cons]
      refine List.rel_append ?_ (ih hf)
      split
      · exact hv
      · exact .nil

/-- two objects that are the same but for what is inside -/
structure Akin (v v' o o' : MObj F) : Prop where
  cls : o.cls = o'.cls
  get : ∀ f, List.Forall₂ (Swapped v v') (o.get f) (o'.get f)

theorem sw_cases {o o' : MObj F} (h : Sw o o') : (o = .mk c us ∧ o' = .mk c us') ∨ Akin (.mk c us) (.mk c us') o o' := by
  cases h with
  | here => exact .inl ⟨rfl, rfl⟩
  | scal s => exact .inr ⟨rfl, fun f => .nil⟩
  | inside d fs fs' hf => exact .inr ⟨rfl, fun f => sw_in hf⟩

theorem sw_str {o o' : MObj F} (h : Sw o o') : o.str = o'.str := by
  cases h <;> rfl

theorem sw_name (hn : (MObj.mk c us).name = (MObj.mk c us').name) {o o' : MObj F} (h : Sw o o') : o.name = o'.name := by
  rcases sw_cases h with ⟨rfl, rfl⟩ | h
  · exact hn
  · have := h.get k!"short_name"
    unfold MObj.name
    cases hg : o.get k!"short_name" with
    | nil => rw [hg] at this; cases hg' : o'.get k!"short_name" with
      | nil => rfl
      | cons w ws => rw [hg'] at this; cases this
    | cons w ws => rw [hg] at this; cases hg' : o'.get k!"short_name" with
      | nil => rw [hg'] at this; cases this
      | cons w' ws' => rw [hg'] at this; cases this with | cons h1 h2 => exact sw_str h1

theorem akin_view {o o' : MObj F} (h : Akin (.mk c us) (.mk c us') o o') (f : Key) (w : List Key) :
    List.Forall₂ Sw (o.view f w) (o'.view f w) := by
  unfold MObj.view
  cases w with
  | nil => exact h.get f
  | cons a w => exact filter_rel (fun a b hab => by unfold MObj.inst; rw [sw_cls hab]) (h.get f)

theorem rel_isEmpty {α β : Type} {R : α → β → Prop} {l : List α} {m : List β} (h : List.Forall₂ R l m) : l.isEmpty = m.isEmpty := by
  cases h <;> rfl

theorem akin_holds {o o' : MObj F} (h : Akin (.mk c us) (.mk c us') o o') (d : Cond) : d.holds o = d.holds o' := by
  cases d with
  | always => rfl
  | any fs => simp only [Cond.holds, fun s : Key × List Key => rel_isEmpty (akin_view h s.1 s.2)]
  | none fs => simp only [Cond.holds, fun s : Key × List Key => rel_isEmpty (akin_view h s.1 s.2)]
  | cls cs => simp only [Cond.holds, MObj.inst, h.cls]
  | notcls cs => simp only [Cond.holds, MObj.inst, h.cls]

end

section
variable {py : Py} {repr : py.F → Str} {strict : Bool} {c : Key} {us us' : List ((Key × Bool) × List (MObj py.F))}

local notation "Sw" => Swapped (MObj.mk c us) (MObj.mk c us')

theorem attrOf_sw {n : Key} {k : WAKind} {l l' : List (MObj py.F)} (h : List.Forall₂ Sw l l') {r r' : Out}
    (h1 : writeAttrOf py strict n k l = .ok r) (h2 : writeAttrOf py strict n k l' = .ok r') : r = r' := by
  cases h with
  | nil => rw [h1] at h2; cases h2; rfl
  | cons hv _ =>
    cases hv with
    | here => cases h1
    | scal s =>
      simp only [writeAttrOf] at h1 h2
      rw [h1] at h2; cases h2; rfl
    | inside => cases h1

theorem textOf_sw {k : WAKind} {l l' : List (MObj py.F)} (h : List.Forall₂ Sw l l') {r r' : Out}
    (h1 : writeTextOf py strict k l = .ok r) (h2 : writeTextOf py strict k l' = .ok r') : r = r' := by
  cases h with
  | nil => rw [h1] at h2; cases h2; rfl
  | cons hv _ =>
    cases hv with
    | here => cases h1
    | scal s =>
      simp only [writeTextOf] at h1 h2
      rw [h1] at h2; cases h2; rfl
    | inside => cases h1

theorem mapE_pairs {α β γ δ ε : Type} {R : α → β → Prop} {S : γ → δ → Prop} {f : α → Except ε γ} {g : β → Except ε δ}
    (hR : ∀ a b x y, R a b → f a = .ok x → g b = .ok y → S x y) {l : List α} {m : List β} (h : List.Forall₂ R l m) {xs : List γ} {ys : List δ}
    (h1 : mapE f l = .ok xs) (h2 : mapE g m = .ok ys) : List.Forall₂ S xs ys := by
  induction h generalizing xs ys with
  | nil => cases h1; cases h2; exact .nil
  | @cons a b l m hab _ ih =>
    unfold mapE at h1 h2
    cases hx : f a with
    | error e => rw [hx] at h1; cases h1
    | ok x =>
      cases hy : g b with
      | error e => rw [hy] at h2; cases h2
      | ok y =>
        rw [hx] at h1; rw [hy] at h2
        simp only at h1 h2
        split at h1
        · cases h1
        · rename_i xs' hxs
          split at h2
          · cases h2
          · rename_i ys' hys
            cases h1; cases h2
            exact .cons (hR a b x y hab hx hy) (ih hxs hys)

theorem prims_sw {t : Key} {k : WKind} {l l' : List (MObj py.F)} (h : List.Forall₂ Sw l l') {ys ys' : List Xml}
    (h1 : mapE (writePrim py repr t k) l = .ok ys) (h2 : mapE (writePrim py repr t k) l' = .ok ys') : ys = ys' := by
  have := mapE_pairs (S := Eq) (fun a b x y hab hx hy => ?_) h h1 h2
  · rwa [List.forall₂_eq_eq_eq] at this
  · cases hab with
    | here => cases hx
    | scal s => rw [hx] at hy; cases hy; rfl
    | inside => cases hx

/-- the same but for pieces -/
structure OutSw (P : List Xml → List Xml → Prop) (a a' : Out) : Prop where
  attrs : a.attrs = a'.attrs
  text : a.text = a'.text
  kids : Replaced P a.kids a'.kids

theorem outSw_refl (P : List Xml → List Xml → Prop) (a : Out) : OutSw P a a := ⟨rfl, rfl, .same _⟩

theorem outSw_app {P : List Xml → List Xml → Prop} {a a' b b' : Out} (h : OutSw P a a') (h' : OutSw P b b') : OutSw P (a.app b) (a'.app b') :=
  ⟨by simp only [Out.app, h.attrs, h'.attrs], by simp only [Out.app, h.text, h'.text], .append _ _ _ _ h.kids h'.kids⟩

theorem outSw_outs {P : List Xml → List Xml → Prop} {l l' : List Out} (h : List.Forall₂ (OutSw P) l l') : OutSw P (outs l) (outs l') := by
  induction h with
  | nil => exact outSw_refl _ _
  | cons h _ ih => exact outSw_app h ih

theorem outSw_node {P : List Xml → List Xml → Prop} {a a' : Out} (h : OutSw P a a') (t : Key) : Replaced P [a.node t] [a'.node t] := by
  unfold Out.node
  rw [h.attrs, h.text]
  exact .inside _ _ _ _ _ h.kids

theorem seqE_split {a b : Except PyErr Out} {r : Out} (h : seqE a b = .ok r) : ∃ x y, a = .ok x ∧ b = .ok y ∧ r = x.app y := by
  unfold seqE at h
  split at h
  · cases h
  · split at h
    · cases h
    · cases h; exact ⟨_, _, rfl, rfl, rfl⟩

theorem map_split {α β ε : Type} {a : Except ε α} {f : α → β} {r : β} (h : a.map f = .ok r) : ∃ x, a = .ok x ∧ r = f x := by
  cases a with
  | error e => cases h
  | ok x => cases h; exact ⟨x, rfl, rfl⟩

theorem seqE_sw {P : List Xml → List Xml → Prop} {a b a' b' : Except PyErr Out} {r r' : Out} (h : seqE a b = .ok r) (h' : seqE a' b' = .ok r')
    (ha : ∀ x x', a = .ok x → a' = .ok x' → OutSw P x x') (hb : ∀ x x', b = .ok x → b' = .ok x' → OutSw P x x') : OutSw P r r' := by
  obtain ⟨x, y, h1, h2, rfl⟩ := seqE_split h
  obtain ⟨x', y', h1', h2', rfl⟩ := seqE_split h'
  exact outSw_app (ha _ _ h1 h1') (hb _ _ h2 h2')

/-- nothing for the element itself -/
def Out.bare (a : Out) : Prop := a.attrs = [] ∧ a.text = []

theorem bare_app {a b : Out} (h : Out.bare a) (h' : Out.bare b) : Out.bare (a.app b) := by
  unfold Out.bare at *
  simp [Out.app, h, h']

theorem bare_outs {l : List Out} (h : ∀ a ∈ l, Out.bare a) : Out.bare (outs l) := by
  induction l with
  | nil => exact ⟨rfl, rfl⟩
  | cons a l ih => exact bare_app (h a (by simp)) (ih fun b hb => h b (by simp [hb]))

theorem bare_into {a b : Out} (h : Out.bare a) (h' : Out.bare b) : Out.bare (a.into b) := by
  unfold Out.into
  split
  · exact ⟨h.1, h.2⟩
  · exact bare_app h h'

theorem bare_nest {l : List Out} (h : ∀ a ∈ l, Out.bare a) : Out.bare (nest l) := by
  induction l with
  | nil => exact ⟨rfl, rfl⟩
  | cons a l ih => exact bare_into (h a (by simp)) (ih fun b hb => h b (by simp [hb]))

theorem mapE_comes {α β ε : Type} {f : α → Except ε β} {l : List α} {ys : List β} (h : mapE f l = .ok ys) {y : β} (hy : y ∈ ys) : ∃ x ∈ l, f x = .ok y := by
  induction l generalizing ys with
  | nil => cases h; cases hy
  | cons a l ih =>
    unfold mapE at h
    split at h
    · cases h
    · rename_i z hz
      split at h
      · cases h
      · rename_i zs hzs
        cases h
        rcases List.mem_cons.1 hy with rfl | hy
        · exact ⟨a, by simp, hz⟩
        · obtain ⟨x, hx, hf⟩ := ih hzs hy
          exact ⟨x, by simp [hx], hf⟩

theorem bare_B {wr : Key → MObj py.F → Except PyErr Out} (hw : ∀ k b v out, writers k = some b → kidsOnly b = true → wr k v = .ok out → Out.bare out)
    {o : MObj py.F} {b : WB} (hk : kidsOnly b = true) (ha : kidsApart writers b = true) {out : Out} (h : writeB py repr strict wr o b = .ok out) : Out.bare out := by
  induction b generalizing out with
  | nil => cases h; exact ⟨rfl, rfl⟩
  | attr => cases hk
  | text => cases hk
  | prim t k f r ih =>
    obtain ⟨x, y, h1, h2, rfl⟩ := seqE_split h
    obtain ⟨ys, _, rfl⟩ := map_split h1
    exact bare_app ⟨rfl, rfl⟩ (ih hk ha h2)
  | oprim u t k f r ih =>
    obtain ⟨x, y, h1, h2, rfl⟩ := seqE_split h
    obtain ⟨ys, _, rfl⟩ := map_split h1
    exact bare_app ⟨rfl, rfl⟩ (ih hk ha h2)
  | each f v a cs oth r ih =>
    simp only [kidsApart, Bool.and_eq_true] at ha
    obtain ⟨x, y, h1, h2, rfl⟩ := seqE_split h
    obtain ⟨ys, hys, rfl⟩ := map_split h1
    refine bare_app ?_ (ih hk ha.2 h2)
    have hb : ∀ z ∈ ys, Out.bare z := by
      intro z hz
      obtain ⟨w, _, hw'⟩ := mapE_comes hys hz
      unfold writeCase at hw'
      split at hw'
      · rename_i cc hcc
        have := List.all_eq_true.1 ha.1.1 cc (List.mem_of_find?_eq_some hcc)
        split at this
        · cases this
        · rename_i b' hb'
          rw [Bool.and_eq_true] at this
          exact hw _ _ _ _ hb' this.1 hw'
      · split at hw' <;> cases hw'
        exact ⟨rfl, rfl⟩
    cases a with
    | nested => exact bare_nest hb
    | plain => exact bare_outs hb
    | sorted => exact bare_outs hb
  | wrap d t b r _ ih =>
    simp only [kidsApart, Bool.and_eq_true] at ha
    obtain ⟨x, y, h1, h2, rfl⟩ := seqE_split h
    refine bare_app ?_ (ih hk ha.2 h2)
    split at h1
    · obtain ⟨ys, _, rfl⟩ := map_split h1; exact ⟨rfl, rfl⟩
    · cases h1; exact ⟨rfl, rfl⟩
  | «when» d b r ihb ih =>
    simp only [kidsApart, Bool.and_eq_true] at ha
    simp only [kidsOnly, Bool.and_eq_true] at hk
    obtain ⟨x, y, h1, h2, rfl⟩ := seqE_split h
    refine bare_app ?_ (ih hk.2 ha.2 h2)
    split at h1
    · exact ihb hk.1 ha.1 h1
    · cases h1; exact ⟨rfl, rfl⟩
  | fail e al r ih =>
    obtain ⟨x, y, h1, h2, rfl⟩ := seqE_split h
    refine bare_app ?_ (ih hk ha h2)
    split at h1
    · cases h1
    · cases h1; exact ⟨rfl, rfl⟩

theorem bare_obj (n : Nat) : ∀ (k : Key) (b : WB) (v : MObj py.F) (out : Out), writers k = some b → kidsOnly b = true →
    writeObj py repr strict writers n k v = .ok out → Out.bare out := by
  induction n with
  | zero => intro k b v out _ _ h; cases h
  | succ n ih =>
    intro k b v out hb hk h
    unfold writeObj at h
    rw [hb] at h
    exact bare_B ih hk (apart_of hb) h

/-- one element on each side, the same but for pieces or pieces themselves -/
def OneSw (P : List Xml → List Xml → Prop) (a a' : Out) : Prop :=
  Out.bare a ∧ Out.bare a' ∧
    ((∃ t as s ks ks', a.kids = [.node t as s ks] ∧ a'.kids = [.node t as s ks'] ∧ Replaced P ks ks') ∨
     (P a.kids a'.kids ∧ ∃ t as s ks t' as' s' ks', a.kids = [.node t as s ks] ∧ a'.kids = [.node t' as' s' ks']))

theorem nest_sw {P : List Xml → List Xml → Prop} {l l' : List Out} (h : List.Forall₂ (OneSw P) l l') :
    OutSw P (nest l) (nest l') ∧ Out.bare (nest l) ∧ Out.bare (nest l') := by
  induction h with
  | nil => exact ⟨outSw_refl _ _, ⟨rfl, rfl⟩, ⟨rfl, rfl⟩⟩
  | @cons a a' l l' h _ ih =>
    obtain ⟨ih, hb, hb'⟩ := ih
    obtain ⟨ha, ha', h⟩ := h
    refine ⟨⟨?_, ?_, ?_⟩, bare_into ha hb, bare_into ha' hb'⟩
    · rw [show nest (a :: l) = a.into (nest l) from rfl, show nest (a' :: l') = a'.into (nest l') from rfl,
        (bare_into ha hb).1, (bare_into ha' hb').1]
    · rw [show nest (a :: l) = a.into (nest l) from rfl, show nest (a' :: l') = a'.into (nest l') from rfl,
        (bare_into ha hb).2, (bare_into ha' hb').2]
    · simp only [nest]
      rcases h with ⟨t, as, s, ks, ks', h1, h2, hr⟩ | ⟨hp, t, as, s, ks, t', as', s', ks', h1, h2⟩
      · simp only [Out.into, h1, h2, hb.1, hb.2, hb'.1, hb'.2]
        exact .inside _ _ _ _ _ (.append _ _ _ _ hr ih.kids)
      · rw [h1, h2] at hp
        simp only [Out.into, h1, h2, hb.1, hb.2, hb'.1, hb'.2, List.append_nil, if_true]
        exact .around _ _ _ _ _ _ _ _ _ _ hp ih.kids

theorem one_of {b : WB} (h : oneAlways b = true) : ∃ t r, b = .wrap .always t r .nil := by
  unfold oneAlways at h
  split at h
  · exact ⟨_, _, rfl⟩
  · cases h

theorem one_write {wr : Key → MObj py.F → Except PyErr Out} {o : MObj py.F} {t : Key} {r : WB} {out : Out}
    (h : writeB py repr strict wr o (.wrap .always t r .nil) = .ok out) : ∃ x, writeB py repr strict wr o r = .ok x ∧ out = { kids := [x.node t] } := by
  obtain ⟨x, y, h1, h2, rfl⟩ := seqE_split h
  cases h2
  simp only [Cond.holds, if_true] at h1
  obtain ⟨z, hz, rfl⟩ := map_split h1
  exact ⟨z, hz, by simp [Out.app]⟩

theorem case_eq {wr : Key → MObj py.F → Except PyErr Out} {cs : List Case} {oth : Other} {o : MObj py.F} {a : Out} (h : writeCase py strict wr cs oth o = .ok a) :
    (cs.find? (fun k => k.takes o.cls) = none ∧ a = {}) ∨ ∃ cc, cs.find? (fun k => k.takes o.cls) = some cc ∧ wr cc.body o = .ok a := by
  unfold writeCase at h
  split at h
  · rename_i cc hcc; exact .inr ⟨cc, hcc, h⟩
  · rename_i hn
    split at h <;> cases h
    exact .inl ⟨hn, rfl⟩

local notation "Pc" => Pieces py repr strict (MObj.mk c us) (MObj.mk c us')

theorem write_swapped (hn : (MObj.mk c us).name = (MObj.mk c us').name) (n : Nat) : ∀ (n' : Nat) (b : WB) (o o' : MObj py.F) (out out' : Out),
    kidsApart writers b = true → Akin (.mk c us) (.mk c us') o o' →
    writeB py repr strict (writeObj py repr strict writers n) o b = .ok out →
    writeB py repr strict (writeObj py repr strict writers n') o' b = .ok out' → OutSw Pc out out' := by
  induction n using Nat.strongRecOn with
  | _ n ihn =>
    intro n' b
    induction b with
    | nil => intro o o' out out' _ _ h h'; cases h; cases h'; exact outSw_refl _ _
    | attr a k f r ih =>
      intro o o' out out' ha hA h h'
      exact seqE_sw h h' (fun x x' h1 h2 => by rw [attrOf_sw (hA.get f) h1 h2]; exact outSw_refl _ _) fun x x' h1 h2 => ih o o' x x' ha hA h1 h2
    | text k f r ih =>
      intro o o' out out' ha hA h h'
      exact seqE_sw h h' (fun x x' h1 h2 => by rw [textOf_sw (hA.get f) h1 h2]; exact outSw_refl _ _) fun x x' h1 h2 => ih o o' x x' ha hA h1 h2
    | prim t k f r ih =>
      intro o o' out out' ha hA h h'
      refine seqE_sw h h' (fun x x' h1 h2 => ?_) fun x x' h1 h2 => ih o o' x x' ha hA h1 h2
      obtain ⟨ys, hy, rfl⟩ := map_split h1
      obtain ⟨ys', hy', rfl⟩ := map_split h2
      rw [prims_sw (hA.get f) hy hy']; exact outSw_refl _ _
    | oprim u t k f r ih =>
      intro o o' out out' ha hA h h'
      refine seqE_sw h h' (fun x x' h1 h2 => ?_) fun x x' h1 h2 => ih o o' x x' ha hA h1 h2
      obtain ⟨ys, hy, rfl⟩ := map_split h1
      obtain ⟨ys', hy', rfl⟩ := map_split h2
      rw [prims_sw (hA.get f) hy hy']; exact outSw_refl _ _
    | wrap d t b r ihb ih =>
      intro o o' out out' ha hA h h'
      simp only [kidsApart, Bool.and_eq_true] at ha
      refine seqE_sw h h' (fun x x' h1 h2 => ?_) fun x x' h1 h2 => ih o o' x x' ha.2 hA h1 h2
      rw [← akin_holds hA d] at h2
      split at h1
      · rename_i hd
        rw [if_pos hd] at h2
        obtain ⟨y, hy, rfl⟩ := map_split h1
        obtain ⟨y', hy', rfl⟩ := map_split h2
        exact ⟨rfl, rfl, outSw_node (ihb o o' y y' ha.1 hA hy hy') t⟩
      · rename_i hd
        rw [if_neg hd] at h2
        cases h1; cases h2; exact outSw_refl _ _
    | «when» d b r ihb ih =>
      intro o o' out out' ha hA h h'
      simp only [kidsApart, Bool.and_eq_true] at ha
      refine seqE_sw h h' (fun x x' h1 h2 => ?_) fun x x' h1 h2 => ih o o' x x' ha.2 hA h1 h2
      rw [← akin_holds hA d] at h2
      split at h1
      · rename_i hd
        rw [if_pos hd] at h2
        exact ihb o o' x x' ha.1 hA h1 h2
      · rename_i hd
        rw [if_neg hd] at h2
        cases h1; cases h2; exact outSw_refl _ _
    | fail e al r ih =>
      intro o o' out out' ha hA h h'
      refine seqE_sw h h' (fun x x' h1 h2 => ?_) fun x x' h1 h2 => ih o o' x x' ha hA h1 h2
      split at h1
      · cases h1
      · rename_i hd
        rw [if_neg hd] at h2
        cases h1; cases h2; exact outSw_refl _ _
    | each f w a cs oth r ih =>
      intro o o' out out' ha hA h h'
      simp only [kidsApart, Bool.and_eq_true] at ha
      refine seqE_sw h h' (fun x x' h1 h2 => ?_) fun x x' h1 h2 => ih o o' x x' ha.2 hA h1 h2
      obtain ⟨ys, hy, rfl⟩ := map_split h1
      obtain ⟨ys', hy', rfl⟩ := map_split h2
      have hitems : List.Forall₂ Sw (if a.sort then byName (o.view f w) else o.view f w) (if a.sort then byName (o'.view f w) else o'.view f w) := by
        split
        · exact sortBy_rel (fun p q hpq => by rw [sw_name hn hpq]) (akin_view hA f w)
        · exact akin_view hA f w
      -- one object
      have hone : ∀ p q y y', Sw p q → writeCase py strict (writeObj py repr strict writers n) cs oth p = .ok y →
          writeCase py strict (writeObj py repr strict writers n') cs oth q = .ok y' →
          OutSw Pc y y' ∧ (a = .nested → OneSw Pc y y') := by
        intro p q y y' hpq hp hq
        have hc := sw_cls hpq
        rcases case_eq hp with ⟨hp0, rfl⟩ | ⟨cc, hcc, hp⟩
        · rcases case_eq hq with ⟨_, rfl⟩ | ⟨cc, hcc, _⟩
          · refine ⟨outSw_refl _ _, fun hnest => ?_⟩
            obtain ⟨k0, hk0, ht, ht'⟩ : ∃ x, x ∈ cs ∧ x.pos = [] ∧ x.neg = [] := by simpa [hnest] using ha.1.2
            have := List.find?_eq_none.1 hp0 k0 hk0
            simp [Case.takes, ht, ht'] at this
          · rw [← hc, hp0] at hcc; cases hcc
        · rcases case_eq hq with ⟨hq0, _⟩ | ⟨cc', hcc', hq⟩
          · rw [← hc, hcc] at hq0; cases hq0
          · rw [← hc, hcc] at hcc'
            cases hcc'
            have hb := List.all_eq_true.1 ha.1.1 cc (List.mem_of_find?_eq_some hcc)
            split at hb
            · cases hb
            · rename_i b' hb'
              rw [Bool.and_eq_true] at hb
              have hbare := bare_obj _ _ _ _ _ hb' hb.1 hp
              have hbare' := bare_obj _ _ _ _ _ hb' hb.1 hq
              rcases sw_cases hpq with ⟨rfl, rfl⟩ | hA'
              · have hP : Pc y.kids y'.kids := ⟨_, _, _, by rw [hp, ← hbare.1, ← hbare.2], by rw [hq, ← hbare'.1, ← hbare'.2]⟩
                refine ⟨⟨by rw [hbare.1, hbare'.1], by rw [hbare.2, hbare'.2], .piece _ _ hP⟩, fun hnest => ⟨hbare, hbare', .inr ⟨hP, ?_⟩⟩⟩
                obtain ⟨t, r', rfl⟩ := one_of (by simpa [hnest] using hb.2)
                cases n' with
                | zero => cases hq
                | succ n' =>
                  cases n with
                  | zero => cases hp
                  | succ n =>
                    unfold writeObj at hp hq
                    rw [hb'] at hp hq
                    obtain ⟨z, _, rfl⟩ := one_write hp
                    obtain ⟨z', _, rfl⟩ := one_write hq
                    exact ⟨_, _, _, _, _, _, _, _, rfl, rfl⟩
              · cases n' with
                | zero => cases hq
                | succ n' =>
                  cases n with
                  | zero => cases hp
                  | succ n =>
                    unfold writeObj at hp hq
                    rw [hb'] at hp hq
                    refine ⟨ihn n (Nat.lt_succ_self n) n' b' p q y y' (apart_of hb') hA' hp hq, fun hnest => ⟨hbare, hbare', .inl ?_⟩⟩
                    obtain ⟨t, r', rfl⟩ := one_of (by simpa [hnest] using hb.2)
                    obtain ⟨z, hz, rfl⟩ := one_write hp
                    obtain ⟨z', hz', rfl⟩ := one_write hq
                    have hap := apart_of hb'
                    simp only [kidsApart, Bool.and_eq_true] at hap
                    have := ihn n (Nat.lt_succ_self n) n' r' p q z z' hap.1 hA' hz hz'
                    exact ⟨t, z.attrs, z.text, z.kids, z'.kids, rfl, by simp [Out.node, this.attrs, this.text], this.kids⟩
      cases ha' : a with
      | nested => exact (nest_sw (mapE_pairs (fun p q y y' hpq h1 h2 => (hone p q y y' hpq h1 h2).2 ha') hitems hy hy')).1
      | plain => exact outSw_outs (mapE_pairs (fun p q y y' hpq h1 h2 => (hone p q y y' hpq h1 h2).1) hitems hy hy')
      | sorted => exact outSw_outs (mapE_pairs (fun p q y y' hpq h1 h2 => (hone p q y y' hpq h1 h2).1) hitems hy hy')

end

end Verif.Lemmas
