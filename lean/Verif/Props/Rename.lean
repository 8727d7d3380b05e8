import Verif.Spec.Rename
/-!
# Property C72: renaming
-/
namespace Verif.Props
open Verif.Model Verif.Spec

variable {H : Hier}

/-- the index lists the members of every name, in order -/
def Current (s : Reg) : Prop := ∀ n, (s.index n).getD [] = s.elements.filter fun e => s.names e.id == n

theorem rename_current {s : Reg} {i : Nat} {n : String} (h : Current s) (hi : ¬ IsMember s i) : Current (s.rename i n) := by
  intro m
  show (s.index m).getD [] = s.elements.filter fun e => (if e.id = i then n else s.names e.id) == m
  rw [h m]
  refine List.filter_congr fun e he => ?_
  rw [if_neg fun h' => hi ⟨e, he, h'⟩]

theorem add_current {s : Reg} {e : Ident} (h : Current s) : Current (s.add H e) := by
  unfold Reg.add
  split
  · exact h
  · intro m
    show (if m = s.names e.id then some ((s.index m).getD [] ++ [e]) else s.index m).getD [] = (s.elements ++ [e]).filter fun e => s.names e.id == m
    rw [List.filter_append, ← h m]
    split
    · rename_i hm; subst hm; simp
    · rename_i hm
      have : (s.names e.id == m) = false := by simpa using fun h => hm h.symm
      simp [this]

theorem erase_filter {l : List Ident} {p : Ident → Bool} {a : Ident} : (l.erase a).filter p = if p a then (l.filter p).erase a else l.filter p := by
  induction l with
  | nil => simp
  | cons b l ih =>
    by_cases hb : b = a
    · subst hb
      cases hp : p b <;> simp [hp]
    · have hb' : (b == a) = false := by simpa using hb
      rw [List.erase_cons_tail (by simp [hb'])]
      cases hp : p b
      · simp only [List.filter_cons, hp, ih]; rfl
      · simp only [List.filter_cons, hp, ih, if_true]
        split
        · rw [List.erase_cons_tail (by simp [hb'])]
        · rfl

theorem get_mem {s : Reg} {n : String} {t : Nat} {a : Ident} (h : s.get H n t = some a) : a ∈ (s.index n).getD [] ∧ H.sub a.cls t = true := by
  have := List.mem_of_mem_head? (show a ∈ _ from h)
  exact List.mem_filter.1 this

theorem remove_current {s : Reg} {n : String} {t : Nat} (h : Current s) : Current (s.remove H n t) := by
  unfold Reg.remove
  cases hg : s.get H n t with
  | none => exact h
  | some a =>
    have ha : s.names a.id = n := by
      have := (get_mem hg).1
      rw [h n] at this
      simpa using (List.mem_filter.1 this).2
    intro m
    show (if m = n then (s.index m).map (·.erase a) else s.index m).getD [] = (s.elements.erase a).filter fun e => s.names e.id == m
    rw [erase_filter, ← h m, ha]
    by_cases hm : m = n
    · subst hm
      cases s.index m <;> simp
    · have : (n == m) = false := by simpa using fun h => hm h.symm
      rw [if_neg hm, this]
      rfl

theorem calm_current {s : Reg} (h : Calm H s) : Current s := by
  induction h with
  | new => intro n; rfl
  | add e _ ih => exact add_current ih
  | create n t f _ hf ih =>
    unfold Reg.create
    split
    · exact ih
    · exact add_current (rename_current ih hf)
  | remove n t _ ih => exact remove_current ih
  | rename i n _ hi ih => exact rename_current ih hi

/-- **C72** As long as members are not renamed, and whatever names objects had before they were added: what is found under a name is the first
member that has this name and is of the type asked for.  (Missing: members that are renamed, see `C72_stale_broken`.) -/
theorem C72_lookup_partial (s : Reg) (h : Calm H s) (n : String) (t : Nat) :
    s.get H n t = (membersNamed H s n t).head? ∧ (s.exists? H n t = true ↔ membersNamed H s n t ≠ []) := by
  have hc := calm_current h n
  have hf : (s.elements.filter fun e => s.names e.id == n).filter (Reg.inst H t) = membersNamed H s n t := by
    unfold membersNamed Reg.inst
    rw [List.filter_filter]
    refine List.filter_congr fun e _ => ?_
    rw [Bool.and_comm]
  unfold Reg.get Reg.exists?
  rw [hc]
  refine ⟨by rw [hf], ?_⟩
  rw [← hf, ne_eq, List.filter_eq_nil_iff, List.any_eq_true]
  constructor
  · rintro ⟨e, he, ht⟩ h; exact h e he ht
  · intro h
    refine Classical.byContradiction fun hn => h fun e he ht => hn ⟨e, he, ht⟩

theorem add_unique {s : Reg} {e : Ident} (hc : Current s)
    (h : s.elements.Pairwise fun a b => s.names a.id = s.names b.id → H.sub a.cls b.cls = false) :
    (s.add H e).elements.Pairwise fun a b => (s.add H e).names a.id = (s.add H e).names b.id → H.sub a.cls b.cls = false := by
  unfold Reg.add
  split
  · exact h
  · rename_i hx
    show (s.elements ++ [e]).Pairwise fun a b => s.names a.id = s.names b.id → H.sub a.cls b.cls = false
    rw [List.pairwise_append]
    refine ⟨h, List.pairwise_singleton _ _, fun a ha b hb hab => ?_⟩
    obtain rfl := List.mem_singleton.1 hb
    refine Bool.eq_false_iff.2 fun hs => hx ?_
    refine List.any_eq_true.2 ⟨a, ?_, hs⟩
    rw [hc]
    exact List.mem_filter.2 ⟨ha, by simpa using hab⟩

theorem rename_unique {s : Reg} {i : Nat} {n : String} (hi : ¬ IsMember s i)
    (h : s.elements.Pairwise fun a b => s.names a.id = s.names b.id → H.sub a.cls b.cls = false) :
    (s.rename i n).elements.Pairwise fun a b => (s.rename i n).names a.id = (s.rename i n).names b.id → H.sub a.cls b.cls = false := by
  refine List.Pairwise.imp_of_mem ?_ (show s.elements.Pairwise _ from h)
  intro a b ha hb hab
  show (if a.id = i then n else s.names a.id) = (if b.id = i then n else s.names b.id) → _
  rw [if_neg fun h' => hi ⟨a, ha, h'⟩, if_neg fun h' => hi ⟨b, hb, h'⟩]
  exact hab

/-- **C72** and of two members with the same name the earlier one is not of the class of the later one; in particular no two members of a class
have the same name (`C72_unique_class_partial`).  (Missing: members that are renamed, see `C72_stale_broken`.) -/
theorem C72_unique_partial (s : Reg) (h : Calm H s) : s.elements.Pairwise fun a b => s.names a.id = s.names b.id → H.sub a.cls b.cls = false := by
  induction h with
  | new => exact List.Pairwise.nil
  | add e hs ih => exact add_unique (calm_current hs) ih
  | create n t f hs hf ih =>
    unfold Reg.create
    split
    · exact ih
    · exact add_unique (rename_current (calm_current hs) hf) (rename_unique hf ih)
  | @remove s n t hs ih =>
    unfold Reg.remove
    cases s.get H n t with
    | none => exact ih
    | some a => exact ih.sublist List.erase_sublist
  | rename i n hs hi ih => exact rename_unique hi ih

/-- **C72** no two members of a class have the same name -/
theorem C72_unique_class_partial (s : Reg) (h : Calm H s) : s.elements.Pairwise fun a b => ¬ (a.cls = b.cls ∧ s.names a.id = s.names b.id) :=
  (C72_unique_partial s h).imp fun {a b} hab h' => by
    have := hab h'.2
    rw [h'.1, H.refl] at this
    cases this

/-- **C72** Renaming is not seen by any lookup, whatever happened before; only the names of the members change. -/
theorem C72_unseen (s : Reg) (i : Nat) (m n : String) (t : Nat) :
    (s.rename i m).get H n t = s.get H n t ∧ (s.rename i m).exists? H n t = s.exists? H n t ∧ (s.rename i m).elements = s.elements ∧
    (s.rename i m).names i = m := ⟨rfl, rfl, rfl, if_pos rfl⟩

/-- **C72 is refuted.**  In any collection: a member that is found under its name, and renamed to a name no other member has, is not found under
its new name but still under the old one; and the create method makes a second member with the new name. -/
theorem C72_stale_broken (s : Reg) (h : Calm H s) (e : Ident) (m : String) (f : Nat) (he : s.get H (s.names e.id) e.cls = some e)
    (hm : ∀ x ∈ s.elements, s.names x.id ≠ m) (hne : f ≠ e.id) :
    (s.rename e.id m).get H m e.cls = none ∧ ((s.rename e.id m).get H (s.names e.id) e.cls = some e ∧ m ≠ s.names e.id) ∧
    ((s.rename e.id m).create H m e.cls f).elements = s.elements ++ [⟨f, e.cls⟩] ∧
    ((s.rename e.id m).create H m e.cls f).names e.id = ((s.rename e.id m).create H m e.cls f).names f := by
  have hc := calm_current h
  have hmem : e ∈ s.elements := by
    have := (get_mem he).1
    rw [hc] at this
    exact (List.mem_filter.1 this).1
  have hnone : s.elements.filter (fun x => s.names x.id == m) = [] := by
    rw [List.filter_eq_nil_iff]
    intro x hx
    simpa using hm x hx
  have hg : (s.rename e.id m).get H m e.cls = none := by
    show (((s.index m).getD []).filter _).head? = none
    rw [hc m, hnone]; rfl
  have hx : (s.rename e.id m).exists? H m e.cls = false := by
    show ((s.index m).getD []).any _ = false
    rw [hc m, hnone]; rfl
  have hx' : (((s.rename e.id m).rename f m).exists? H (((s.rename e.id m).rename f m).names f) e.cls) = false := by
    rw [show ((s.rename e.id m).rename f m).names f = m from if_pos rfl]
    exact hx
  have hcr : (s.rename e.id m).create H m e.cls f = ((s.rename e.id m).rename f m).add H ⟨f, e.cls⟩ := by
    unfold Reg.create; rw [hx]; rfl
  refine ⟨hg, ⟨he, fun h' => hm e hmem h'.symm⟩, ?_, ?_⟩
  · rw [hcr]; unfold Reg.add; rw [hx']; rfl
  · rw [hcr]; unfold Reg.add; rw [hx']
    show (if e.id = f then m else if e.id = e.id then m else _) = if f = f then m else _
    rw [if_neg hne.symm, if_pos rfl, if_pos rfl]

theorem erase_other {l : List Ident} {e : Ident} (h : l.Pairwise fun a b => a.id ≠ b.id) (he : e ∈ l) : ∀ x ∈ l.erase e, x.id ≠ e.id := by
  induction l with
  | nil => cases he
  | cons b l ih =>
    rw [List.pairwise_cons] at h
    intro x hx
    by_cases hb : b = e
    · subst hb
      rw [List.erase_cons_head] at hx
      exact (h.1 x hx).symm
    · rw [List.erase_cons_tail (by simpa using hb)] at hx
      have he' : e ∈ l := by
        rcases List.mem_cons.1 he with h' | h'
        · exact absurd h'.symm hb
        · exact h'
      rcases List.mem_cons.1 hx with rfl | hx
      · exact h.1 e he'
      · exact ih h.2 he' x hx

/-- **C72** The way to rename: remove the member, rename it, add it again.  This keeps the collection one in which no member was renamed, the
member is found under its new name, and the other members are the ones of before. -/
theorem C72_repair (s : Reg) (h : Calm H s) (e : Ident) (m : String) (he : s.get H (s.names e.id) e.cls = some e)
    (hone : s.elements.Pairwise fun a b => a.id ≠ b.id) (hm : membersNamed H s m e.cls = []) :
    Calm H (((s.remove H (s.names e.id) e.cls).rename e.id m).add H e) ∧
    (((s.remove H (s.names e.id) e.cls).rename e.id m).add H e).get H m e.cls = some e ∧
    (((s.remove H (s.names e.id) e.cls).rename e.id m).add H e).elements = s.elements.erase e ++ [e] := by
  have hr : s.remove H (s.names e.id) e.cls = { s with
      elements := s.elements.erase e
      index := fun m => if m = s.names e.id then (s.index m).map (·.erase e) else s.index m } := by
    unfold Reg.remove; rw [he]
  have hmem : e ∈ s.elements := by
    have := (get_mem he).1
    rw [calm_current h] at this
    exact (List.mem_filter.1 this).1
  have hel : (s.remove H (s.names e.id) e.cls).elements = s.elements.erase e := by rw [hr]
  have hnm : (s.remove H (s.names e.id) e.cls).names = s.names := by rw [hr]
  have hno : ¬ IsMember (s.remove H (s.names e.id) e.cls) e.id := by
    rintro ⟨x, hx, hxe⟩
    rw [hel] at hx
    exact erase_other hone hmem x hx hxe
  have h2 := Calm.rename e.id m (Calm.remove (s.names e.id) e.cls h) hno
  have h3 := Calm.add (H := H) e h2
  have hname : ((s.remove H (s.names e.id) e.cls).rename e.id m).names e.id = m := if_pos rfl
  have hempty : membersNamed H ((s.remove H (s.names e.id) e.cls).rename e.id m) m e.cls = [] := by
    refine List.filter_eq_nil_iff.2 fun x hx hp => ?_
    have hx1 : x ∈ (s.remove H (s.names e.id) e.cls).elements := hx
    have hxi : x.id ≠ e.id := fun h' => hno ⟨x, hx1, h'⟩
    have hn : ((s.remove H (s.names e.id) e.cls).rename e.id m).names x.id = s.names x.id := by
      show (if x.id = e.id then m else _) = _
      rw [if_neg hxi, hnm]
    rw [hn] at hp
    have hx2 : x ∈ s.elements := by rw [hel] at hx1; exact List.mem_of_mem_erase hx1
    have : x ∈ membersNamed H s m e.cls := List.mem_filter.2 ⟨hx2, hp⟩
    rw [hm] at this
    cases this
  have hx : ((s.remove H (s.names e.id) e.cls).rename e.id m).exists? H m e.cls = false :=
    Bool.eq_false_iff.2 fun h' => (C72_lookup_partial _ h2 m e.cls).2.1 h' hempty
  have hadd : (((s.remove H (s.names e.id) e.cls).rename e.id m).add H e).elements = s.elements.erase e ++ [e] := by
    unfold Reg.add; rw [hname, hx, ← hel]; rfl
  have hnames : (((s.remove H (s.names e.id) e.cls).rename e.id m).add H e).names
      = ((s.remove H (s.names e.id) e.cls).rename e.id m).names := by
    unfold Reg.add; split <;> rfl
  refine ⟨h3, ?_, hadd⟩
  rw [(C72_lookup_partial _ h3 m e.cls).1]
  unfold membersNamed at hempty ⊢
  rw [hadd, hnames, List.filter_append, show s.elements.erase e = ((s.remove H (s.names e.id) e.cls).rename e.id m).elements from hel.symm, hempty]
  simp [hname, H.refl]

/-! ## any history -/

/-- what the index and the list of members have to do with the record -/
structure Recs (s : Reg) (r : Record) : Prop where
  index : ∀ n, (s.index n).getD [] = (r.filter fun p => p.1 == n).map Prod.snd
  elements : s.elements.Perm (r.map Prod.snd)

theorem added_head {s : Reg} {r : Record} (h : Recs s r) (n : String) (t : Nat) : s.get H n t = (addedUnder H r n t).map Prod.snd := by
  unfold Reg.get addedUnder
  rw [h.index n, List.head?_filter, List.find?_map, List.find?_filter]
  refine congrArg (fun f => Option.map Prod.snd (List.find? f r)) (funext fun a => ?_)
  simp [Reg.inst]
  rfl

theorem added_exists {s : Reg} {r : Record} (h : Recs s r) (n : String) (t : Nat) : s.exists? H n t = (addedUnder H r n t).isSome := by
  have h1 := added_head (H := H) h n t
  unfold Reg.get at h1
  unfold Reg.exists?
  rw [← List.isSome_find?, ← List.head?_filter, h1, Option.isSome_map]

theorem rename_recs {s : Reg} {r : Record} (h : Recs s r) (i : Nat) (n : String) : Recs (s.rename i n) r := ⟨h.index, h.elements⟩

theorem add_recs {s : Reg} {r : Record} (h : Recs s r) (e : Ident) :
    Recs (s.add H e) (if (addedUnder H r (s.names e.id) e.cls).isSome then r else r ++ [(s.names e.id, e)]) := by
  unfold Reg.add
  rw [added_exists h]
  split
  · exact h
  · refine ⟨fun n => ?_, ?_⟩
    · show (if n = s.names e.id then some ((s.index n).getD [] ++ [e]) else s.index n).getD [] = _
      rw [List.filter_append, List.map_append, ← h.index n]
      split
      · rename_i hn; subst hn; simp
      · rename_i hn
        have : (s.names e.id == n) = false := by simpa using fun h => hn h.symm
        simp [this]
    · rw [List.map_append]
      exact h.elements.append_right _

theorem erase_pair {r : Record} {p : String × Ident} (hp : p ∈ r) : (r.map Prod.snd).erase p.2 |>.Perm ((r.erase p).map Prod.snd) := by
  have h1 : r.Perm (p :: r.erase p) := List.perm_cons_erase hp
  have h2 : (r.map Prod.snd).Perm (p.2 :: (r.erase p).map Prod.snd) := h1.map _
  simpa using h2.erase p.2

theorem filter_erase_named {r : Record} {p : String × Ident} {n : String} (m : String) (hn : p.1 = n) :
    ((r.erase p).filter fun q => q.1 == m).map Prod.snd
      = if m = n then ((r.filter fun q => q.1 == m).map Prod.snd).erase p.2 else (r.filter fun q => q.1 == m).map Prod.snd := by
  induction r with
  | nil => simp
  | cons b r ih =>
    by_cases hb : b = p
    · subst hb
      rw [List.erase_cons_head]
      subst hn
      by_cases hm : m = b.1
      · subst hm; simp
      · have : (b.1 == m) = false := by simpa using fun h => hm h.symm
        simp [this, hm]
    · rw [List.erase_cons_tail (by simpa using hb)]
      by_cases hbm : b.1 = m
      · subst hbm
        simp only [List.filter_cons, beq_self_eq_true, if_true, List.map_cons, ih]
        split
        · rename_i hm
          have hne : b.2 ≠ p.2 := fun h => hb (Prod.ext (hm.trans hn.symm) h)
          rw [List.erase_cons_tail (by simpa using hne)]
        · rfl
      · have : (b.1 == m) = false := by simpa using hbm
        rw [List.filter_cons_of_neg (by simp [this]), List.filter_cons_of_neg (by simp [this]), ih]

theorem remove_recs {s : Reg} {r : Record} (h : Recs s r) (n : String) (t : Nat) :
    Recs (s.remove H n t) (match addedUnder H r n t with | none => r | some p => r.erase p) := by
  unfold Reg.remove
  rw [added_head h]
  cases hp : addedUnder H r n t with
  | none => exact h
  | some p =>
    have hmem : p ∈ r := List.mem_of_find?_eq_some hp
    have hn : p.1 = n := by
      have := List.find?_some hp
      simp at this
      exact this.1
    refine ⟨fun m => ?_, ?_⟩
    · show (if m = n then (s.index m).map (·.erase p.2) else s.index m).getD [] = _
      rw [filter_erase_named m hn, ← h.index m]
      split
      · cases s.index m <;> simp
      · rfl
    · exact (h.elements.erase p.2).trans (erase_pair hmem)

theorem recorded_recs {s : Reg} {r : Record} (h : Recorded H s r) : Recs s r := by
  induction h with
  | new => exact ⟨fun n => rfl, .refl _⟩
  | add e _ ih => exact add_recs ih e
  | @create s r n t f _ ih =>
    unfold Reg.create
    rw [added_exists ih]
    split
    · exact ih
    · rename_i hx
      have := add_recs (H := H) (rename_recs ih f n) ⟨f, t⟩
      rw [show (s.rename f n).names (Ident.id ⟨f, t⟩) = n from if_pos rfl, if_neg hx] at this
      exact this
  | remove n t _ ih => exact remove_recs ih n t
  | rename i n _ ih => exact rename_recs ih i n

/-- **C72** Whatever is renamed and when: what is found under a name is the first object that was *added* under this name and is of the type (the
name it has now does not matter), and the members are the objects that were added and not removed. -/
theorem C72_history (s : Reg) (r : Record) (h : Recorded H s r) (n : String) (t : Nat) :
    s.get H n t = (addedUnder H r n t).map Prod.snd ∧ (s.exists? H n t = true ↔ ∃ p ∈ r, p.1 = n ∧ H.sub p.2.cls t = true) ∧
    s.elements.Perm (r.map Prod.snd) := by
  have hr := recorded_recs h
  refine ⟨added_head hr n t, ?_, hr.elements⟩
  rw [added_exists hr, addedUnder, List.find?_isSome]
  simp

/-! ## concrete cases -/

/-- three classes, the second derived from the first -/
def renameHier : Hier where
  sub a b := a == b || (a == 1 && b == 0)
  refl a := by simp
  trans a b c h1 h2 := by simp at *; omega

/-- the objects 0, 1, ... are created as signals `A` (class 0) and `B` (class 1) -/
def renameReg : Reg := (((Reg.new fun _ => "").create renameHier "A" 0 0).create renameHier "B" 1 1)

theorem renameReg_calm : Calm renameHier renameReg :=
  .create _ _ _ (.create _ _ _ (.new _) (by rintro ⟨e, he, _⟩; cases he)) (by
    rintro ⟨e, he, hi⟩
    have : ∀ x ∈ ((Reg.new fun _ => "").create renameHier "A" 0 0).elements, x.id ≠ 1 := by decide
    exact this e he hi)

example : (renameReg.elements, renameReg.get renameHier "B" 0, renameReg.get renameHier "A" 1) = ([⟨0, 0⟩, ⟨1, 1⟩], some ⟨1, 1⟩, none) := by decide

/-- `B` is renamed to `C`, added again under the new name, and removed under it: it is found under the old name -/
example : ∃ s, Recorded renameHier s [("A", ⟨0, 0⟩), ("B", ⟨1, 1⟩)] ∧ s.names 1 = "C" ∧ s.get renameHier "B" 1 = some ⟨1, 1⟩ ∧ s.get renameHier "C" 1 = none :=
  ⟨_, .remove "C" 1 (.add ⟨1, 1⟩ (.rename 1 "C" (.create "B" 1 1 (.create "A" 0 0 (.new fun _ => ""))))), by decide, by decide, by decide⟩

/-- the hypotheses of `C72_stale_broken` and `C72_repair` are met by renaming `B` to `C` -/
example : renameReg.get renameHier (renameReg.names 1) 1 = some ⟨1, 1⟩ ∧ (∀ x ∈ renameReg.elements, renameReg.names x.id ≠ "C") ∧
    renameReg.elements.Pairwise (fun a b => a.id ≠ b.id) ∧ membersNamed renameHier renameReg "C" 1 = [] := by decide

/-- renaming `B` to `C`, and removing, renaming and adding -/
example : (renameReg.rename 1 "C").get renameHier "C" 1 = none ∧ (renameReg.rename 1 "C").get renameHier "B" 1 = some ⟨1, 1⟩ ∧
    (((renameReg.remove renameHier "B" 1).rename 1 "C").add renameHier ⟨1, 1⟩).get renameHier "C" 1 = some ⟨1, 1⟩ := by decide

end Verif.Props
