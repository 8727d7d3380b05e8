import Verif.Lemmas.Tree
import Verif.Spec.Listing
import Mathlib.Data.List.Nodup
namespace Verif.Lemmas
open Verif.Model Verif.Model.Coll Verif.Model.World Verif.Spec

/-! ## Listings -/

theorem mem_listing {H : Hier} {l : ListRow} {o : Owner} {a : Elem} :
    a ∈ o.listing H l ↔ a ∈ o.listed l ∧ l.takes H a.cls = true := by
  unfold Owner.listing
  split
  · rw [(sortBy_perm _ _).mem_iff, List.mem_filter]
  · rw [List.mem_filter]

theorem listing_perm (H : Hier) (l : ListRow) (o : Owner) :
    (o.listing H l).Perm ((o.listed l).filter fun a => l.takes H a.cls) := by
  unfold Owner.listing
  split
  · exact sortBy_perm _ _
  · exact List.Perm.refl _

/-- what `getElement` returns is a member -/
theorem getElement_mem {H : Hier} {c : Coll} (h : Inv c) {n : String} {t : Option Nat} {a : Elem}
    (hg : c.getElement H n t = .ok (some a)) : a ∈ c.elements ∧ a.name = n := by
  unfold Coll.getElement at hg
  cases hs : c.slot n with
  | none => rw [hs] at hg; cases hg
  | some l =>
    rw [hs] at hg
    have hl := slot_some h hs
    have key : a ∈ l := by
      cases t with
      | none =>
        cases l with
        | nil => cases hg
        | cons b r => cases hg; simp
      | some t =>
        simp only at hg
        cases hf : l.filter (inst H t) with
        | nil => rw [hf] at hg; cases hg
        | cons b r =>
          rw [hf] at hg
          cases hg
          exact List.mem_of_mem_filter (p := inst H t) (by rw [hf]; simp)
    rw [hl] at key
    simpa using key

/-- The members a class lets pass are in the list of their own as well. -/
def Kept (H : Hier) (l : ListRow) (o : Owner) : Prop := ∀ a ∈ o.coll.elements, l.takes H a.cls = true → a ∈ o.listed l

theorem kept_create {H : Hier} {l : ListRow} {r : CreateRow} (hl : l.attr ≠ k!"elements")
    (hr : l.takes H r.target = true → r.pattern.store = .list ∧ r.attr = l.attr) {o : Owner} (h : Kept H l o) (n : String)
    (f : Nat) : Kept H l (o.create H r n f) := by
  intro a ha ht
  simp only [Owner.listed, if_neg hl]
  have hold : ∀ b ∈ o.lists l.attr, b ∈ (o.create H r n f).lists l.attr := by
    intro b hb
    unfold Owner.create
    split
    · simp only [Owner.record]
      cases r.pattern.store with
      | list =>
        simp only
        split
        · exact List.mem_append_left _ hb
        · exact hb
      | _ => exact hb
    · exact hb
  have hk : ∀ b ∈ o.coll.elements, l.takes H b.cls = true → b ∈ (o.create H r n f).lists l.attr := by
    intro b hb htb
    have := h b hb htb
    simp only [Owner.listed, if_neg hl] at this
    exact hold b this
  unfold Owner.create at ha
  split at ha
  · rename_i hc
    simp only [Owner.record] at ha
    split at ha
    · unfold Coll.addElement at ha
      split at ha
      · exact hk a ha ht
      · rcases List.mem_append.1 ha with ha | ha
        · exact hk a ha ht
        · rw [List.mem_singleton] at ha
          subst ha
          obtain ⟨h1, h2⟩ := hr ht
          simp [Owner.create, hc, Owner.record, h1, h2]
    · exact hk a ha ht
  · exact hk a ha ht

theorem kept_run {H : Hier} {l : ListRow} (hl : l.attr ≠ k!"elements") {ops : List Owner.Op}
    (hops : ∀ op ∈ ops, match op with
      | .create r _ _ => l.takes H r.target = true → r.pattern.store = .list ∧ r.attr = l.attr
      | .add _ => False
      | .remove _ _ => True) : Kept H l (Owner.run H ops) := by
  have key : ∀ o : Owner, Kept H l o → Kept H l (ops.foldl (Owner.step H) o) := by
    induction ops with
    | nil => intro o h; exact h
    | cons op ops ih =>
      intro o h
      refine ih (fun x hx => hops x (List.mem_cons_of_mem _ hx)) _ ?_
      have := hops op (by simp)
      cases op with
      | create r n f => exact kept_create hl this h n f
      | add e => exact this.elim
      | remove n t =>
        simp only [Owner.step]
        split
        · rename_i c hc
          intro a ha ht
          have hsub : ∀ b ∈ c.elements, b ∈ o.coll.elements := by
            intro b hb
            unfold Coll.removeElement at hc
            split at hc
            · cases hc
            · simp only at hc
              split at hc
              · cases hc
              · cases hc
                exact List.mem_of_mem_erase hb
          have := h a (hsub a ha) ht
          simp only [Owner.listed, if_neg hl] at this ⊢
          exact this
        · exact h
  exact key _ (fun a ha => absurd ha (by simp [Owner.empty, Coll.empty]))

/-! ## The packages of a document -/

variable {w : World}

theorem mem_getARPackages {i j : Nat} : j ∈ w.getARPackages i ↔ Child w i j := by
  unfold World.getARPackages Child
  cases h : w.get i with
  | none => simp
  | some o =>
    simp only [List.mem_map, (sortBy_perm _ _).mem_iff]
    constructor
    · rintro ⟨⟨n, q⟩, hq, rfl⟩
      exact ⟨o, n, rfl, hq⟩
    · rintro ⟨_, n, h', hq⟩
      cases h'
      exact ⟨(n, j), hq, rfl⟩

theorem _root_.Verif.Spec.Child.parent (hw : WF w) {i j : Nat} (h : Child w i j) : ∃ o, w.get j = some o ∧ o.parent = i ∧ o.kind = .pkg := by
  obtain ⟨o, n, ho, hn⟩ := h
  obtain ⟨o', h1, h2, _, h4⟩ := hw.pk i o ho _ hn
  exact ⟨o', h1, h4, h2⟩

theorem _root_.Verif.Spec.Child.lt (hw : WF w) {i j : Nat} (h : Child w i j) : i < j ∧ j < w.next := by
  obtain ⟨o, h1, h2, h3⟩ := h.parent hw
  exact ⟨h2 ▸ hw.parent j o h1 (by simp [h3]), hw.lt h1⟩

theorem children_nodup (hw : WF w) (i : Nat) : (w.getARPackages i).Nodup := by
  unfold World.getARPackages
  cases h : w.get i with
  | none => simp
  | some o =>
    simp only
    have hp := (sortBy_perm (fun q : String × Nat => q.1) o.pkgs).map (·.2)
    rw [hp.nodup_iff]
    have hk := hw.keys i o h
    refine List.Nodup.map_on ?_ hk.of_map
    intro x hx y hy e
    obtain ⟨a, h1, _, h3, _⟩ := hw.pk i o h x hx
    obtain ⟨b, h1', _, h3', _⟩ := hw.pk i o h y hy
    rw [e] at h1
    rw [h1] at h1'
    cases h1'
    exact Prod.ext (h3.symm.trans h3') e

/-- `p` is `i` or inside it, `n` levels down -/
inductive Desc (w : World) : Nat → Nat → Nat → Prop
  | refl {i} : Desc w i 0 i
  | step {i j n p} : Child w i j → Desc w j n p → Desc w i (n + 1) p

theorem Desc.le (hw : WF w) {i n p : Nat} (h : Desc w i n p) : i ≤ p := by
  induction h with
  | refl => exact Nat.le_refl _
  | step h _ ih => exact Nat.le_trans (Nat.le_of_lt (h.lt hw).1) ih

theorem Desc.snoc {i n p q : Nat} (h : Desc w i n p) (hc : Child w p q) : Desc w i (n + 1) q := by
  induction h with
  | refl => exact .step hc .refl
  | step h _ ih => exact .step h (ih hc)

theorem Desc.split {i n p : Nat} (h : Desc w i n p) : (n = 0 ∧ p = i) ∨ ∃ m q, n = m + 1 ∧ Desc w i m q ∧ Child w q p := by
  induction h with
  | refl => exact .inl ⟨rfl, rfl⟩
  | @step i j n p hc _ ih =>
    rcases ih with ⟨rfl, rfl⟩ | ⟨m, q, rfl, h1, h2⟩
    · exact .inr ⟨0, i, rfl, .refl, hc⟩
    · exact .inr ⟨m + 1, q, rfl, .step hc h1, h2⟩

/-- the way up is unique -/
theorem Desc.unique (hw : WF w) {i j j' n n' p : Nat} (hj : Child w i j) (hj' : Child w i j') (h : Desc w j n p) (h' : Desc w j' n' p) :
    j = j' ∧ n = n' := by
  induction n generalizing p n' with
  | zero =>
    rcases h.split with ⟨_, rfl⟩ | ⟨m, _, hm, _⟩
    · rcases h'.split with ⟨rfl, rfl⟩ | ⟨m, q, rfl, h1, h2⟩
      · exact ⟨rfl, rfl⟩
      · obtain ⟨o, a1, a2, _⟩ := hj.parent hw
        obtain ⟨o', b1, b2, _⟩ := h2.parent hw
        rw [a1] at b1
        cases b1
        have := h1.le hw
        have := (hj'.lt hw).1
        omega
    · cases hm
  | succ n ih =>
    rcases h.split with ⟨hm, _⟩ | ⟨m, q, hm, h1, h2⟩
    · cases hm
    · cases hm
      obtain ⟨o, a1, a2, _⟩ := h2.parent hw
      rcases h'.split with ⟨rfl, rfl⟩ | ⟨m', q', rfl, h1', h2'⟩
      · obtain ⟨o', b1, b2, _⟩ := hj'.parent hw
        rw [a1] at b1
        cases b1
        have := h1.le hw
        have := (hj.lt hw).1
        omega
      · obtain ⟨o', b1, b2, _⟩ := h2'.parent hw
        rw [a1] at b1
        cases b1
        obtain rfl : q = q' := a2.symm.trans b2
        obtain ⟨e1, e2⟩ := ih h1 h1'
        exact ⟨e1, by rw [e2]⟩

theorem inDoc_iff {d n p : Nat} : InDoc w d n p ↔ ∃ j, Child w d j ∧ Desc w j n p := by
  constructor
  · intro h
    induction h with
    | top h => exact ⟨_, h, .refl⟩
    | sub _ hc ih =>
      obtain ⟨j, h1, h2⟩ := ih
      exact ⟨j, h1, h2.snoc hc⟩
  · rintro ⟨j, h1, h2⟩
    have key : ∀ {j n p m}, Desc w j n p → InDoc w d m j → InDoc w d (m + n) p := by
      intro j n p m h hm
      induction h generalizing m with
      | refl => exact hm
      | @step i j n p hc _ ih =>
        have := ih (.sub hm hc)
        rwa [show m + 1 + n = m + (n + 1) by omega] at this
    simpa using key h2 (.top h1)

/-! ## The analyzers -/

theorem collect_eq (hw : WF w) (H : Hier) (l : ListRow) (i : Nat) :
    w.collect H l i = (w.getARPackages i).flatMap (w.collect H l) ++ w.listing H l i := by
  rw [World.collect]
  congr 1
  refine List.flatMap_congr fun j hj => ?_
  rw [dif_pos ((mem_getARPackages.1 hj).lt hw)]

theorem shown_eq (hw : WF w) (i : Nat) :
    w.shown i = i :: ((w.getARPackages i).flatMap w.shown ++ (w.getARPackages i).flatMap w.shown) := by
  rw [World.shown]
  have : ((w.getARPackages i).flatMap fun j => if _h : i < j ∧ j < w.next then w.shown j else []) = (w.getARPackages i).flatMap w.shown :=
    List.flatMap_congr fun j hj => by rw [dif_pos ((mem_getARPackages.1 hj).lt hw)]
  rw [this]

/-- induction over the packages, from the inside -/
theorem packages_induction (hw : WF w) {P : Nat → Prop} (h : ∀ i, (∀ j, Child w i j → P j) → P i) (i : Nat) : P i := by
  have key : ∀ m i, w.next - i ≤ m → P i := by
    intro m
    induction m with
    | zero =>
      intro i hi
      refine h i fun j hj => ?_
      have := hj.lt hw
      omega
    | succ m ih =>
      intro i hi
      refine h i fun j hj => ih j ?_
      have := hj.lt hw
      omega
  exact key _ i (Nat.le_refl _)

theorem mem_wlisting {H : Hier} {l : ListRow} (hl : l.attr = k!"elements") {i : Nat} {e : Elem} :
    e ∈ w.listing H l i ↔ Member w i e ∧ l.takes H e.cls = true := by
  unfold World.listing Member
  cases h : w.get i with
  | none => simp
  | some o => simp [mem_listing, Owner.listed, hl]

theorem mem_collect (hw : WF w) {H : Hier} {l : ListRow} (hl : l.attr = k!"elements") {e : Elem} : ∀ i,
    e ∈ w.collect H l i ↔ ∃ n p, Desc w i n p ∧ Member w p e ∧ l.takes H e.cls = true := by
  refine packages_induction hw fun i ih => ?_
  rw [collect_eq hw, List.mem_append, mem_wlisting hl, List.mem_flatMap]
  constructor
  · rintro (⟨j, hj, h⟩ | h)
    · have hj := mem_getARPackages.1 hj
      obtain ⟨n, p, h1, h2⟩ := (ih j hj).1 h
      exact ⟨n + 1, p, .step hj h1, h2⟩
    · exact ⟨0, i, .refl, h⟩
  · rintro ⟨n, p, h1, h2⟩
    cases h1 with
    | refl => exact .inr h2
    | @step _ j n _ hc h1 => exact .inl ⟨j, mem_getARPackages.2 hc, (ih j hc).2 ⟨n, p, h1, h2⟩⟩

/-- an element has one owner -/
theorem _root_.Verif.Spec.Member.unique (hw : WF w) {p q : Nat} {e : Elem} (hp : Member w p e) (hq : Member w q e) : p = q := by
  obtain ⟨o, h1, h2⟩ := hp
  obtain ⟨o', h1', h2'⟩ := hq
  obtain ⟨a, a1, _, _, _, a5⟩ := hw.mem p o h1 e h2
  obtain ⟨b, b1, _, _, _, b5⟩ := hw.mem q o' h1' e h2'
  rw [a1] at b1
  cases b1
  exact a5.symm.trans b5

theorem wlisting_nodup (hw : WF w) (H : Hier) {l : ListRow} (hl : l.attr = k!"elements") (i : Nat) : (w.listing H l i).Nodup := by
  unfold World.listing
  cases h : w.get i with
  | none => exact List.nodup_nil
  | some o =>
    simp only
    rw [(listing_perm H l o.own).nodup_iff]
    simp only [Owner.listed, if_pos hl]
    exact ((hw.inv i o h).nodup).filter _

theorem flat_nodup (hw : WF w) (H : Hier) {l : ListRow} (hl : l.attr = k!"elements") (i : Nat)
    (ih : ∀ j, Child w i j → (w.collect H l j).Nodup) : ((w.getARPackages i).flatMap (w.collect H l)).Nodup := by
  rw [List.nodup_flatMap]
  refine ⟨fun j hj => ih j (mem_getARPackages.1 hj), ?_⟩
  refine (children_nodup hw i).imp_of_mem fun {a b} ha hb hne => ?_
  intro e h1 h2
  obtain ⟨n, p, d1, m1, _⟩ := (mem_collect hw hl a).1 h1
  obtain ⟨n', p', d2, m2, _⟩ := (mem_collect hw hl b).1 h2
  obtain rfl := m1.unique hw m2
  exact hne (Desc.unique hw (mem_getARPackages.1 ha) (mem_getARPackages.1 hb) d1 d2).1

theorem collect_nodup (hw : WF w) (H : Hier) {l : ListRow} (hl : l.attr = k!"elements") : ∀ i, (w.collect H l i).Nodup := by
  refine packages_induction hw fun i ih => ?_
  rw [collect_eq hw, List.nodup_append']
  refine ⟨flat_nodup hw H hl i ih, wlisting_nodup hw H hl i, ?_⟩
  intro e h1 h2
  obtain ⟨j, hj, h1⟩ := List.mem_flatMap.1 h1
  obtain ⟨n, p, d1, m1, _⟩ := (mem_collect hw hl j).1 h1
  obtain rfl := m1.unique hw ((mem_wlisting hl).1 h2).1
  have := d1.le hw
  have := ((mem_getARPackages.1 hj).lt hw).1
  omega

/-! ## The dump -/

theorem count_flatMap_zero {l : List Nat} {f : Nat → List Nat} {p : Nat} (h : ∀ j ∈ l, (f j).count p = 0) : (l.flatMap f).count p = 0 := by
  induction l with
  | nil => rfl
  | cons a l ih =>
    rw [List.flatMap_cons, List.count_append, h a (by simp), ih fun j hj => h j (by simp [hj])]

theorem count_flatMap_one {l : List Nat} {f : Nat → List Nat} {p j : Nat} (hn : l.Nodup) (hj : j ∈ l)
    (h : ∀ k ∈ l, k ≠ j → (f k).count p = 0) : (l.flatMap f).count p = (f j).count p := by
  induction l with
  | nil => cases hj
  | cons a l ih =>
    rw [List.flatMap_cons, List.count_append]
    rw [List.nodup_cons] at hn
    rcases List.mem_cons.1 hj with rfl | hj
    · rw [count_flatMap_zero fun k hk => h k (by simp [hk]) (fun e => hn.1 (e ▸ hk))]
      rfl
    · rw [h a (by simp) (fun e => hn.1 (e ▸ hj)), ih hn.2 hj fun k hk => h k (by simp [hk]), Nat.zero_add]

theorem mem_shown (hw : WF w) {p : Nat} : ∀ i, p ∈ w.shown i → ∃ n, Desc w i n p := by
  refine packages_induction hw fun i ih h => ?_
  rw [shown_eq hw] at h
  rcases List.mem_cons.1 h with rfl | h
  · exact ⟨0, .refl⟩
  · rw [List.mem_append, or_self, List.mem_flatMap] at h
    obtain ⟨j, hj, h⟩ := h
    have hj := mem_getARPackages.1 hj
    obtain ⟨n, h⟩ := ih j hj h
    exact ⟨n + 1, .step hj h⟩

theorem count_children (hw : WF w) {i j n p : Nat} (hj : Child w i j) (h : Desc w j n p) :
    ((w.getARPackages i).flatMap w.shown).count p = (w.shown j).count p := by
  refine count_flatMap_one (children_nodup hw i) (mem_getARPackages.2 hj) fun k hk hne => ?_
  refine List.count_eq_zero.2 fun hm => ?_
  obtain ⟨m, hd⟩ := mem_shown hw k hm
  exact hne (Desc.unique hw (mem_getARPackages.1 hk) hj hd h).1

theorem count_shown (hw : WF w) {i n p : Nat} (h : Desc w i n p) : (w.shown i).count p = 2 ^ n := by
  induction h with
  | @refl i =>
    rw [shown_eq hw, List.count_cons_self, List.count_append]
    have h0 : ((w.getARPackages i).flatMap w.shown).count i = 0 := by
      refine count_flatMap_zero fun j hj => List.count_eq_zero.2 fun hm => ?_
      obtain ⟨n, hd⟩ := mem_shown hw j hm
      have := hd.le hw
      have := ((mem_getARPackages.1 hj).lt hw).1
      omega
    rw [h0, Nat.pow_zero]
  | @step i j n p hc h ih =>
    have := h.le hw
    have := (hc.lt hw).1
    rw [shown_eq hw, List.count_cons_of_ne (by omega), List.count_append, count_children hw hc h, ih, Nat.pow_succ]
    omega

end Verif.Lemmas
