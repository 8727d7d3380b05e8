import Verif.Lemmas.InsertTable
import Verif.Lemmas.Carry
/-!
# Removing an element from a file: the file can still be loaded
-/
namespace Verif.Lemmas
open Verif Verif.Model Verif.Spec

/-- no element with this tag is asked for: no method needs such a child, and no list with such members must have one -/
def Spare (t : Key) : Prop := ∀ k b, readers k = some b → ∀ s ∈ b.slots, (∀ u er, s.item = .want u er → u ≠ 0 ∧ u ≠ t) ∧
  (s.req ≠ .no → keepsAll s = true → 0 ∉ listTags (tagFor k) s.path ∧ t ∉ listTags (tagFor k) s.path)

/-- what is checked for one slot of the method `k` -/
def slotSpares (k : Key) (s : RSlot) : Bool :=
  (match s.item with
    | .want t _ => t != 0 && (Gen.joiningTags.find? t).isNone
    | _ => true) &&
  (s.req == .no || !keepsAll s || (listTags (tagFor k) s.path).all fun u => u != 0 && (Gen.joiningTags.find? u).isNone)

set_option maxRecDepth 100000 in
theorem spares_table : (Gen.readTable.all fun k b => b.slots.all (slotSpares k)) = true := by decide +kernel

theorem spares_load : loadBody.slots.all (slotSpares k!"load") = true := by decide +kernel

theorem spares_slot {k : Key} {b : RBody} (hb : readers k = some b) {s : RSlot} (hs : s ∈ b.slots) : slotSpares k s = true := by
  unfold readers at hb
  split at hb
  · rename_i hk; subst hk; cases hb; exact List.all_eq_true.1 spares_load s hs
  · exact List.all_eq_true.1 ((Bst.all_toList _ _).1 spares_table _ (Bst.find?_mem hb)) s hs

theorem joining_of {t : Key} (h : ListTag t) (ht : t ∉ otherWays) : (Gen.joiningTags.find? t).isSome = true := by
  obtain ⟨k, b, s, alts, k', hb, hs, hi, ha, hl, hp⟩ := h
  have h1 := joins_slot hb hs
  simp only [slotJoins, hi, Bool.and_eq_true, List.all_eq_true] at h1
  have h2 := (h1.2 _ ha).1
  simp only [hl, hp, Bool.or_eq_true, Bool.false_or, Bool.not_true] at h2
  exact h2.resolve_left fun h => ht (List.contains_iff_mem.1 h)

theorem spare_of {t : Key} (h : ListTag t) (ht : t ∉ otherWays) : Spare t := by
  have hj := joining_of h ht
  have hno : ∀ u, (Gen.joiningTags.find? u).isNone = true → u ≠ t := by
    rintro u hu rfl
    rw [Option.isNone_iff_eq_none] at hu
    rw [hu] at hj; cases hj
  intro k b hb s hs
  have h1 := spares_slot hb hs
  simp only [slotSpares, Bool.and_eq_true] at h1
  refine ⟨fun u er hi => ?_, fun hr hk => ?_⟩
  · have h2 := h1.1
    rw [hi] at h2
    simp only [Bool.and_eq_true, bne_iff_ne] at h2
    exact ⟨h2.1, hno _ h2.2⟩
  · have h2 := h1.2
    simp only [hk, Bool.or_eq_true, beq_iff_eq, hr, false_or, Bool.not_true, Bool.false_eq_true, List.all_eq_true, Bool.and_eq_true, bne_iff_ne] at h2
    exact ⟨fun h0 => (h2 _ h0).1 rfl, fun h0 => hno _ (h2 _ h0).2 rfl⟩

section
variable {α β γ δ : Type} {R : α → β → Prop} {A : β → Prop}

theorem mapE_less {ε : Type} {S : γ → δ → Prop} {B : δ → Prop} {f : α → Except ε γ} {g : β → Except ε δ}
    (hR : ∀ a b y, R a b → g b = .ok y → ∃ x, f a = .ok x ∧ S x y) (hA : ∀ b y, A b → g b = .ok y → B y) {l : List α} {m : List β} (h : Grown R A l m)
    {ys : List δ} (h2 : mapE g m = .ok ys) : ∃ xs, mapE f l = .ok xs ∧ Grown S B xs ys := by
  induction h generalizing ys with
  | nil => cases h2; exact ⟨[], rfl, .nil⟩
  | @keep a b l m hab _ ih =>
    unfold mapE at h2
    cases hy : g b with
    | error e => rw [hy] at h2; cases h2
    | ok y =>
      rw [hy] at h2
      simp only at h2
      split at h2
      · cases h2
      · rename_i ys' hys
        cases h2
        obtain ⟨x, hx, hS⟩ := hR a b y hab hy
        obtain ⟨xs, hxs, hg⟩ := ih hys
        exact ⟨x :: xs, by unfold mapE; rw [hx, hxs], .keep hS hg⟩
  | @add b l m hb _ ih =>
    unfold mapE at h2
    cases hy : g b with
    | error e => rw [hy] at h2; cases h2
    | ok y =>
      rw [hy] at h2
      simp only at h2
      split at h2
      · cases h2
      · rename_i ys' hys
        cases h2
        obtain ⟨xs, hxs, hg⟩ := ih hys
        exact ⟨xs, hxs, .add (hA b y hb hy) hg⟩

theorem grown_length {l : List α} {m : List β} (h : Grown R A l m) : l.length ≤ m.length := by
  induction h with
  | nil => exact Nat.le_refl _
  | keep _ _ ih => simpa using ih
  | add _ _ ih => exact Nat.le_succ_of_le ih

theorem grown_sub {f : α → γ} {g : β → γ} (hR : ∀ a b, R a b → f a = g b) {l : List α} {m : List β} (h : Grown R A l m) :
    (l.map f).Sublist (m.map g) := by
  induction h with
  | nil => exact .slnil
  | keep h1 _ ih => simp only [List.map_cons, hR _ _ h1]; exact .cons_cons _ ih
  | add _ _ ih => exact .cons _ ih

end

section
variable {F : Type}

/-- two objects with the same name -/
def Same (v v' : MObj F) : Prop := v.name = v'.name

theorem get_grown {ks : List (Key × Bool)} {vs vs' : List (List (MObj F))} (f : Key) (h : List.Forall₂ (Grown Same (fun _ => True)) vs vs') :
    Grown Same (fun _ => True) ((ks.zip vs).flatMap fun e => if hits f e.1 then e.2 else []) ((ks.zip vs').flatMap fun e => if hits f e.1 then e.2 else []) := by
  induction h generalizing ks with
  | nil => cases ks <;> exact .nil
  | cons h1 _ ih => cases ks with
    | nil => exact .nil
    | cons k ks =>
      simp only [List.zip_cons_cons, List.flatMap_cons]
      refine grown_append ?_ ih
      split
      · exact h1
      · exact .nil

theorem namesOk_less {slots : List RSlot} {c : Key} {ks : List (Key × Bool)} {vs vs' : List (List (MObj F))}
    (h : List.Forall₂ (Grown Same (fun _ => True)) vs vs') (hn : namesOk slots (.mk c (ks.zip vs')) = true) : namesOk slots (.mk c (ks.zip vs)) = true := by
  simp only [namesOk, List.all_eq_true, Bool.and_eq_true, Bool.or_eq_true, Bool.not_eq_true', decide_eq_true_eq] at hn ⊢
  intro s hs
  obtain ⟨h1, h2⟩ := hn s hs
  refine ⟨h1.imp_right fun h1 => ?_, h2.imp_right fun h2 => ?_⟩
  · exact (grown_sub (fun a b hab => hab) (get_grown _ h)).nodup h1
  · rw [Nat.ble_eq] at h2 ⊢; exact (grown_length (get_grown _ h)).trans h2

end

section
variable {py : Py} {strict : Bool} {e : Xml}

theorem readSlot_mk {rd : Key → Xml → Except RErr (MObj py.F)} {x : Xml} {s : RSlot} {ls : List (List (MObj py.F))}
    (h : mapE (readItem py strict rd s.item) (select s.path x) = .ok ls)
    (hr : (if s.last then keepLast ls.flatten else ls.flatten) = [] → s.req ≠ .always ∧ (s.req = .strict → strict = false)) :
    readSlot py strict rd x s = .ok (if s.last then keepLast ls.flatten else ls.flatten) := by
  simp only [readSlot, h]
  generalize (if s.last then keepLast ls.flatten else ls.flatten) = us at hr ⊢
  cases us with
  | nil =>
    obtain ⟨h1, h2⟩ := hr rfl
    cases hq : s.req with
    | no => rfl
    | always => exact absurd hq h1
    | strict => simp [h2 hq]
  | cons u us => cases s.req <;> rfl

theorem readItem_less {i : Item} {rd rd' : Key → Xml → Except RErr (MObj py.F)}
    (halt : ∀ alts, i = .objs alts → ∀ a ∈ alts, tagFor a.2 ∈ singles → a.1 ∈ singles)
    (hwant : ∀ u er, i = .want u er → u ≠ 0 ∧ u ≠ e.tag)
    (hrd : ∀ k y y' v', KinAt e (tagFor k) y y' → rd' k y' = .ok v' → ∃ v, rd k y = .ok v ∧ Same v v')
    {y y' : Xml} (hl : Kin e y y') {vs' : List (MObj py.F)} (h2 : readItem py strict rd' i y' = .ok vs') :
    ∃ vs, readItem py strict rd i y = .ok vs ∧ List.Forall₂ Same vs vs' ∧ (i = .name → vs = vs') := by
  have refl : ∀ vs : List (MObj py.F), List.Forall₂ Same vs vs := fun vs => forall₂_same _ fun v _ => rfl
  cases i with
  | prim k =>
    have : readKind py k y = readKind py k y' := by
      obtain ⟨t, as, s, ks⟩ := y
      obtain ⟨t', as', s', ks'⟩ := y'
      obtain ⟨q1, q2, q3, _⟩ := hl
      simp only [Xml.tag, Xml.attrs, Xml.text] at q1 q2 q3
      subst q1 q2 q3
      cases k <;> rfl
    simp only [readItem] at h2 ⊢
    rw [this]
    exact ⟨vs', h2, refl _, fun _ => rfl⟩
  | attr n k =>
    simp only [readItem, Xml.attr, hl.attrs] at h2 ⊢
    exact ⟨vs', h2, refl _, fun _ => rfl⟩
  | name =>
    simp only [readItem, hl.text] at h2 ⊢
    exact ⟨vs', h2, refl _, fun _ => rfl⟩
  | objs alts =>
    simp only [readItem, ← hl.tag] at h2 ⊢
    split at h2
    · rename_i ha; cases h2; exact ⟨[], rfl, .nil, nofun⟩
    · rename_i k ha
      split at h2
      · cases h2
      · rename_i v' hv'
        cases h2
        obtain ⟨v, hv, hs⟩ := hrd k y y' v' ⟨hl, halt alts rfl _ (alt_listed ha)⟩ hv'
        exact ⟨[v], by simp only [hv], .cons hs .nil, nofun⟩
  | guard tags g =>
    simp only [readItem, ← hl.tag] at h2 ⊢
    exact ⟨vs', h2, refl _, fun _ => rfl⟩
  | want u er =>
    obtain ⟨h0, ht⟩ := hwant u er rfl
    simp only [readItem] at h2 ⊢
    split at h2
    · rename_i ha
      have : y.kids.any (tagIs u) = true := by
        obtain ⟨z, hz, hu⟩ := List.any_eq_true.1 ha
        have hg := grown_none (grown_filter (q := tagIs u) hl.kids fun a b hab => ins_tagIs u hab) (by
          rintro b hb ⟨rfl, _⟩
          have := (List.mem_filter.1 hb).2
          simp only [tagIs, Bool.or_eq_true, beq_iff_eq] at this
          rcases this with h | h
          · exact h0 h
          · exact ht h.symm)
        have hz' : z ∈ y'.kids.filter (tagIs u) := List.mem_filter.2 ⟨hz, hu⟩
        cases hf : y.kids.filter (tagIs u) with
        | nil => rw [hf] at hg; cases hg' : y'.kids.filter (tagIs u) with
          | nil => rw [hg'] at hz'; cases hz'
          | cons b m => rw [hg'] at hg; cases hg
        | cons a l =>
          have : a ∈ y.kids.filter (tagIs u) := by rw [hf]; simp
          exact List.any_eq_true.2 ⟨a, (List.mem_filter.1 this).1, (List.mem_filter.1 this).2⟩
      rw [if_pos this]
      exact ⟨vs', h2, refl _, fun _ => rfl⟩
    · cases h2
  | crash er => cases h2

theorem read_removed (hw : Joins e.tag) (hq : Spare e.tag) (n : Nat) (k : Key) {x x' : Xml} (h : KinAt e (tagFor k) x x') {v' : MObj py.F}
    (h2 : readObj py strict readers n k x' = .ok v') : ∃ v, readObj py strict readers n k x = .ok v ∧ Same v v' := by
  induction n generalizing k x x' v' with
  | zero => cases h2
  | succ n ih =>
    simp only [readObj] at h2 ⊢
    cases hb : readers k with
    | none => rw [hb] at h2; cases h2
    | some b =>
      rw [hb] at h2
      simp only [readBody] at h2 ⊢
      split at h2
      · cases h2
      · rename_i vs' hvs'
        split at h2
        · rename_i hn
          cases h2
          have key : ∀ s s' ws', (s = s' ∧ s ∈ b.slots) → readSlot py strict (readObj py strict readers n) x' s' = .ok ws' →
              ∃ ws, readSlot py strict (readObj py strict readers n) x s = .ok ws ∧ Grown Same (fun _ => True) ws ws' ∧
                (s.item = .name → ws = ws') := by
            rintro s s' ws' ⟨rfl, hs⟩ g2
            obtain ⟨ls', f2, rfl, hr⟩ := readSlot_ok g2
            obtain ⟨w1, w0, wa⟩ := hw k b hb s hs
            obtain ⟨q1, q2⟩ := hq k b hb s hs
            simp only [disturbs, List.mem_append, not_or] at w1 w0
            have hsel := select_grown s.path h w0.1 w1.1
            have hkin : ∀ y y' us', Kin e y y' → readItem py strict (readObj py strict readers n) s.item y' = .ok us' →
                ∃ us, readItem py strict (readObj py strict readers n) s.item y = .ok us ∧ List.Forall₂ Same us us' ∧ (s.item = .name → us = us') :=
              fun y y' us' hy q => readItem_less wa q1 (fun k y y' v' hy hv' => ih k hy hv') hy q
            have flat : ∀ (hf : List.Forall₂ (Kin e) (select s.path x) (select s.path x')),
                ∃ ws, readSlot py strict (readObj py strict readers n) x s = .ok ws ∧
                  Grown Same (fun _ => True) ws (if s.last then keepLast ls'.flatten else ls'.flatten) ∧
                  (s.item = .name → ws = (if s.last then keepLast ls'.flatten else ls'.flatten)) := by
              intro hf
              obtain ⟨ls, f1, hg⟩ := mapE_less (A := fun _ => False) (B := fun _ => False) hkin (fun _ _ h => h.elim) (grown_of hf) f2
              have hg := grown_none hg (fun _ _ h => h)
              have hS : List.Forall₂ Same ls.flatten ls'.flatten := List.rel_flatten (hg.imp fun _ _ h => h.1)
              have hN : s.item = .name → ls = ls' := fun hi => by
                rw [← List.forall₂_eq_eq_eq]; exact hg.imp fun _ _ h => h.2 hi
              have hK : List.Forall₂ Same (if s.last then keepLast ls.flatten else ls.flatten) (if s.last then keepLast ls'.flatten else ls'.flatten) := by
                split
                · exact keepLast_rel hS
                · exact hS
              refine ⟨_, readSlot_mk f1 fun he => hr ?_, grown_of hK, fun hi => by rw [hN hi]⟩
              rw [he] at hK
              cases hc : (if s.last then keepLast ls'.flatten else ls'.flatten) with
              | nil => rfl
              | cons a l => rw [hc] at hK; cases hK
            cases ha : keepsAll s with
            | false =>
              rw [ha] at w1 w0
              exact flat (grown_none hsel (by rintro b _ ⟨_, h | h⟩; exact w1.2 h; exact w0.2 h))
            | true =>
              by_cases hreq : s.req = .no
              · have hl : s.last = false := by
                  cases hl : s.last with
                  | false => rfl
                  | true => simp [keepsAll, hl] at ha
                have hi : s.item ≠ .name := fun hi => by simp [keepsAll, hi] at ha
                obtain ⟨ls, f1, hg⟩ := mapE_less (B := fun _ => True) hkin (fun _ _ _ _ => trivial) hsel f2
                refine ⟨_, readSlot_mk f1 fun _ => by simp [hreq], ?_, fun h => absurd h hi⟩
                simp only [hl]
                exact grown_flatten (grown_mono hg (fun _ _ _ h => h.1) fun _ _ _ _ _ => trivial)
              · obtain ⟨z0, zt⟩ := q2 hreq ha
                exact flat (grown_none hsel (by rintro b _ ⟨_, h | h⟩; exact zt h; exact z0 h))
          have all : ∀ (l : List RSlot) (ws' : List (List (MObj py.F))), (∀ s ∈ l, s ∈ b.slots) →
              mapE (readSlot py strict (readObj py strict readers n) x') l = .ok ws' →
              ∃ ws, mapE (readSlot py strict (readObj py strict readers n) x) l = .ok ws ∧ List.Forall₂ (Grown Same (fun _ => True)) ws ws' ∧
                List.Forall₂ (fun k (p : List (MObj py.F) × List (MObj py.F)) => hits k!"short_name" k = true → p.1 = p.2)
                  (l.map RSlot.key) (ws.zip ws') := by
            intro l
            induction l with
            | nil => intro ws' _ g; cases g; exact ⟨[], rfl, .nil, .nil⟩
            | cons s l ihl =>
              intro ws' hm g
              unfold mapE at g
              split at g
              · cases g
              · rename_i w' hw'
                split at g
                · cases g
                · rename_i ws1 hws1
                  cases g
                  obtain ⟨w, g1, g2, g3⟩ := key s s w' ⟨rfl, hm s (by simp)⟩ hw'
                  obtain ⟨ws, f1, f2, f3⟩ := ihl ws1 (fun t ht => hm t (by simp [ht])) hws1
                  refine ⟨w :: ws, by unfold mapE; rw [g1, f1], .cons g2 f2, .cons (fun hk => g3 ?_) f3⟩
                  have hns := nameSlots_of hb (hm s (by simp))
                  simp only [nameSlots, hk, Bool.not_true, Bool.false_or, Bool.and_eq_true, beq_iff_eq] at hns
                  exact hns.1
          obtain ⟨vs, hvs, hg, hr⟩ := all b.slots vs' (fun s hs => hs) hvs'
          refine ⟨_, by rw [hvs]; simp only [namesOk_less hg hn, if_true]; rfl, ?_⟩
          have hg : (MObj.mk b.cls ((b.slots.map RSlot.key).zip vs) : MObj py.F).get k!"short_name" =
              (MObj.mk b.cls ((b.slots.map RSlot.key).zip vs')).get k!"short_name" := flat_same (f := k!"short_name") hr hg.length_eq
          unfold Same MObj.name
          rw [hg]
        · cases h2

theorem load_removed (hw : Joins e.tag) (hq : Spare e.tag) {x x' : Xml} (h : Inserted e x x') {d' : MObj py.F}
    (h2 : load py strict x' = .ok d') : ∃ d, load py strict x = .ok d := by
  unfold load at h2 ⊢
  split at h2
  · cases h2
  · rename_i hc
    rw [(ins_kin h).tag, if_neg hc]
    have h3 := readObj_mono (Nat.le_max_right x.depth x'.depth) h2
    obtain ⟨d, h4, _⟩ := read_removed hw hq _ k!"load" ⟨ins_kin h, fun h => absurd h (by decide)⟩ h3
    exact ⟨d, by rw [← h4]; exact readObj_stable moving (Nat.le_refl _) (Nat.le_max_left _ _)⟩

end

end Verif.Lemmas
