import Verif.Model.Calls
import Verif.Spec.Uuid
import Verif.Lemmas.Fuel
/-!
# Every element is registered at most once
-/
namespace Verif.Lemmas
open Verif Verif.Model Verif.Gen Verif.Spec

/-! ## sums -/

/-- the sum of a function over a list -/
def sumOf {α : Type} (g : α → Nat) : List α → Nat
  | [] => 0
  | a :: l => g a + sumOf g l

theorem sumOf_append {α : Type} {g : α → Nat} {l r : List α} : sumOf g (l ++ r) = sumOf g l + sumOf g r := by
  induction l with
  | nil => simp [sumOf]
  | cons a l ih => simp only [List.cons_append, sumOf, ih]; omega

theorem sumOf_flatMap {α β : Type} {g : β → Nat} {f : α → List β} {l : List α} : sumOf g (l.flatMap f) = sumOf (fun a => sumOf g (f a)) l := by
  induction l with
  | nil => rfl
  | cons a l ih => rw [List.flatMap_cons, sumOf_append, ih]; rfl

theorem sumOf_le {α : Type} {g h : α → Nat} {l : List α} (H : ∀ a ∈ l, g a ≤ h a) : sumOf g l ≤ sumOf h l := by
  induction l with
  | nil => exact Nat.le_refl _
  | cons a l ih =>
    have h1 := H a (by simp)
    have h2 := ih fun b hb => H b (by simp [hb])
    simp only [sumOf]; omega

theorem sumOf_mem {α : Type} {g : α → Nat} {l : List α} {a : α} (h : a ∈ l) : g a ≤ sumOf g l := by
  induction l with
  | nil => cases h
  | cons b l ih =>
    simp only [sumOf]
    rcases List.mem_cons.1 h with rfl | h
    · omega
    · have := ih h; omega

theorem sumOf_filter {α : Type} {g : α → Nat} {p : α → Bool} {l : List α} : sumOf g (l.filter p) = sumOf (fun a => if p a then g a else 0) l := by
  induction l with
  | nil => rfl
  | cons a l ih =>
    rw [List.filter_cons]
    split
    · rename_i hp; simp only [sumOf, ih, hp, if_true]
    · rename_i hp; simp only [sumOf, ih, hp]; simp

theorem sumOf_add {α : Type} {g h : α → Nat} {l : List α} : sumOf (fun a => g a + h a) l = sumOf g l + sumOf h l := by
  induction l with
  | nil => rfl
  | cons a l ih => simp only [sumOf, ih]; omega

theorem sumOf_zero {α : Type} {l : List α} : sumOf (fun _ => 0) l = 0 := by
  induction l with
  | nil => rfl
  | cons a l ih => simp only [sumOf, ih]

theorem sumOf_map {α β : Type} {g : β → Nat} {f : α → β} {l : List α} : sumOf g (l.map f) = sumOf (fun a => g (f a)) l := by
  induction l with
  | nil => rfl
  | cons a l ih => simp only [List.map_cons, sumOf, ih]

/-! ## the elements with a UUID -/

/-- has the element this UUID itself -/
def ownUuid (u : Str) (x : Xml) : Nat := if x.attr k!"UUID" = some u then 1 else 0

mutual
/-- the number of elements with a UUID -/
def uuids (u : Str) : Xml → Nat
  | .node t as s ks => ownUuid u (.node t as s ks) + uuidsL u ks
def uuidsL (u : Str) : List Xml → Nat
  | [] => 0
  | x :: l => uuids u x + uuidsL u l
end

theorem uuidsL_eq {u : Str} {l : List Xml} : uuidsL u l = sumOf (uuids u) l := by
  induction l with
  | nil => rfl
  | cons x l ih => simp only [uuidsL, sumOf, ih]

theorem uuids_eq {u : Str} {x : Xml} : uuids u x = ownUuid u x + sumOf (uuids u) x.kids := by
  cases x with
  | node t as s ks => simp only [uuids, uuidsL_eq, Xml.kids]

/-! ## paths -/

/-- the tags a path goes along, for each branch -/
def tracks : Path → List (List Key)
  | .nil => [[]]
  | .all t r => (tracks r).map (t :: ·)
  | .first ts r => (tracks r).map (ts ++ ·)
  | .pick ts r => ts.flatMap fun t => (tracks r).map (t :: ·)
  | .need _ r => tracks r
  | .lack _ r => tracks r
  | .alt p q => tracks p ++ tracks q

theorem walk_cat {ts rs : List Key} {x : Xml} : walk (ts ++ rs) x = (walk ts x).flatMap (walk rs) := by
  induction ts generalizing x with
  | nil => simp [walk]
  | cons t ts ih =>
    simp only [List.cons_append, walk, List.flatMap_assoc]
    exact congrArg (fun f => List.flatMap f (x.kids.filter (tagIs t))) (funext fun y => ih)

/-- the elements that branches lead to -/
def along (g : Xml → Nat) (x : Xml) (ts : List Key) : Nat := sumOf g (walk ts x)

theorem sumOf_swap {α β : Type} {f : α → β → Nat} {l : List α} {r : List β} :
    sumOf (fun a => sumOf (f a) r) l = sumOf (fun b => sumOf (fun a => f a b) l) r := by
  induction l with
  | nil => simp only [sumOf]; exact sumOf_zero.symm
  | cons a l ih => simp only [sumOf, ih, sumOf_add]

theorem select_tracks {g : Xml → Nat} {p : Path} {x : Xml} : sumOf g (select p x) ≤ sumOf (along g x) (tracks p) := by
  induction p generalizing x with
  | nil => simp [select, tracks, sumOf, along, walk]
  | all t r ih =>
    have e : sumOf (along g x) (tracks (.all t r)) = sumOf (fun y => sumOf (along g y) (tracks r)) (x.kids.filter (tagIs t)) := by
      simp only [tracks, sumOf_map, along, walk, sumOf_flatMap]
      exact sumOf_swap
    rw [e, select, sumOf_flatMap]
    exact sumOf_le fun y _ => ih
  | first ts r ih =>
    have e : sumOf (along g x) (tracks (.first ts r)) = sumOf (fun y => sumOf (along g y) (tracks r)) (walk ts x) := by
      simp only [tracks, sumOf_map, along, walk_cat, sumOf_flatMap]
      exact sumOf_swap
    rw [e]
    simp only [select]
    split
    · exact Nat.zero_le _
    · rename_i y l hy
      rw [hy]
      simp only [sumOf]
      have := ih (x := y)
      omega
  | pick ts r ih =>
    have e : sumOf (along g x) (tracks (.pick ts r)) = sumOf (fun t => sumOf (fun y => sumOf (along g y) (tracks r)) (x.kids.filter (tagIs t))) ts := by
      simp only [tracks, sumOf_flatMap, sumOf_map, along, walk]
      congr 1
      funext t
      exact sumOf_swap
    rw [e]
    simp only [select]
    split
    · exact Nat.zero_le _
    · rename_i y hy
      have : ∃ t ∈ ts, y ∈ x.kids.filter (tagIs t) := by
        clear e ih
        induction ts with
        | nil => cases hy
        | cons t ts ih =>
          simp only [pickKid] at hy
          split at hy
          · rename_i z hz
            cases hy
            exact ⟨t, by simp, List.mem_filter.2 ⟨List.mem_of_find?_eq_some hz, List.find?_some hz⟩⟩
          · obtain ⟨t', h1, h2⟩ := ih hy
            exact ⟨t', by simp [h1], h2⟩
      obtain ⟨t, ht, hm⟩ := this
      refine Nat.le_trans ih (Nat.le_trans ?_ (sumOf_mem ht))
      exact sumOf_mem (g := fun y => sumOf (along g y) (tracks r)) hm
  | need p r _ ih => simp only [select, tracks]; split; exact Nat.zero_le _; exact ih
  | lack p r _ ih => simp only [select, tracks]; split; exact ih; exact Nat.zero_le _
  | alt p q ihp ihq =>
    simp only [select, tracks, sumOf_append]
    split
    · have := ihq (x := x); omega
    · have := ihp (x := x); omega

/-! ## separate paths -/

/-- a path of tags and whether the whole element is read at its end -/
abbrev Route := List Key × Bool

/-- the rest of the paths after a child with a tag -/
def afterTag (t : Key) (L : List Route) : List Route := L.filterMap fun e => match e.1 with
  | [] => none
  | h :: r => if h == 0 || t == h then some (r, e.2) else none

/-- can two routes lead to the same element, or one into an element that the other reads -/
def clash : List Key → Bool → List Key → Bool → Bool
  | [], _, [], _ => true
  | [], o, _ :: _, _ => o
  | _ :: _, _, [], o => o
  | a :: as, o, b :: bs, o' => (a == 0 || b == 0 || a == b) && clash as o bs o'

/-- no element is reached twice -/
def separate : List Route → Bool
  | [] => true
  | e :: l => (l.all fun e' => !clash e.1 e.2 e'.1 e'.2) && separate l

/-- what a route counts at its end -/
def routeEnd (u : Str) : Bool → Xml → Nat
  | true => uuids u
  | false => ownUuid u

/-- what routes count -/
def total (u : Str) (L : List Route) (x : Xml) : Nat := sumOf (fun e => along (routeEnd u e.2) x e.1) L

theorem total_kids {u : Str} {L : List Route} {x : Xml} :
    total u L x = sumOf (fun e => routeEnd u e.2 x) (L.filter fun e => e.1.isEmpty) + sumOf (fun y => total u (afterTag y.tag L) y) x.kids := by
  induction L with
  | nil => simp only [total, afterTag, List.filterMap_nil, List.filter_nil, sumOf]; rw [sumOf_zero]
  | cons e L ih =>
    obtain ⟨ts, o⟩ := e
    cases ts with
    | nil =>
      have e1 : ∀ y : Xml, afterTag y.tag (([], o) :: L) = afterTag y.tag L := fun y => rfl
      have e2 : total u (([], o) :: L) x = routeEnd u o x + total u L x := by
        simp only [total, sumOf, along, walk]; omega
      simp only [e2, ih, e1, List.filter_cons, List.isEmpty_nil, if_true, sumOf]
      omega
    | cons h r =>
      have e1 : ∀ y : Xml, total u (afterTag y.tag ((h :: r, o) :: L)) y = (if tagIs h y then along (routeEnd u o) y r else 0) + total u (afterTag y.tag L) y := by
        intro y
        by_cases hc : (h == 0 || y.tag == h) = true
        · have e0 : afterTag y.tag ((h :: r, o) :: L) = (r, o) :: afterTag y.tag L := by
            simp only [afterTag, List.filterMap_cons]; rw [if_pos hc]
          rw [e0, tagIs, if_pos hc]; rfl
        · have e0 : afterTag y.tag ((h :: r, o) :: L) = afterTag y.tag L := by
            simp only [afterTag, List.filterMap_cons]; rw [if_neg hc]
          rw [e0, tagIs, if_neg hc]; omega
      simp only [e1, sumOf_add, List.filter_cons, List.isEmpty_cons, Bool.false_eq_true, if_false]
      have e2 : total u ((h :: r, o) :: L) x = along (routeEnd u o) x (h :: r) + total u L x := rfl
      rw [e2, ih]
      have e3 : along (routeEnd u o) x (h :: r) = sumOf (fun y => if tagIs h y then along (routeEnd u o) y r else 0) x.kids := by
        simp only [along, walk, sumOf_flatMap, sumOf_filter]
      rw [e3]; omega

theorem separate_after {t : Key} {L : List Route} (h : separate L = true) : separate (afterTag t L) = true := by
  induction L with
  | nil => rfl
  | cons e L ih =>
    simp only [separate, Bool.and_eq_true, List.all_eq_true] at h
    have ih := ih h.2
    rw [afterTag, List.filterMap_cons]
    obtain ⟨ts, o⟩ := e
    cases ts with
    | nil => exact ih
    | cons k r =>
      by_cases hk : (k == 0 || t == k) = true
      · simp only [if_pos hk]
        rw [separate, Bool.and_eq_true, List.all_eq_true]
        refine ⟨fun e' he' => ?_, ih⟩
        obtain ⟨f, hf, he⟩ := List.mem_filterMap.1 he'
        obtain ⟨fs, fo⟩ := f
        cases fs with
        | nil => cases he
        | cons k' r' =>
          simp only at he
          split at he
          · rename_i hk'
            cases he
            have := h.1 _ hf
            simp only [clash] at this
            have hc : (k == 0 || k' == 0 || k == k') = true := by
              simp only [Bool.or_eq_true, beq_iff_eq] at hk hk' ⊢
              rcases hk with hk | hk
              · exact .inl (.inl hk)
              · rcases hk' with hk' | hk'
                · exact .inl (.inr hk')
                · exact .inr (hk.symm.trans hk')
            rw [hc] at this
            exact this
          · cases he
      · simp only [if_neg hk]
        exact ih

theorem separate_own {L : List Route} (h : separate L = true) :
    (L.filter (fun e => e.1.isEmpty) = []) ∨ ∃ e, L.filter (fun e => e.1.isEmpty) = [e] ∧ (e.2 = true → ∀ f ∈ L, f.1 = []) := by
  induction L with
  | nil => exact .inl rfl
  | cons e L ih =>
    simp only [separate, Bool.and_eq_true, List.all_eq_true, Bool.not_eq_true'] at h
    obtain ⟨ts, o⟩ := e
    cases ts with
    | nil =>
      have none : L.filter (fun e => e.1.isEmpty) = [] := by
        rw [List.filter_eq_nil_iff]
        intro f hf
        obtain ⟨fs, fo⟩ := f
        cases fs with
        | nil => exact absurd (h.1 _ hf) (by simp [clash])
        | cons => simp
      refine .inr ⟨([], o), by simp [none], fun ho f hf => ?_⟩
      rcases List.mem_cons.1 hf with rfl | hf
      · rfl
      · obtain ⟨fs, fo⟩ := f
        cases fs with
        | nil => rfl
        | cons => exact absurd (h.1 _ hf) (by simpa [clash] using ho)
    | cons k r =>
      rw [List.filter_cons]
      simp only [List.isEmpty_cons, Bool.false_eq_true, if_false]
      rcases ih h.2 with h1 | ⟨e, h1, h2⟩
      · exact .inl h1
      · refine .inr ⟨e, h1, fun ho => ?_⟩
        exfalso
        have he : e ∈ L.filter (fun e => e.1.isEmpty) := by rw [h1]; simp
        have he := List.mem_filter.1 he
        have := h.1 _ he.1
        rw [List.isEmpty_iff.1 he.2, clash, ho] at this
        cases this

theorem separate_total {u : Str} {n : Nat} {L : List Route} {x : Xml} (hn : x.depth ≤ n) (h : separate L = true) : total u L x ≤ uuids u x := by
  induction n generalizing L x with
  | zero => have := depth_pos x; omega
  | succ n ih =>
    have hs := sumOf_le (l := x.kids) (g := fun y => total u (afterTag y.tag L) y) fun y hy =>
      ih (by have := depth_kid hy; omega) (separate_after (t := y.tag) h)
    rw [total_kids, uuids_eq]
    rcases separate_own h with e | ⟨e, he, h1⟩
    · rw [e]; simp only [sumOf]; omega
    · rw [he]
      simp only [sumOf]
      cases ho : e.2 with
      | false => simp only [routeEnd]; omega
      | true =>
        have : ∀ y : Xml, total u (afterTag y.tag L) y = 0 := by
          intro y
          have : afterTag y.tag L = [] := by
            rw [afterTag, List.filterMap_eq_nil_iff]
            intro e he
            rw [h1 ho e he]
          rw [this]; rfl
        simp only [this, sumOf_zero, routeEnd]
        rw [uuids_eq]; omega

/-! ## the calls -/

/-- does a call register an object with a UUID -/
def isObject (u : Str) : DocCall → Bool
  | .object v _ _ => v == u
  | _ => false

/-- how often a UUID is registered -/
def regs (u : Str) (cs : List DocCall) : Nat := cs.countP (isObject u)

theorem regs_append {u : Str} {a b : List DocCall} : regs u (a ++ b) = regs u a + regs u b := List.countP_append

theorem regs_flatMap {α : Type} {u : Str} {f : α → List DocCall} {l : List α} : regs u (l.flatMap f) = sumOf (fun a => regs u (f a)) l := by
  induction l with
  | nil => rfl
  | cons a l ih => rw [List.flatMap_cons, regs_append, ih]; rfl

theorem regs_after {u : Str} {c : Key} {ns : List Str} {x : Xml} : regs u (callsAfter c ns x) = 0 := by
  rw [callsAfter]
  repeat' split
  all_goals rfl

theorem regs_keep {u : Str} {known : List (List Str × Str)} {cs : List DocCall} : regs u (keepRefs known cs) = regs u cs := by
  have e : ∀ (c : DocCall) (l : List DocCall), regs u (c :: l) = regs u l + if isObject u c then 1 else 0 := fun c l => List.countP_cons
  induction cs generalizing known with
  | nil => rfl
  | cons c l ih =>
    cases c with
    | behavior c ns r => cases r <;> simp only [keepRefs, e, ih] <;> rfl
    | _ => simp only [keepRefs, e, ih]

theorem object_keep {u : Str} {c : Key} {ns : List Str} {known : List (List Str × Str)} {cs : List DocCall} :
    DocCall.object u c ns ∈ keepRefs known cs ↔ DocCall.object u c ns ∈ cs := by
  induction cs generalizing known with
  | nil => exact Iff.rfl
  | cons d l ih =>
    cases d with
    | behavior c ns r => cases r <;> simp [keepRefs, ih]
    | _ => simp [keepRefs, ih]

theorem regs_note {u : Str} {c : Key} {ns : List Str} {y : Xml} : regs u (noteUuid c ns y) = ownUuid u y := by
  rw [noteUuid, ownUuid]
  split
  · rename_i h; simp [h, regs]
  · rename_i v h
    by_cases e : v = u
    · simp [h, regs, isObject, e]
    · simp [h, regs, isObject, e]

/-- the routes of the slots that can register something -/
def routesOf (slots : List RSlot) : List Route := slots.flatMap fun s => match s.item with
  | .prim k => if mayNote s k then (tracks s.path).map (·, false) else []
  | .objs _ => (tracks s.path).map (·, true)
  | _ => if isUuid s then (tracks s.path).map (·, false) else []

theorem body_total {sc : RKind → Xml → Bool} {rd : Key → List Str → Xml → List DocCall} {b : RBody} {names : List Str} {x : Xml} {u : Str}
    (H : ∀ s ∈ b.slots, ∀ alts, s.item = .objs alts → ∀ y ∈ select s.path x, ∀ k, altOf alts y.tag = some k → ∀ ns,
      regs u (rd k ns y) ≤ uuids u y) :
    regs u (bodyCalls sc rd b names x) ≤ total u (routesOf b.slots) x := by
  rw [bodyCalls, regs_append, regs_after, Nat.add_zero, regs_flatMap, total, routesOf, sumOf_flatMap]
  refine sumOf_le fun s hs => ?_
  rw [regs_flatMap]
  have key : ∀ o : Bool, (∀ y ∈ select s.path x, regs u (slotCalls sc rd b.cls (ownNames b names x) s y) ≤ routeEnd u o y) →
      sumOf (fun y => regs u (slotCalls sc rd b.cls (ownNames b names x) s y)) (select s.path x) ≤
        sumOf (fun e : Route => along (routeEnd u e.2) x e.1) ((tracks s.path).map (·, o)) := by
    intro o h
    rw [sumOf_map]
    exact Nat.le_trans (sumOf_le h) select_tracks
  have zero : (∀ y ∈ select s.path x, regs u (slotCalls sc rd b.cls (ownNames b names x) s y) = 0) →
      ∀ m, sumOf (fun y => regs u (slotCalls sc rd b.cls (ownNames b names x) s y)) (select s.path x) ≤ m := by
    intro h m
    refine Nat.le_trans (sumOf_le (h := fun _ => 0) fun y hy => Nat.le_of_eq (h y hy)) ?_
    rw [sumOf_zero]; exact Nat.zero_le _
  have attr : (∀ y, slotCalls sc rd b.cls (ownNames b names x) s y = if isUuid s then noteUuid b.cls (ownNames b names x) y else []) →
      sumOf (fun y => regs u (slotCalls sc rd b.cls (ownNames b names x) s y)) (select s.path x) ≤
        sumOf (fun e : Route => along (routeEnd u e.2) x e.1) (if isUuid s then (tracks s.path).map (·, false) else []) := by
    intro e
    by_cases hu : isUuid s = true
    · rw [if_pos hu]
      refine key false fun y _ => ?_
      rw [e, if_pos hu, regs_note]; exact Nat.le_refl _
    · rw [if_neg hu]
      refine zero (fun y _ => ?_) _
      rw [e, if_neg hu]; rfl
  split
  · rename_i k hk
    by_cases hm : mayNote s k = true
    · rw [if_pos hm]
      refine key false fun y _ => ?_
      simp only [slotCalls, hk]
      split
      · rw [regs_note]; exact Nat.le_refl _
      · exact Nat.zero_le _
    · rw [if_neg hm]
      refine zero (fun y _ => ?_) _
      simp only [slotCalls, hk]
      rw [if_neg (by simp [hm])]; rfl
  · rename_i alts hk
    refine key true fun y hy => ?_
    simp only [slotCalls, hk]
    cases ha : altOf alts y.tag with
    | none => exact Nat.zero_le _
    | some k => exact H s hs alts hk y hy k ha _
  · rename_i h1 h2
    refine attr fun y => ?_
    rw [slotCalls]
    split
    · rename_i k hk; exact absurd hk (h1 k)
    · rename_i alts hk; exact absurd hk (h2 alts)
    · rfl

end Verif.Lemmas
