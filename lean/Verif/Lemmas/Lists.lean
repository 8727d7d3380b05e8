import Verif.Lemmas.Within
import Verif.Spec.Lists
/-!
# Paths to one and to several elements
-/
namespace Verif.Lemmas
open Verif Verif.Model Verif.Spec

/-! ## The attributes of new objects as a list -/

/-- what the constructors assign, the last assignment first -/
def initRev (order : List Key) : Nat → Key → List (Key × InitVal) → List (Key × InitVal)
  | 0, _, l => l
  | n + 1, d, l => (((classAcc d).init.getD (0, [])).2).foldl (fun l s =>
      match s with
      | .field f v => (f, v) :: l
      | .guard _ => l
      | .sup _ => match definer ((order.dropWhile fun k => !(k == d)).drop 1) with
        | some e => initRev order n e l
        | none => l
      | .base b _ => match definer (ancestors b) with
        | some e => initRev order n e l
        | none => l) l

/-- the first entry for an attribute -/
def entry : List (Key × InitVal) → Key → Option InitVal
  | [], _ => none
  | (k, v) :: l, f => if f = k then some v else entry l f

theorem foldl_entry {f : Inits → InitStep → Inits} {g : List (Key × InitVal) → InitStep → List (Key × InitVal)} (h : ∀ l s, f (entry l) s = entry (g l s))
    (steps : List InitStep) (l : List (Key × InitVal)) : steps.foldl f (entry l) = entry (steps.foldl g l) := by
  induction steps generalizing l with
  | nil => rfl
  | cons s steps ih => rw [List.foldl_cons, List.foldl_cons, h, ih]

theorem initAt_entry (order : List Key) (n : Nat) (d : Key) (l : List (Key × InitVal)) : initAt order n d (entry l) = entry (initRev order n d l) := by
  induction n generalizing d l with
  | zero => rfl
  | succ n ih =>
    rw [initAt, initRev]
    refine foldl_entry (fun l s => ?_) _ l
    cases s with
    | field f v => rfl
    | guard c => rfl
    | sup m =>
      simp only
      cases definer ((order.dropWhile fun k => !(k == d)).drop 1) with
      | none => rfl
      | some e => exact ih e l
    | base b m =>
      simp only
      cases definer (ancestors b) with
      | none => rfl
      | some e => exact ih e l

/-- the assignments of all constructors of a class -/
def assigned (c : Key) : List (Key × InitVal) := match definer (ancestors c) with
  | some d => initRev (ancestors c) 12 d []
  | none => []

theorem inits_assigned (c : Key) : inits c = entry (assigned c) := by
  unfold inits assigned
  cases definer (ancestors c) with
  | none => rfl
  | some d => exact initAt_entry _ _ _ []

/-! ## Paths -/

/-- a path to at most one element -/
def oneOnly : Path → Bool
  | .nil => true
  | .all _ _ => false
  | .first _ r => oneOnly r
  | .pick _ r => oneOnly r
  | .need _ r => oneOnly r
  | .lack _ r => oneOnly r
  | .alt p q => oneOnly p && oneOnly q

theorem oneOnly_sound {p : Path} (h : oneOnly p = true) (x : Xml) : (select p x).length ≤ 1 := by
  induction p generalizing x with
  | nil => simp [select]
  | all t r _ => cases h
  | first ts r ih =>
    simp only [select]
    split
    · simp
    · exact ih h _
  | pick ts r ih =>
    simp only [select]
    split
    · simp
    · exact ih h _
  | need p r _ ih =>
    simp only [select]
    split
    · simp
    · exact ih h _
  | lack p r _ ih =>
    simp only [select]
    split
    · exact ih h _
    · simp
  | alt p q ihp ihq =>
    simp only [oneOnly, Bool.and_eq_true] at h
    simp only [select]
    split
    · exact ihq h.2 _
    · exact ihp h.1 _

/-- the last step that goes to several children: what is before it, its tag, what is after it -/
def split? : Path → Option (Path × Key × Path)
  | .nil => none
  | .all t r => match split? r with
    | some (p, u, q) => some (.all t p, u, q)
    | none => if oneOnly r then some (.nil, t, r) else none
  | .first ts r => (split? r).map fun e => (.first ts e.1, e.2)
  | .pick ts r => (split? r).map fun e => (.pick ts e.1, e.2)
  | .need p r => (split? r).map fun e => (.need p e.1, e.2)
  | .lack p r => (split? r).map fun e => (.lack p e.1, e.2)
  | .alt _ _ => none

theorem split_sound {w p q : Path} {t : Key} (h : split? w = some (p, t, q)) : (∀ y, (select q y).length ≤ 1) ∧
    ∀ x, select w x = (select p x).flatMap fun z => (z.kids.filter (tagIs t)).flatMap (select q) := by
  induction w generalizing p q t with
  | nil => cases h
  | all u r ih =>
    simp only [split?] at h
    split at h
    · rename_i p' u' q' hr
      cases h
      obtain ⟨h1, h2⟩ := ih hr
      refine ⟨h1, fun x => ?_⟩
      simp only [select]
      rw [List.flatMap_assoc]
      exact congrArg (List.flatMap · _) (funext h2)
    · split at h
      · rename_i hs
        cases h
        exact ⟨oneOnly_sound hs, fun x => by simp [select]⟩
      · cases h
  | first ts r ih =>
    simp only [split?, Option.map_eq_some_iff] at h
    obtain ⟨⟨p', u, q'⟩, hr, h⟩ := h
    cases h
    obtain ⟨h1, h2⟩ := ih hr
    refine ⟨h1, fun x => ?_⟩
    simp only [select]
    split
    · rfl
    · exact h2 _
  | pick ts r ih =>
    simp only [split?, Option.map_eq_some_iff] at h
    obtain ⟨⟨p', u, q'⟩, hr, h⟩ := h
    cases h
    obtain ⟨h1, h2⟩ := ih hr
    refine ⟨h1, fun x => ?_⟩
    simp only [select]
    split
    · rfl
    · exact h2 _
  | need w r _ ih =>
    simp only [split?, Option.map_eq_some_iff] at h
    obtain ⟨⟨p', u, q'⟩, hr, h⟩ := h
    cases h
    obtain ⟨h1, h2⟩ := ih hr
    refine ⟨h1, fun x => ?_⟩
    simp only [select]
    split
    · rfl
    · exact h2 _
  | lack w r _ ih =>
    simp only [split?, Option.map_eq_some_iff] at h
    obtain ⟨⟨p', u, q'⟩, hr, h⟩ := h
    cases h
    obtain ⟨h1, h2⟩ := ih hr
    refine ⟨h1, fun x => ?_⟩
    simp only [select]
    split
    · exact h2 _
    · rfl
  | alt p q => cases h

/-- a path that leaves nothing out -/
def whole : Path → Bool
  | .alt p q => whole p && whole q
  | p => (split? p).isSome

theorem whole_sound {w : Path} (h : whole w = true) (x : Xml) : ∃ p t q, Repeats w x p t q := by
  induction w with
  | alt v w ihv ihw =>
    simp only [whole, Bool.and_eq_true] at h
    by_cases hc : (select v x).isEmpty
    · obtain ⟨p, t, q, h1, h2⟩ := ihw h.2
      exact ⟨p, t, q, h1, by rw [← h2]; simp [select, hc]⟩
    · obtain ⟨p, t, q, h1, h2⟩ := ihv h.1
      exact ⟨p, t, q, h1, by rw [← h2]; simp [select, hc]⟩
  | _ =>
    obtain ⟨⟨p, t, q⟩, he⟩ := Option.isSome_iff_exists.1 h
    exact ⟨p, t, q, (split_sound he).1, (split_sound he).2 x⟩

/-! ## The check -/

/-- the statement fills the attribute as its initial value says -/
def listB (k : Key) (l : List (Key × InitVal)) (s : RSlot) : Bool := match entry l s.field with
  | some .nil => (whole s.path && !s.last) || cutLists.any fun e => e.1 == k && e.2 == s.field
  | some .none => s.last || s.one || oneOnly s.path
  | _ => true

def listsB (k : Key) (b : RBody) : Bool :=
  let l := assigned b.cls
  b.slots.all (listB k l)

end Verif.Lemmas
