import Verif.Lemmas.Ignore
/-!
# Unsupported children are not looked at in warning mode
-/
namespace Verif.Lemmas
open Verif Verif.Model Verif.Spec

/-- the tags of the method at hand -/
def oneOf (tags : List Key) (a : Key) : Bool := a != 0 && tags.contains a

def blindFirst (tags : List Key) (k : List Key → Bool) : List Key → List Key → Bool
  | [], pre => k pre
  | a :: _, [] => oneOf tags a
  | a :: ts, b :: pre => !fitsTag a b || blindFirst tags k ts pre

/-- a path does not look at an element whose tag is none of `tags` and that is reached by the tags `pre` -/
def blind (tags : List Key) (final : List Key → Bool) (hit : Bool) : Path → List Key → Bool
  | .nil, pre => final pre
  | .all a r, [] => oneOf tags a || (r == .nil && hit)
  | .all a r, b :: pre => !fitsTag a b || blind tags final hit r pre
  | .first ts r, pre => blindFirst tags (blind tags final hit r) ts pre
  | .pick ts _, [] => ts.all (oneOf tags)
  | .pick ts r, b :: pre => !(ts.any fun a => fitsTag a b) || blind tags final hit r pre
  | .need p r, pre => blind tags (fun _ => true) false p pre && blind tags final hit r pre
  | .lack p r, pre => blind tags (fun _ => true) false p pre && blind tags final hit r pre
  | .alt p r, pre => blind tags (fun _ => true) false p pre && blind tags final hit p pre && blind tags final hit r pre

def blindIn (tags : List Key) (i : Item) (pre : List Key) : Bool :=
  match i with
  | .objs _ => false
  | .want a _ => match pre with
    | [] => oneOf tags a
    | _ => true
  | _ => true

def blindOn (tags : List Key) (i : Item) : Bool :=
  match i with
  | .objs alts => alts.all fun a => oneOf tags a.1
  | .guard _ e => e != .unbound
  | _ => false

/-- no slot of the method looks at the children of `t` that have other tags -/
def blindBody (b : RBody) (t : Key) (tags : List Key) : Bool :=
  b.slots.all fun s => blind tags (blindIn tags s.item) (blindOn tags s.item) s.path [t]

/-- the guards over all children of a child -/
def guardsOf (b : RBody) : List (Key × List Key) := b.slots.filterMap fun s =>
  match s.path, s.item with
  | .all t (.all 0 .nil), .guard tags e => if e == .unbound then none else some (t, tags)
  | _, _ => none

def guardsOk (b : RBody) : Bool := (guardsOf b).all fun g => g.1 != 0 && blindBody b g.1 g.2

theorem oneOf_fits {tags : List Key} {a u : Key} (h : oneOf tags a = true) (hu : u ∉ tags) : fitsTag a u = false := by
  simp only [oneOf, Bool.and_eq_true, bne_iff_ne, ne_eq, List.contains_iff_mem] at h
  simp only [fitsTag, Bool.or_eq_false_iff, beq_eq_false_iff_ne, ne_eq]
  exact ⟨h.1, fun e => hu (e ▸ h.2)⟩

section
variable {tags : List Key} {u : Key} (hu : u ∉ tags)
include hu

theorem blindFirst_sound {k : List Key → Bool} {k' : Key → List Key → Bool} (hk : ∀ w pre, k pre = true → k' w (pre ++ [u]) = false)
    {ts pre : List Key} (w : Key) (h : blindFirst tags k ts pre = true) : looksFirst k' ts w (pre ++ [u]) = false := by
  induction ts generalizing pre w with
  | nil => exact hk w pre h
  | cons a ts ih =>
    cases pre with
    | nil => simp only [List.nil_append, looksFirst, oneOf_fits h hu, Bool.false_and]
    | cons b pre =>
      simp only [blindFirst, Bool.or_eq_true, Bool.not_eq_true'] at h
      simp only [List.cons_append, looksFirst, List.append_eq_nil_iff, List.cons_ne_self, and_false, if_false]
      rcases h with h | h
      · rw [h, Bool.false_and]
      · rw [ih b h, Bool.and_false]

theorem blind_sound {p : Path} {pre : List Key} {final : List Key → Bool} {hit : Bool} {final' : Key → List Key → Bool} {hit' : Key → Bool}
    (hf : ∀ w pre, final pre = true → final' w (pre ++ [u]) = false) (hh : hit = true → hit' u = false) (w : Key)
    (h : blind tags final hit p pre = true) : looks final' hit' p w (pre ++ [u]) = false := by
  have h0 : ∀ w : Key, ∀ pre : List Key, (fun _ => true : List Key → Bool) pre = true → (fun _ _ => false : Key → List Key → Bool) w (pre ++ [u]) = false :=
    fun _ _ _ => rfl
  have h1 : ∀ g : Key → Bool, false = true → g u = false := fun _ h => by cases h
  induction p generalizing pre final hit final' hit' w with
  | nil => exact hf w pre h
  | all a r ih =>
    cases pre with
    | nil =>
      simp only [blind, Bool.or_eq_true, Bool.and_eq_true, beq_iff_eq] at h
      simp only [List.nil_append, looks, if_true]
      rcases h with h | ⟨h, h'⟩
      · rw [oneOf_fits h hu, Bool.false_and]
      · rw [if_pos h, hh h', Bool.and_false]
    | cons b pre =>
      simp only [blind, Bool.or_eq_true, Bool.not_eq_true'] at h
      simp only [List.cons_append, looks, List.append_eq_nil_iff, List.cons_ne_self, and_false, if_false]
      rcases h with h | h
      · rw [h, Bool.false_and]
      · rw [ih hf hh b h, Bool.and_false]
  | first ts r ih => exact blindFirst_sound hu (fun w pre h => ih hf hh w h) w h
  | pick ts r ih =>
    cases pre with
    | nil =>
      simp only [List.nil_append, looks, if_true, Bool.and_true]
      rw [List.any_eq_false]
      intro a ha
      rw [oneOf_fits (List.all_eq_true.1 h a ha) hu]
      simp
    | cons b pre =>
      simp only [blind, Bool.or_eq_true, Bool.not_eq_true'] at h
      simp only [List.cons_append, looks, List.append_eq_nil_iff, List.cons_ne_self, and_false, if_false]
      rcases h with h | h
      · rw [h, Bool.false_and]
      · rw [ih hf hh b h, Bool.and_false]
  | need p r ihp ih =>
    simp only [blind, Bool.and_eq_true] at h
    simp only [looks, ihp (hit := false) (final' := fun _ _ => false) (hit' := fun _ => true) h0 (fun h => nomatch h) w h.1, ih hf hh w h.2, Bool.or_self]
  | lack p r ihp ih =>
    simp only [blind, Bool.and_eq_true] at h
    simp only [looks, ihp (hit := false) (final' := fun _ _ => false) (hit' := fun _ => true) h0 (fun h => nomatch h) w h.1, ih hf hh w h.2, Bool.or_self]
  | alt p r ihp ih =>
    simp only [blind, Bool.and_eq_true] at h
    simp only [looks, ihp (hit := false) (final' := fun _ _ => false) (hit' := fun _ => true) h0 (fun h => nomatch h) w h.1.1, ihp hf hh w h.1.2, ih hf hh w h.2, Bool.or_self]

theorem altOf_none {alts : List (Key × Key)} (h : (alts.all fun a => oneOf tags a.1) = true) : altOf alts u = none := by
  induction alts with
  | nil => rfl
  | cons a l ih =>
    rw [List.all_cons, Bool.and_eq_true] at h
    have := oneOf_fits h.1 hu
    simp only [fitsTag, Bool.or_eq_false_iff, beq_eq_false_iff_ne, ne_eq] at this
    rw [altOf, if_neg this.2, ih h.2]

theorem blindBody_sound {T : Key → Option RBody} {k t : Key} {b : RBody} (hb : T k = some b) (h : blindBody b t tags = true) (n : Nat) (w : Key) :
    known T false n k w [t, u] = false := by
  cases n with
  | zero => rfl
  | succ n =>
    simp only [known, hb]
    rw [List.any_eq_false]
    intro s hs
    rw [Bool.not_eq_true]
    refine blind_sound (pre := [t]) hu ?_ ?_ w (List.all_eq_true.1 h s hs)
    · intro w pre h
      cases hi : s.item <;> rw [hi] at h <;> simp only [inItem]
      · cases h
      · cases pre with
        | nil => exact oneOf_fits h hu
        | cons a l => cases l <;> rfl
    · intro h
      cases hi : s.item <;> rw [hi] at h <;> simp only [onItem, Bool.false_or] <;> simp only [blindOn] at h
      all_goals try cases h
      · rw [altOf_none hu h]; rfl
      · rename_i e
        simp only [bne_iff_ne, ne_eq] at h
        simp [h]

end

/-- every guard of every method -/
theorem guards_blind : (Gen.readTable.all fun _ b => guardsOk b) = true := by decide +kernel

end Verif.Lemmas
