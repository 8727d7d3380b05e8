import Verif.Lemmas.Change
import Verif.Lemmas.Program
/-!
# A call changes one object
-/
namespace Verif.Lemmas
open Verif Verif.Model Verif.Spec

section
variable {F : Type} (v v' : MObj F)

mutual
theorem sw_refl : ∀ o : MObj F, Swapped v v' o o
  | .scal s => .scal s
  | .mk c fs => .inside c fs fs (sw_reflIn fs)
theorem sw_reflIn : ∀ fs : List ((Key × Bool) × List (MObj F)), SwappedIn v v' fs fs
  | [] => .nil
  | (k, vs) :: fs => .cons k vs vs fs fs (sw_reflL vs) (sw_reflIn fs)
theorem sw_reflL : ∀ vs : List (MObj F), List.Forall₂ (Swapped v v') vs vs
  | [] => .nil
  | w :: vs => .cons (sw_refl w) (sw_reflL vs)
end

variable {v v'}

theorem sw_set {w w' : MObj F} (h : Swapped v v' w w') {vs : List (MObj F)} {i : Nat} (hi : vs[i]? = some w) :
    List.Forall₂ (Swapped v v') vs (vs.set i w') := by
  induction vs generalizing i with
  | nil => simp at hi
  | cons u vs ih =>
    cases i with
    | zero =>
      simp only [List.getElem?_cons_zero, Option.some.injEq] at hi
      subst hi
      exact .cons h (sw_reflL _ _ vs)
    | succ i => exact .cons (sw_refl _ _ u) (ih (by simpa using hi))

theorem sw_changeAt {w w' : MObj F} (h : Swapped v v' w w') {a : Key × Bool} {i : Nat} {fs : List ((Key × Bool) × List (MObj F))}
    (hi : (valsAt a fs)[i]? = some w) : SwappedIn v v' fs (changeAt a (fun vs => vs.set i w') fs) := by
  induction fs with
  | nil => exact .nil
  | cons e fs ih =>
    obtain ⟨k, vs⟩ := e
    unfold valsAt at hi
    unfold changeAt
    split
    · rename_i hk
      rw [if_pos hk] at hi
      exact .cons _ _ _ _ _ (sw_set h hi) (sw_reflIn _ _ fs)
    · rename_i hk
      rw [if_neg hk] at hi
      exact .cons _ _ _ _ _ (sw_reflL _ _ vs) (ih hi)

theorem changeAt_self {w : MObj F} {a : Key × Bool} {i : Nat} {fs : List ((Key × Bool) × List (MObj F))}
    (hi : (valsAt a fs)[i]? = some w) : changeAt a (fun vs => vs.set i w) fs = fs := by
  induction fs with
  | nil => rfl
  | cons e fs ih =>
    obtain ⟨k, vs⟩ := e
    unfold valsAt at hi
    unfold changeAt
    split
    · rename_i hk
      rw [if_pos hk] at hi
      obtain ⟨hl, rfl⟩ := List.getElem?_eq_some_iff.1 hi
      rw [List.set_getElem_self]
    · rename_i hk
      rw [if_neg hk] at hi
      rw [ih hi]

end

section
variable {py : Py} {T : Key → Option RBody}

theorem run_scal (s : Scalar py.F) (c : Deed py.F) : c.run py T (.scal s) = .scal s := by
  cases c with
  | create a k n =>
    simp only [Deed.run]
    split
    · rfl
    · split <;> rfl
  | _ => rfl

theorem run_mk (d : Key) (fs : List ((Key × Bool) × List (MObj py.F))) (c : Deed py.F) : ∃ fs', c.run py T (.mk d fs) = .mk d fs' := by
  cases c with
  | create a k n =>
    simp only [Deed.run]
    split
    · exact ⟨_, rfl⟩
    · split <;> exact ⟨_, rfl⟩
  | _ => exact ⟨_, rfl⟩

theorem deed_name (hT : ∀ k b, T k = some b → Tidy T b) {k : Key} {b : RBody} {o : MObj py.F} {c : Deed py.F} (hb : T k = some b)
    (hc : Fitting T b o c) : (c.run py T o).name = o.name := by
  have ht := hT k b hb
  have key : ∀ a s, slotAt b a = some s → s.item ≠ .name → hits k!"short_name" a = false := by
    intro a s hs hi
    obtain ⟨hm, rfl⟩ := slotAt_mem hs
    exact Bool.eq_false_iff.2 fun h => hi (ht.nameOnly s hm h)
  cases c with
  | set a v => obtain ⟨s, hs, _, hi, _⟩ := hc; exact name_change (key a s hs hi) _ _
  | add a v => obtain ⟨s, hs, _, hi, _⟩ := hc; exact name_change (key a s hs hi) _ _
  | unset a => obtain ⟨s, hs, _, hi, _⟩ := hc; exact name_change (key a s hs hi) _ _
  | remove a n => obtain ⟨_, s, alts, hs, _, hi, _⟩ := hc; exact name_change (key a s hs (by rw [hi]; simp)) _ _
  | create a k n =>
    obtain ⟨s, alts, t, b', hs, _, hi, _⟩ := hc
    simp only [Deed.run]
    split
    · rfl
    · split
      · rfl
      · exact name_change (key a s hs (by rw [hi]; simp)) _ _

theorem step_swap (hT : ∀ k b, T k = some b → Tidy T b) {k : Key} {o o' : MObj py.F} (h : Step T k o o') : o' = o ∨ ∃ c us us' x,
    (MObj.mk c us' : MObj py.F) = Deed.run py T (.mk c us) x ∧ (MObj.mk c us).name = (MObj.mk c us').name ∧ (∃ k' b', T k' = some b' ∧ Fitting T b' (.mk c us) x) ∧
    Swapped (.mk c us) (.mk c us') o o' := by
  induction h with
  | @here k b o c hb hc =>
    cases o with
    | scal s => exact .inl (run_scal s c)
    | mk d fs =>
      obtain ⟨fs', hf⟩ := run_mk (T := T) d fs c
      refine .inr ⟨d, fs, fs', c, hf.symm, ?_, ⟨k, b, hb, hc⟩, ?_⟩
      · rw [← hf, deed_name hT hb hc]
      · rw [hf]; exact .here
  | @inside k b o v v' a s alts t k' b' i hb hs ha hal hb' hv hc _ ih =>
    cases o with
    | scal s => exact .inl rfl
    | mk d fs =>
      rcases ih with rfl | ⟨c, us, us', x, h1, h2, h3, h4⟩
      · exact .inl (by rw [MObj.change, changeAt_self (fs := fs) hv])
      · exact .inr ⟨c, us, us', x, h1, h2, h3, .inside _ _ _ (sw_changeAt h4 hv)⟩

/-! ## Saving -/

theorem sw_map {F : Type} {v v' : MObj F} {t : Key} {w : MObj F} {fs fs' : List ((Key × Bool) × List (MObj F))} (h : SwappedIn v v' fs fs') :
    SwappedIn v v' (fs.map fun e => if e.1.1 = t then (e.1, [w]) else e) (fs'.map fun e => if e.1.1 = t then (e.1, [w]) else e) := by
  induction fs generalizing fs' with
  | nil => cases h; exact .nil
  | cons e fs ih =>
    cases h with
    | cons k vs vs' _ fs' hv hf =>
      simp only [List.map_cons]
      split
      · exact .cons _ _ _ _ _ (sw_reflL _ _ _) (ih hf)
      · exact .cons _ _ _ _ _ hv (ih hf)

theorem schema_akin {c : Key} {us us' : List ((Key × Bool) × List (MObj py.F))} {d d' : MObj py.F} (h : Swapped (.mk c us) (.mk c us') d d')
    (hd : d ≠ .mk c us) : Akin (.mk c us) (.mk c us') (withSchema py d) (withSchema py d') := by
  have hA : Akin (.mk c us) (.mk c us') d d' := by
    rcases sw_cases h with ⟨h', _⟩ | h
    · exact absurd h' hd
    · exact h
  have he : d.get k!"schema_location" = [] ↔ d'.get k!"schema_location" = [] := by
    have := rel_isEmpty (hA.get k!"schema_location")
    rw [← List.isEmpty_iff, ← List.isEmpty_iff, this]
  unfold withSchema
  by_cases hs : d.get k!"schema_location" = []
  · rw [if_pos hs, if_pos (he.1 hs)]
    cases h with
    | here => exact absurd rfl hd
    | scal s => exact hA
    | inside k fs fs' hf => exact ⟨rfl, fun f => sw_in (sw_map hf)⟩
  · rw [if_neg hs, if_neg fun h' => hs (he.2 h')]
    exact hA

theorem save_swapped {repr : py.F → Str} {strict : Bool} {c : Key} {us us' : List ((Key × Bool) × List (MObj py.F))}
    (hn : (MObj.mk c us).name = (MObj.mk c us').name) {d d' : MObj py.F} (h : Swapped (.mk c us) (.mk c us') d d') (hd : d ≠ .mk c us) {y y' : Xml}
    (h1 : save py repr strict d = .ok y) (h2 : save py repr strict d' = .ok y') : Replaced (Pieces py repr strict (.mk c us) (.mk c us')) [y] [y'] := by
  have key : ∀ {e : MObj py.F} {z : Xml}, save py repr strict e = .ok z → ∃ n out, writeB py repr strict (writeObj py repr strict writers n) (withSchema py e) saveBody = .ok out ∧
      out.kids = [z] := by
    intro e z h
    unfold save at h
    split at h
    · cases h
    · rename_i out hw
      split at h
      · rename_i x hx
        cases h
        cases hdep : (withSchema py e).depth with
        | zero => rw [hdep] at hw; cases hw
        | succ n =>
          rw [hdep] at hw
          exact ⟨n, out, hw, hx⟩
      · cases h
  obtain ⟨n, out, hw, hk⟩ := key h1
  obtain ⟨n', out', hw', hk'⟩ := key h2
  have := (write_swapped hn n n' saveBody _ _ out out' apart_save (schema_akin h hd) hw hw').kids
  rwa [hk, hk'] at this

end
end Verif.Lemmas
