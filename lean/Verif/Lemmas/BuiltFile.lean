import Verif.Lemmas.Built
import Verif.Lemmas.Provenance
/-!
# The texts of a document that was merged from several files
-/
namespace Verif.Lemmas
open Verif Verif.Model Verif.Spec

section
variable {py : Py} {R Q : Str → Prop} (hd : Derived py R Q)
include hd

omit hd in
theorem fold_Q {T : Key → Option RBody} {into : Key → Option (MObj py.F) → Xml → Except RErr (MObj py.F)} {s : RSlot} {alts : List (Key × Key)}
    {ys : List Xml} (hys : ∀ y ∈ ys, Every (Strs R) y) {old r : List (MObj py.F)} (hr : foldE (putNamed py T into s alts) old ys = .ok r)
    (hold : ∀ v ∈ old, ObjQ Q v)
    (hinto : ∀ k o y u, Every (Strs R) y → (∀ v, o = some v → ObjQ Q v) → into k o y = .ok u → ObjQ Q u) : ∀ v ∈ r, ObjQ Q v := by
  induction ys generalizing old with
  | nil => cases hr; exact hold
  | cons y ys ih =>
    simp only [foldE] at hr
    split at hr
    · cases hr
    rename_i old1 hput
    refine ih (fun z hz => hys z (by simp [hz])) hr ?_
    unfold putNamed at hput
    split at hput
    · cases hput; exact hold
    rename_i k hk
    split at hput
    · cases hput
    split at hput
    · rename_i hany
      split at hput
      · cases hput
      obtain ⟨a, v0, u0, c, rfl, rfl, hp, hu0⟩ := replaceE_ok hany hput
      intro v hv
      simp only [List.mem_append, List.mem_cons] at hv
      rcases hv with hv | rfl | hv
      · exact hold v (by simp [hv])
      · exact hinto k (some v0) y v (hys y (by simp)) (fun w hw => by cases hw; exact hold v0 (by simp)) hu0
      · exact hold v (by simp [hv])
    · split at hput
      · cases hput
      rename_i o ho
      cases hput
      intro v hv
      simp only [List.mem_append, List.mem_singleton] at hv
      rcases hv with hv | rfl
      · exact hold v hv
      · exact hinto k none y v (hys y (by simp)) (fun w hw => by cases hw) ho

theorem intoSlot_Q {strict : Bool} {T : Key → Option RBody} {into : Key → Option (MObj py.F) → Xml → Except RErr (MObj py.F)} {over : List Key} {x : Xml}
    (hx : Every (Strs R) x) {s : RSlot} {old vs : List (MObj py.F)} (h : intoSlot py strict T into over x s old = .ok vs) (hold : ∀ v ∈ old, ObjQ Q v)
    (hinto : ∀ k o y u, Every (Strs R) y → (∀ v, o = some v → ObjQ Q v) → into k o y = .ok u → ObjQ Q u) : ∀ v ∈ vs, ObjQ Q v := by
  unfold intoSlot at h
  split at h
  · split at h
    · cases h
    rename_i us hus
    split at h
    · cases h
    cases h
    exact fold_Q (fun y hy => select_every hy hx) hus hold hinto
  · split at h
    · cases h
    rename_i us hus
    have hnew := readSlot_Q hd (fun k y o hy h => hinto k none y o hy (fun v hv => by cases hv) h) hx hus
    split at h
    · cases h
      intro v hv
      rcases List.mem_append.1 hv with hv | hv
      · exact hold v hv
      · exact hnew v hv
    · split at h <;> cases h
      · exact hold
      · exact hnew

theorem zipE_Q {strict : Bool} {T : Key → Option RBody} {into : Key → Option (MObj py.F) → Xml → Except RErr (MObj py.F)} {over : List Key} {x : Xml}
    (hx : Every (Strs R) x) {slots : List RSlot} {olds vss : List (List (MObj py.F))} (hl : olds.length = slots.length)
    (h : zipE (intoSlot py strict T into over x) slots olds = .ok vss) (hold : ∀ vs ∈ olds, ∀ v ∈ vs, ObjQ Q v)
    (hinto : ∀ k o y u, Every (Strs R) y → (∀ v, o = some v → ObjQ Q v) → into k o y = .ok u → ObjQ Q u) : ∀ vs ∈ vss, ∀ v ∈ vs, ObjQ Q v := by
  induction slots generalizing olds vss with
  | nil =>
    cases olds <;> cases h <;> simp
  | cons s slots ih =>
    obtain ⟨old, olds', r, rs', rfl, rfl, hc, hr, hb⟩ := zipE_cons hl h
    intro vs hvs
    rcases List.mem_cons.1 hvs with rfl | hvs
    · exact intoSlot_Q hd hx hc (hold old (by simp)) hinto
    · exact ih hb hr (fun l hl => hold l (by simp [hl])) vs hvs

theorem intoObj_Q {strict : Bool} {T : Key → Option RBody} {over : Key → List Key} {n : Nat} {k : Key} {o : Option (MObj py.F)} {x : Xml} {r : MObj py.F}
    (hx : Every (Strs R) x) (ho : ∀ v, o = some v → ObjQ Q v) (h : intoObj py strict T over n k o x = .ok r) : ObjQ Q r := by
  induction n generalizing k o x r with
  | zero => cases h
  | succ n ih =>
    obtain ⟨m, b, hm, hb, h⟩ := intoObj_succ h
    cases hm
    obtain ⟨olds, vss, hod, hlen, hz, rfl, _⟩ := intoBody_ok h
    have hold : ObjQ Q (o.getD (blankOf py b)) := by
      cases o with
      | none =>
        refine .mk _ _ fun e he v hv => ?_
        obtain ⟨_, _, rfl⟩ := List.mem_map.1 he
        cases hv
      | some v => exact ho v rfl
    rw [hod] at hold
    cases hold with
    | mk _ _ hold =>
      have hold' : ∀ vs ∈ olds, ∀ v ∈ vs, ObjQ Q v := by
        intro vs hvs v hv
        have : vs ∈ ((b.slots.map RSlot.key).zip olds).map Prod.snd := by rw [List.map_snd_zip (by simp [hlen])]; exact hvs
        obtain ⟨e, he, rfl⟩ := List.mem_map.1 this
        exact hold e he v hv
      have := zipE_Q hd hx hlen hz hold' (fun k o y u hy ho hu => ih hy ho hu)
      exact .mk _ _ fun e he v hv => this e.2 (List.of_mem_zip he).2 v hv

theorem loadAll_Q {strict : Bool} {xs : List Xml} (hx : ∀ x ∈ xs, Every (Strs R) x) {d d' : MObj py.F} (h : loadAll py strict d xs = .ok d')
    (hq : ObjQ Q d) : ObjQ Q d' := by
  induction xs generalizing d with
  | nil => cases h; exact hq
  | cons x xs ih =>
    simp only [loadAll, foldE] at h
    split at h
    · cases h
    rename_i d1 h1
    exact ih (fun y hy => hx y (by simp [hy])) h (intoObj_Q hd (hx x (by simp)) (fun v hv => by cases hv; exact hq) (loadInto_eq h1))

omit hd in
theorem newDoc_Q : ObjQ Q (newDoc py) := by
  refine .mk _ _ fun e he v hv => ?_
  obtain ⟨_, _, rfl⟩ := List.mem_map.1 he
  cases hv

end
end Verif.Lemmas
