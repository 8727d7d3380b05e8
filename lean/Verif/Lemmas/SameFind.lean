import Verif.Lemmas.Built
import Verif.Model.Load
import Verif.Spec.SameFind
/-!
# Equal objects have equal members: lemmas
-/
namespace Verif.Lemmas
open Verif Verif.Model Verif.Spec

/-- sorting does not change which element is the first with a given key -/
theorem find_insertBy {α : Type} (key : α → String) (k : String) (x : α) (l : List α) :
    (insertBy key x l).find? (fun v => key v == k) = (x :: l).find? (fun v => key v == k) := by
  induction l with
  | nil => rfl
  | cons y r ih =>
    unfold insertBy
    split
    · rfl
    next h =>
      rw [List.find?_cons, ih, List.find?_cons, List.find?_cons, List.find?_cons]
      by_cases hx : key x == k
      · by_cases hy : key y == k
        · refine absurd ?_ h
          rw [beq_iff_eq] at hx hy
          rw [hx, hy]
          exact String.le_refl k
        · simp only [hx, hy]
      · simp only [hx]

theorem find_sortBy {α : Type} (key : α → String) (k : String) (l : List α) :
    (sortBy key l).find? (fun v => key v == k) = l.find? (fun v => key v == k) := by
  induction l with
  | nil => rfl
  | cons x l ih =>
    rw [sortBy, List.foldr_cons, find_insertBy, List.find?_cons, List.find?_cons]
    rw [sortBy] at ih
    rw [ih]

theorem find_byName {F : Type} (l : List (MObj F)) (n : Str) : (byName l).find? (fun v => v.name == n) = l.find? (fun v => v.name == n) := by
  have h : (fun v : MObj F => v.name == n) = fun v => (String.ofList v.name == String.ofList n) := by
    funext v
    rw [Bool.eq_iff_iff, beq_iff_eq, beq_iff_eq]
    exact ⟨fun h => by rw [h], fun h => by simpa using congrArg String.toList h⟩
  rw [h]
  exact find_sortBy (fun o : MObj F => String.ofList o.name) (String.ofList n) l

variable {F : Type} {S : Key → Key → Bool}

theorem sameAll_append {a a' b b' : List (MObj F)} (h : SameAll S a a') (h' : SameAll S b b') : SameAll S (a ++ b) (a' ++ b') := by
  induction a generalizing a' with
  | nil => cases h; exact h'
  | cons v vs ih => cases h with
    | cons _ _ _ _ h1 h2 => exact .cons _ _ _ _ h1 (ih h2)

/-- the values of an attribute are the same, perhaps in another order -/
theorem same_values {o o' : MObj F} (h : Same S o o') (f : Key) : ∃ us, SameAll S (o.get f) us ∧ us.Perm (o'.get f) := by
  cases h with
  | scal s => exact ⟨[], .nil, .nil⟩
  | mk c fs fs' h =>
    induction fs generalizing fs' with
    | nil => cases h; exact ⟨[], .nil, .nil⟩
    | cons e fs ih =>
      cases h with
      | same _ k vs us _ fs' h1 h2 =>
        obtain ⟨ws, hw, hp⟩ := ih fs' h2
        simp only [MObj.get, MObj.fields, List.flatMap_cons] at hw hp ⊢
        by_cases hf : hits f k
        · rw [if_pos hf, if_pos hf]; exact ⟨us ++ ws, sameAll_append h1 hw, hp.append_left us⟩
        · rw [if_neg hf, if_neg hf]; exact ⟨ws, hw, hp⟩
      | sorted _ k vs us _ fs' h0 h1 h2 =>
        obtain ⟨ws, hw, hp⟩ := ih fs' h2
        simp only [MObj.get, MObj.fields, List.flatMap_cons] at hw hp ⊢
        by_cases hf : hits f k
        · rw [if_pos hf, if_pos hf]; exact ⟨us ++ ws, sameAll_append h1 hw, (sortBy_perm _ _).symm.append hp⟩
        · rw [if_neg hf, if_neg hf]; exact ⟨ws, hw, hp⟩

/-- an attribute with one value has the same value -/
theorem same_value {o o' : MObj F} (h : Same S o o') {f : Key} {v : MObj F} (hv : o.get f = [v]) : ∃ u, o'.get f = [u] ∧ Same S v u := by
  obtain ⟨us, h1, h2⟩ := same_values h f
  rw [hv] at h1
  cases h1 with
  | cons _ u _ _ hu h1 =>
    cases h1
    exact ⟨u, List.perm_singleton.1 h2.symm, hu⟩

theorem same_nil {o o' : MObj F} (h : Same S o o') {f : Key} (hv : o.get f = []) : o'.get f = [] := by
  obtain ⟨us, h1, h2⟩ := same_values h f
  rw [hv] at h1
  cases h1
  exact List.perm_nil.1 h2.symm

theorem same_str {o o' : MObj F} (h : Same S o o') : o'.str = o.str := by
  cases h <;> rfl

theorem same_cls {o o' : MObj F} (h : Same S o o') : o'.cls = o.cls := by
  cases h <;> rfl

/-- an attribute that is never sorted has the same values in the same order -/
theorem same_exact {o o' : MObj F} (h : Same S o o') {f : Key} (hf : ∀ c, S c f = false) (he : f ≠ k!"elements") : SameAll S (o.get f) (o'.get f) := by
  cases h with
  | scal s => exact .nil
  | mk c fs fs' h =>
    induction fs generalizing fs' with
    | nil => cases h; exact .nil
    | cons e fs ih =>
      cases h with
      | same _ k vs us _ fs' h1 h2 =>
        have := ih fs' h2
        simp only [MObj.get, MObj.fields, List.flatMap_cons] at this ⊢
        by_cases hk : hits f k
        · rw [if_pos hk, if_pos hk]; exact sameAll_append h1 this
        · rw [if_neg hk, if_neg hk]; exact this
      | sorted _ k vs us _ fs' h0 h1 h2 =>
        have := ih fs' h2
        simp only [MObj.get, MObj.fields, List.flatMap_cons] at this ⊢
        by_cases hk : hits f k
        · simp only [hits, Bool.or_eq_true, beq_iff_eq, Bool.and_eq_true] at hk
          rcases hk with hk | hk
          · rw [hk, hf c] at h0; cases h0
          · exact absurd hk.2 he
        · rw [if_neg hk, if_neg hk]; exact this

theorem same_name (hS : ∀ c, S c k!"short_name" = false) {o o' : MObj F} (h : Same S o o') : o'.name = o.name := by
  have := same_exact h hS (by decide)
  unfold MObj.name
  generalize o.get k!"short_name" = a, o'.get k!"short_name" = b at this
  cases this with
  | nil => rfl
  | cons v u vs us h _ => exact same_str h

theorem sameAll_find (hS : ∀ c, S c k!"short_name" = false) {vs us : List (MObj F)} (h : SameAll S vs us) (n : Str) :
    SameOpt S (vs.find? fun v => v.name == n) (us.find? fun v => v.name == n) := by
  induction vs generalizing us with
  | nil => cases h; exact .none
  | cons v vs ih => cases h with
    | cons _ u _ us h1 h2 =>
      rw [List.find?_cons, List.find?_cons, same_name hS h1]
      split
      · exact .some _ _ h1
      · exact ih h2

theorem sameOpt_or {a a' b b' : Option (MObj F)} (h : SameOpt S a a') (h' : SameOpt S b b') : SameOpt S (a.or b) (a'.or b') := by
  cases h with
  | none => exact h'
  | some v u h => exact .some v u h

theorem same_find (hS : ∀ c, S c k!"short_name" = false) {o o' : MObj F} (h : Same S o o') (f : Key) (n : Str) :
    SameOpt S ((o.get f).find? fun v => v.name == n) ((o'.get f).find? fun v => v.name == n) := by
  cases h with
  | scal s => exact .none
  | mk c fs fs' h =>
    induction fs generalizing fs' with
    | nil => cases h; exact .none
    | cons e fs ih =>
      cases h with
      | same _ k vs us _ fs' h1 h2 =>
        have := ih fs' h2
        simp only [MObj.get, MObj.fields, List.flatMap_cons, List.find?_append] at this ⊢
        by_cases hk : hits f k
        · rw [if_pos hk, if_pos hk]; exact sameOpt_or (sameAll_find hS h1 n) this
        · rw [if_neg hk, if_neg hk]; simpa using this
      | sorted _ k vs us _ fs' h0 h1 h2 =>
        have := ih fs' h2
        simp only [MObj.get, MObj.fields, List.flatMap_cons, List.find?_append] at this ⊢
        by_cases hk : hits f k
        · rw [if_pos hk, if_pos hk, find_byName]; exact sameOpt_or (sameAll_find hS h1 n) this
        · rw [if_neg hk, if_neg hk]; simpa using this

theorem memberOf_eq (o : MObj F) (n : Str) :
    memberOf o n = ((o.get k!"arPackages").find? fun v => v.name == n).or ((o.get k!"elements").find? fun v => v.name == n) := by
  unfold memberOf
  cases (o.get k!"arPackages").find? fun v => v.name == n <;> rfl

/-- The same path finds the same element. -/
theorem same_findIn (hS : ∀ c, S c k!"short_name" = false) (p : List Str) {o o' : MObj F} (h : Same S o o') : SameOpt S (findIn p o) (findIn p o') := by
  induction p generalizing o o' with
  | nil => exact .some _ _ h
  | cons n p ih =>
    have hm : SameOpt S (memberOf o n) (memberOf o' n) := by
      rw [memberOf_eq, memberOf_eq]
      exact sameOpt_or (same_find hS h _ n) (same_find hS h _ n)
    simp only [findIn]
    generalize memberOf o n = a, memberOf o' n = b at hm
    cases hm with
    | none => exact .none
    | some v u hv => exact ih hv

theorem reordered_name (c : Key) : reordered c k!"short_name" = false := by
  have : ∀ e ∈ savedSorted, (e.2 == k!"short_name") = false := by decide +kernel
  unfold reordered
  rw [Bool.eq_false_iff, ne_eq, List.contains_iff_mem]
  intro h
  have := this _ h
  simp at this

/-- the schema location is no member -/
theorem findIn_schema {py : Py} {d : MObj py.F} (hs : ∀ e ∈ d.fields, e.1.1 = k!"schema_location" → e.1.2 = false) {p : List Str} (hp : p ≠ []) :
    findIn p (withSchema py d) = findIn p d := by
  cases p with
  | nil => exact absurd rfl hp
  | cons n p =>
    have hg : ∀ f, f ≠ k!"schema_location" → (withSchema py d).get f = d.get f := by
      intro f hf
      unfold withSchema
      split
      · cases d with
        | scal s => rfl
        | mk c fs =>
          simp only [MObj.get, MObj.fields, List.flatMap_map]
          refine List.flatMap_congr fun e he => ?_
          split
          next h =>
            have h2 := hs e he h
            have : hits f e.1 = false := by
              simp only [hits, h, h2, Bool.false_and, Bool.or_false, beq_eq_false_iff_ne, ne_eq]
              exact fun h => hf h.symm
            simp only [this, Bool.false_eq_true, if_false]
          · rfl
      · rfl
    simp only [findIn, memberOf, hg k!"arPackages" (by decide), hg k!"elements" (by decide)]

theorem shaped_schema {py : Py} {strict : Bool} {n : Nat} {d : MObj py.F} (h : Shaped strict readers invariants n k!"load" d) :
    ∀ e ∈ d.fields, e.1.1 = k!"schema_location" → e.1.2 = false := by
  cases n with
  | zero => exact h.elim
  | succ n =>
    obtain ⟨b, vss, hb, rfl, hs, hn, hI⟩ := h
    rw [readers_load] at hb
    cases hb
    intro e he h
    have : ∀ s ∈ loadBody.slots, s.field = k!"schema_location" → s.elems = false := by decide +kernel
    have he' : e.1 ∈ loadBody.slots.map RSlot.key := (List.of_mem_zip he).1
    obtain ⟨s, hs, hk⟩ := List.mem_map.1 he'
    rw [← hk] at h ⊢
    exact this s hs h

end Verif.Lemmas
