/-!
# `sorted(xs, key=...)`

Python's `sorted` is a stable sort by key; strings are compared by code points, as Lean's `String` order
does.  It is modelled by stable insertion.
-/
namespace Verif.Model

/-- insert before the first element whose key is not smaller -/
def insertBy {α : Type} (key : α → String) (x : α) : List α → List α
  | [] => [x]
  | y :: r => if key x ≤ key y then x :: y :: r else y :: insertBy key x r

/-- `sorted(l, key=key)` -/
def sortBy {α : Type} (key : α → String) (l : List α) : List α := l.foldr (insertBy key) []

theorem insertBy_perm {α : Type} (key : α → String) (x : α) (l : List α) : (insertBy key x l).Perm (x :: l) := by
  induction l with
  | nil => exact List.Perm.refl _
  | cons y r ih =>
    unfold insertBy
    split
    · exact List.Perm.refl _
    · exact (ih.cons y).trans (List.Perm.swap ..)

theorem sortBy_perm {α : Type} (key : α → String) (l : List α) : (sortBy key l).Perm l := by
  induction l with
  | nil => exact List.Perm.refl _
  | cons x l ih => exact (insertBy_perm key x _).trans (ih.cons x)

theorem insertBy_sorted {α : Type} (key : α → String) (x : α) (l : List α)
    (h : l.Pairwise (fun a b => key a ≤ key b)) : (insertBy key x l).Pairwise (fun a b => key a ≤ key b) := by
  induction l with
  | nil => simp [insertBy]
  | cons y r ih =>
    rw [List.pairwise_cons] at h
    unfold insertBy
    split
    · rename_i hxy
      refine List.pairwise_cons.2 ⟨?_, List.pairwise_cons.2 h⟩
      intro z hz
      rcases List.mem_cons.1 hz with rfl | hz
      · exact hxy
      · exact String.le_trans hxy (h.1 z hz)
    · rename_i hxy
      have hyx : key y ≤ key x := by
        rcases String.le_total (key x) (key y) with h | h
        · exact absurd h hxy
        · exact h
      refine List.pairwise_cons.2 ⟨?_, ih h.2⟩
      intro z hz
      rcases List.mem_cons.1 ((insertBy_perm key x r).mem_iff.1 hz) with rfl | hz
      · exact hyx
      · exact h.1 z hz

theorem sortBy_sorted {α : Type} (key : α → String) (l : List α) :
    (sortBy key l).Pairwise (fun a b => key a ≤ key b) := by
  induction l with
  | nil => exact List.Pairwise.nil
  | cons x l ih => exact insertBy_sorted key x _ ih

theorem insertBy_filter_eq {α : Type} (key : α → String) (k : String) (x : α) (l : List α) :
    (insertBy key x l).filter (fun a => key a == k) = (x :: l).filter (fun a => key a == k) := by
  induction l with
  | nil => rfl
  | cons y r ih =>
    unfold insertBy
    split
    · rfl
    · rename_i hxy
      have hne : key x ≠ key y := fun e => hxy (e ▸ String.le_refl _)
      rw [List.filter_cons, ih]
      simp only [List.filter_cons]
      by_cases hx : key x = k
      · have hy : ¬ key y = k := fun e => hne (hx.trans e.symm)
        simp [hx, hy]
      · by_cases hy : key y = k <;> simp [hx, hy]

/-- stability: elements with the same key keep their order -/
theorem sortBy_stable {α : Type} (key : α → String) (k : String) (l : List α) :
    (sortBy key l).filter (fun a => key a == k) = l.filter (fun a => key a == k) := by
  induction l with
  | nil => rfl
  | cons x l ih =>
    show (insertBy key x (sortBy key l)).filter _ = _
    rw [insertBy_filter_eq, List.filter_cons, ih, List.filter_cons]

end Verif.Model
