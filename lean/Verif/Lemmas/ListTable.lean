import Verif.Gen.ListTable
import Verif.Gen.CreateTable
import Verif.Model.Classes
import Verif.Model.Listing
/-!
# Facts about the tables of listing methods and create methods
-/
namespace Verif.Lemmas
open Verif Verif.Model Verif.Gen

/-- one of the classes inherits from the other -/
def relatedCls (a b : Key) : Bool := armodel.sub a b || armodel.sub b a

/-- a create method whose new object passes a listing's filter records it where the listing looks, and returns what the
collection holds -/
def recorded (r : CreateRow) (l : ListRow) : Bool :=
  r.pattern.add && (r.pattern.ret == .typed || r.pattern.ret == .untyped) &&
    (l.attr == k!"elements" || (r.pattern.store == .list && r.attr == l.attr))

theorem recorded_table : createTable.all (fun r => listTable.all fun l =>
    !relatedCls r.cls l.cls || l.filter.isEmpty || !l.takes armodel r.target || recorded r l) = true := by decide +kernel

/-- a class that has both methods has them from classes one of which inherits from the other -/
theorem chain_table : classTable.all (fun _ as => (as.filter fun a => listTable.any fun l => l.cls == a).all fun a =>
    (as.filter fun b => createTable.any fun r => r.cls == b).all fun b => relatedCls b a) = true := by decide +kernel

theorem related_of_common {c : Key} {r : CreateRow} {l : ListRow} (hr : r ∈ createTable) (hl : l ∈ listTable)
    (h1 : armodel.sub c r.cls = true) (h2 : armodel.sub c l.cls = true) : relatedCls r.cls l.cls = true := by
  simp only [armodel, List.contains_iff_mem] at h1 h2
  unfold ancestors at h1 h2
  cases h : classTable.find? c with
  | none =>
    rw [h] at h1 h2
    simp only [List.mem_singleton] at h1 h2
    simp [relatedCls, h1, h2, armodel.refl]
  | some as =>
    rw [h] at h1 h2
    have := (Bst.all_toList _ _).1 chain_table _ (Bst.find?_mem h)
    simp only [List.all_eq_true, List.mem_filter, List.any_eq_true, beq_iff_eq] at this
    exact this _ ⟨h2, l, hl, rfl⟩ _ ⟨h1, r, hr, rfl⟩

theorem recorded_of {c : Key} {r : CreateRow} {l : ListRow} (hr : r ∈ createTable) (hl : l ∈ listTable)
    (h1 : armodel.sub c r.cls = true) (h2 : armodel.sub c l.cls = true) (hf : l.filter ≠ [])
    (ht : l.takes armodel r.target = true) : r.pattern.add = true ∧ (r.pattern.ret = .typed ∨ r.pattern.ret = .untyped)
      ∧ (l.attr = k!"elements" ∨ r.pattern.store = .list ∧ r.attr = l.attr) := by
  have h := recorded_table
  simp only [List.all_eq_true] at h
  have h := h r hr l hl
  rw [related_of_common hr hl h1 h2, ht] at h
  simp only [recorded, Bool.not_true, Bool.false_or, Bool.or_eq_true, List.isEmpty_iff, Bool.and_eq_true, beq_iff_eq] at h
  rcases h with h | h
  · exact absurd (h.resolve_right (by simp)) hf
  · exact ⟨h.1.1, h.1.2, h.2⟩

theorem elements_filtered : ∀ l ∈ listTable, l.attr = k!"elements" → l.filter ≠ [] := by decide +kernel

end Verif.Lemmas
