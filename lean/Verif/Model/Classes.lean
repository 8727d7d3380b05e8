import Verif.Model.Collection
import Verif.Gen.Hierarchy
/-!
# The class hierarchy of the repository

`issubclass` on the 1064 classes of `src/armodel/models/**`, from the generated table of ancestors.
-/
namespace Verif.Model
open Verif Verif.Gen

/-- the ancestors of a class (itself included); a name that is not a class of the repository has none -/
def ancestors (c : Key) : List Key :=
  match classTable.find? c with
  | some l => l
  | none => [c]

/-- the generated lists contain the class and are closed under ancestors -/
theorem classTable_closed : classTable.all (fun c l => l.contains c &&
    l.all fun a => (ancestors a).all fun b => l.contains b) = true := by decide +kernel

theorem ancestors_refl (c : Key) : c ∈ ancestors c := by
  unfold ancestors
  cases h : classTable.find? c with
  | none => simp
  | some l =>
    have := (Bst.all_toList _ _).1 classTable_closed _ (Bst.find?_mem h)
    simp only [Bool.and_eq_true, List.contains_iff_mem] at this
    exact this.1

theorem ancestors_trans {a b c : Key} (h1 : b ∈ ancestors a) (h2 : c ∈ ancestors b) : c ∈ ancestors a := by
  unfold ancestors at h1
  cases h : classTable.find? a with
  | none => rw [h] at h1; simp only [List.mem_singleton] at h1; subst h1; exact h2
  | some l =>
    rw [h] at h1
    have := (Bst.all_toList _ _).1 classTable_closed _ (Bst.find?_mem h)
    simp only [Bool.and_eq_true, List.contains_iff_mem, List.all_eq_true] at this
    have := this.2 b h1 c h2
    simpa [ancestors, h] using this

/-- `issubclass` in the repository -/
def armodel : Hier where
  sub c d := (ancestors c).contains d
  refl c := by simpa using ancestors_refl c
  trans a b c h1 h2 := by
    simp only [List.contains_iff_mem] at *
    exact ancestors_trans h1 h2

example : armodel.sub k!"ApplicationSwComponentType" k!"AtomicSwComponentType" = true := by decide +kernel
example : armodel.sub k!"AtomicSwComponentType" k!"ApplicationSwComponentType" = false := by decide +kernel

end Verif.Model
