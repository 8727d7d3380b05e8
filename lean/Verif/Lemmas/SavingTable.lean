import Verif.Lemmas.Saving
/-!
# The check of all methods of the writer
-/
namespace Verif.Lemmas
open Verif Verif.Model Verif.Spec

set_option maxRecDepth 100000 in
theorem saving_strict : Gen.pairTable.all (finePairs true) = true := by decide +kernel

set_option maxRecDepth 100000 in
theorem saving_lax : Gen.pairTable.all (finePairs false) = true := by decide +kernel

theorem saving_more (strict : Bool) : (morePairs.all fun e => finePair strict e.1 e.2) = true := by cases strict <;> decide +kernel

theorem saving_pairs {strict : Bool} {rk wk : Key} (h : handed rk wk = true) : finePair strict rk wk = true := by
  simp only [handed, Bool.or_eq_true, List.any_eq_true, Bool.and_eq_true, beq_iff_eq] at h
  rcases h with ⟨p, hp, rfl⟩ | ⟨e, he, rfl, rfl⟩
  · unfold pairs at hp
    split at hp
    next ps hb =>
      have : Gen.pairTable.all (finePairs strict) = true := by
        cases strict
        · exact saving_lax
        · exact saving_strict
      exact List.all_eq_true.1 ((Bst.all_toList _ _).1 this _ (Bst.find?_mem hb)) p hp
    next => cases hp
  · exact List.all_eq_true.1 (saving_more strict) e he

end Verif.Lemmas
