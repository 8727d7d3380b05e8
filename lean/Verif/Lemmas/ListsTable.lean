import Verif.Lemmas.Lists
/-!
# The check of all methods of the reader
-/
namespace Verif.Lemmas
open Verif Verif.Model Verif.Spec

set_option maxRecDepth 100000 in
theorem lists_table : Gen.readTable.all listsB = true := by decide +kernel

theorem lists_load : listsB k!"load" loadBody = true := by decide +kernel

theorem lists_readers {k : Key} {b : RBody} (hb : readers k = some b) {s : RSlot} (hs : s ∈ b.slots) : listB k (assigned b.cls) s = true := by
  have h : listsB k b = true := by
    unfold readers at hb
    split at hb
    next hk => cases hb; rw [hk]; exact lists_load
    next => exact (Bst.all_toList _ _).1 lists_table _ (Bst.find?_mem hb)
  exact List.all_eq_true.1 h s hs

end Verif.Lemmas
