import Verif.Lemmas.Tags
/-!
# The tables of the names
-/
namespace Verif.Lemmas
open Verif Verif.Model Verif.Spec

set_option maxRecDepth 100000 in
theorem names_table : Gen.nameTable.all (fun f ts => pairsB wrongNames (f, ts)) = true := by decide +kernel

set_option maxRecDepth 100000 in
theorem tags_table : Gen.readTable.all (fun _ b => placesB b) = true := by decide +kernel

theorem tags_load : placesB loadBody = true := by decide +kernel

theorem placesB_readers (k : Key) (b : RBody) (hb : readers k = some b) : placesB b = true := by
  unfold readers at hb
  split at hb
  next => cases hb; exact tags_load
  next => exact (Bst.all_toList _ _).1 tags_table _ (Bst.find?_mem hb)

end Verif.Lemmas
