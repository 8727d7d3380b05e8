import Verif.Gen.PairsOk0
import Verif.Gen.PairsOk1
import Verif.Gen.PairsOk2
import Verif.Gen.PairsOk3
import Verif.Gen.PairsOk4
import Verif.Gen.PairsOk5
import Verif.Gen.PairsOk6
import Verif.Gen.PairsOk7
/-! Generated by `tools/gen_pairs.py`: all pairs are checked. -/
namespace Verif.Gen
open Verif Verif.Lemmas

theorem pairTable02_ok : pairTable02.all pairsOk = true := Bst.all_node (by decide +kernel) pairTable00_ok pairTable01_ok

theorem pairTable05_ok : pairTable05.all pairsOk = true := Bst.all_node (by decide +kernel) pairTable03_ok pairTable04_ok

theorem pairTable06_ok : pairTable06.all pairsOk = true := Bst.all_node (by decide +kernel) pairTable02_ok pairTable05_ok

theorem pairTable09_ok : pairTable09.all pairsOk = true := Bst.all_node (by decide +kernel) pairTable07_ok pairTable08_ok

theorem pairTable12_ok : pairTable12.all pairsOk = true := Bst.all_node (by decide +kernel) pairTable10_ok pairTable11_ok

theorem pairTable13_ok : pairTable13.all pairsOk = true := Bst.all_node (by decide +kernel) pairTable09_ok pairTable12_ok

theorem pairTable14_ok : pairTable14.all pairsOk = true := Bst.all_node (by decide +kernel) pairTable06_ok pairTable13_ok

theorem pairTable17_ok : pairTable17.all pairsOk = true := Bst.all_node (by decide +kernel) pairTable15_ok pairTable16_ok

theorem pairTable20_ok : pairTable20.all pairsOk = true := Bst.all_node (by decide +kernel) pairTable18_ok pairTable19_ok

theorem pairTable21_ok : pairTable21.all pairsOk = true := Bst.all_node (by decide +kernel) pairTable17_ok pairTable20_ok

theorem pairTable24_ok : pairTable24.all pairsOk = true := Bst.all_node (by decide +kernel) pairTable22_ok pairTable23_ok

theorem pairTable27_ok : pairTable27.all pairsOk = true := Bst.all_node (by decide +kernel) pairTable25_ok pairTable26_ok

theorem pairTable28_ok : pairTable28.all pairsOk = true := Bst.all_node (by decide +kernel) pairTable24_ok pairTable27_ok

theorem pairTable29_ok : pairTable29.all pairsOk = true := Bst.all_node (by decide +kernel) pairTable21_ok pairTable28_ok

theorem pairTable30_ok : pairTable30.all pairsOk = true := Bst.all_node (by decide +kernel) pairTable14_ok pairTable29_ok

theorem pairTable33_ok : pairTable33.all pairsOk = true := Bst.all_node (by decide +kernel) pairTable31_ok pairTable32_ok

theorem pairTable36_ok : pairTable36.all pairsOk = true := Bst.all_node (by decide +kernel) pairTable34_ok pairTable35_ok

theorem pairTable37_ok : pairTable37.all pairsOk = true := Bst.all_node (by decide +kernel) pairTable33_ok pairTable36_ok

theorem pairTable40_ok : pairTable40.all pairsOk = true := Bst.all_node (by decide +kernel) pairTable38_ok pairTable39_ok

theorem pairTable43_ok : pairTable43.all pairsOk = true := Bst.all_node (by decide +kernel) pairTable41_ok pairTable42_ok

theorem pairTable44_ok : pairTable44.all pairsOk = true := Bst.all_node (by decide +kernel) pairTable40_ok pairTable43_ok

theorem pairTable45_ok : pairTable45.all pairsOk = true := Bst.all_node (by decide +kernel) pairTable37_ok pairTable44_ok

theorem pairTable48_ok : pairTable48.all pairsOk = true := Bst.all_node (by decide +kernel) pairTable46_ok pairTable47_ok

theorem pairTable51_ok : pairTable51.all pairsOk = true := Bst.all_node (by decide +kernel) pairTable49_ok pairTable50_ok

theorem pairTable52_ok : pairTable52.all pairsOk = true := Bst.all_node (by decide +kernel) pairTable48_ok pairTable51_ok

theorem pairTable55_ok : pairTable55.all pairsOk = true := Bst.all_node (by decide +kernel) pairTable53_ok pairTable54_ok

theorem pairTable58_ok : pairTable58.all pairsOk = true := Bst.all_node (by decide +kernel) pairTable56_ok pairTable57_ok

theorem pairTable59_ok : pairTable59.all pairsOk = true := Bst.all_node (by decide +kernel) pairTable55_ok pairTable58_ok

theorem pairTable60_ok : pairTable60.all pairsOk = true := Bst.all_node (by decide +kernel) pairTable52_ok pairTable59_ok

theorem pairTable61_ok : pairTable61.all pairsOk = true := Bst.all_node (by decide +kernel) pairTable45_ok pairTable60_ok

theorem pairTable62_ok : pairTable62.all pairsOk = true := Bst.all_node (by decide +kernel) pairTable30_ok pairTable61_ok

theorem pairTable_ok : pairTable.all pairsOk = true := pairTable62_ok

end Verif.Gen
