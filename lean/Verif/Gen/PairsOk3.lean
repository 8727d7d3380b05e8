import Verif.Gen.Pairs
import Verif.Lemmas.PairTable
/-! Generated by `tools/gen_pairs.py`: the check of every pair, evaluated by the kernel. -/
namespace Verif.Gen
open Verif Verif.Lemmas

theorem pairTable22_ok : pairTable22.all pairsOk = true := by decide +kernel

theorem pairTable23_ok : pairTable23.all pairsOk = true := by decide +kernel

theorem pairTable25_ok : pairTable25.all pairsOk = true := by decide +kernel

theorem pairTable26_ok : pairTable26.all pairsOk = true := by decide +kernel

end Verif.Gen
