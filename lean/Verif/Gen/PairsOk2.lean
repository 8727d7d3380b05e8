import Verif.Gen.Pairs
import Verif.Lemmas.PairTable
/-! Generated by `tools/gen_pairs.py`: the check of every pair, evaluated by the kernel. -/
namespace Verif.Gen
open Verif Verif.Lemmas

theorem pairTable15_ok : pairTable15.all pairsOk = true := by decide +kernel

theorem pairTable16_ok : pairTable16.all pairsOk = true := by decide +kernel

theorem pairTable18_ok : pairTable18.all pairsOk = true := by decide +kernel

theorem pairTable19_ok : pairTable19.all pairsOk = true := by decide +kernel

end Verif.Gen
