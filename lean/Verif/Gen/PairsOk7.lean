import Verif.Gen.Pairs
import Verif.Lemmas.PairTable
/-! Generated by `tools/gen_pairs.py`: the check of every pair, evaluated by the kernel. -/
namespace Verif.Gen
open Verif Verif.Lemmas

theorem pairTable53_ok : pairTable53.all pairsOk = true := by decide +kernel

theorem pairTable54_ok : pairTable54.all pairsOk = true := by decide +kernel

theorem pairTable56_ok : pairTable56.all pairsOk = true := by decide +kernel

theorem pairTable57_ok : pairTable57.all pairsOk = true := by decide +kernel

end Verif.Gen
