import Verif.Gen.Pairs
import Verif.Lemmas.PairTable
/-! Generated by `tools/gen_pairs.py`: the check of every pair, evaluated by the kernel. -/
namespace Verif.Gen
open Verif Verif.Lemmas

theorem pairTable38_ok : pairTable38.all pairsOk = true := by decide +kernel

theorem pairTable39_ok : pairTable39.all pairsOk = true := by decide +kernel

theorem pairTable41_ok : pairTable41.all pairsOk = true := by decide +kernel

theorem pairTable42_ok : pairTable42.all pairsOk = true := by decide +kernel

end Verif.Gen
