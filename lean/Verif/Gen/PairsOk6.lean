import Verif.Gen.Pairs
import Verif.Lemmas.PairTable
/-! Generated by `tools/gen_pairs.py`: the check of every pair, evaluated by the kernel. -/
namespace Verif.Gen
open Verif Verif.Lemmas

theorem pairTable46_ok : pairTable46.all pairsOk = true := by decide +kernel

theorem pairTable47_ok : pairTable47.all pairsOk = true := by decide +kernel

theorem pairTable49_ok : pairTable49.all pairsOk = true := by decide +kernel

theorem pairTable50_ok : pairTable50.all pairsOk = true := by decide +kernel

end Verif.Gen
