import Verif.Gen.Pairs
import Verif.Lemmas.PairTable
/-! Generated by `tools/gen_pairs.py`: the check of every pair, evaluated by the kernel. -/
namespace Verif.Gen
open Verif Verif.Lemmas

theorem pairTable31_ok : pairTable31.all pairsOk = true := by decide +kernel

theorem pairTable32_ok : pairTable32.all pairsOk = true := by decide +kernel

theorem pairTable34_ok : pairTable34.all pairsOk = true := by decide +kernel

theorem pairTable35_ok : pairTable35.all pairsOk = true := by decide +kernel

end Verif.Gen
