import Verif.Gen.Pairs
import Verif.Lemmas.PairTable
/-! Generated by `tools/gen_pairs.py`: the check of every pair, evaluated by the kernel. -/
namespace Verif.Gen
open Verif Verif.Lemmas

theorem pairTable07_ok : pairTable07.all pairsOk = true := by decide +kernel

theorem pairTable08_ok : pairTable08.all pairsOk = true := by decide +kernel

theorem pairTable10_ok : pairTable10.all pairsOk = true := by decide +kernel

theorem pairTable11_ok : pairTable11.all pairsOk = true := by decide +kernel

end Verif.Gen
