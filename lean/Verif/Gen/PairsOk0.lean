import Verif.Gen.Pairs
import Verif.Lemmas.PairTable
/-! Generated by `tools/gen_pairs.py`: the check of every pair, evaluated by the kernel. -/
namespace Verif.Gen
open Verif Verif.Lemmas

theorem pairTable00_ok : pairTable00.all pairsOk = true := by decide +kernel

theorem pairTable01_ok : pairTable01.all pairsOk = true := by decide +kernel

theorem pairTable03_ok : pairTable03.all pairsOk = true := by decide +kernel

theorem pairTable04_ok : pairTable04.all pairsOk = true := by decide +kernel

end Verif.Gen
