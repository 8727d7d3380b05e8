import Verif.Model.Duration
import Mathlib.Data.Int.Log
import Mathlib.Algebra.Order.Round
import Mathlib.Data.Rat.Floor
import Mathlib.Algebra.Order.Field.Power
import Mathlib.Tactic.Linarith
import Mathlib.Tactic.NormNum
import Mathlib.Tactic.Positivity
import Mathlib.Tactic.Ring
import Mathlib.Tactic.FieldSimp
/-!
# Rounding to doubles
-/
namespace Verif.Lemmas
open Verif.Model

theorem rat_abs (q : Rat) : q.abs = |q| := by
  unfold Rat.abs
  split
  · rename_i h; rw [abs_of_nonneg h]
  · rename_i h; rw [abs_of_neg (not_le.1 h)]

/-- a double is an integer of 53 bits times a power of two -/
theorem isDouble_iff (q : Rat) : IsDouble q ↔ ∃ (m t : Int), m.natAbs < 2 ^ 53 ∧ q = m * (2 : Rat) ^ t := by
  constructor
  · rintro ⟨m, e, hm, h | h⟩
    · exact ⟨m, e, hm, by rw [h, zpow_natCast]⟩
    · refine ⟨m, -(e : Int), hm, ?_⟩
      rw [zpow_neg, zpow_natCast, ← h]
      field_simp
  · rintro ⟨m, t, hm, h⟩
    obtain ⟨n, rfl | rfl⟩ := t.eq_nat_or_neg
    · exact ⟨m, n, hm, .inl (by rw [h, zpow_natCast])⟩
    · refine ⟨m, n, hm, .inr ?_⟩
      rw [h, zpow_neg, zpow_natCast]
      field_simp

theorem double_int (m : Int) (h : m.natAbs < 2 ^ 53) : IsDouble m := ⟨m, 0, h, .inl (by simp)⟩

/-- also with a mantissa of exactly 2^53 -/
theorem double_of_le (m t : Int) (h : m.natAbs ≤ 2 ^ 53) : IsDouble (m * (2 : Rat) ^ t) := by
  rw [isDouble_iff]
  by_cases he : m.natAbs = 2 ^ 53
  · rcases Int.natAbs_eq m with hm | hm
    · refine ⟨2 ^ 52, t + 1, by decide, ?_⟩
      rw [hm, he, zpow_add_one₀ (by norm_num)]
      push_cast; ring
    · refine ⟨-2 ^ 52, t + 1, by decide, ?_⟩
      rw [hm, he, zpow_add_one₀ (by norm_num)]
      push_cast; ring
  · exact ⟨m, t, by omega, rfl⟩

/-- a double that is large enough is a multiple of a power of two -/
theorem double_multiple (r : Rat) (t : Int) (hr : IsDouble r) (h : (2 : Rat) ^ (52 + t) ≤ |r|) : ∃ n : Int, r = n * (2 : Rat) ^ t := by
  obtain ⟨m, s, hm, rfl⟩ := (isDouble_iff r).1 hr
  have hs : t ≤ s := by
    by_contra hlt
    have hle : 53 + s ≤ 52 + t := by omega
    have h1 : |(m : Rat) * 2 ^ s| < 2 ^ (53 + s) := by
      rw [abs_mul, abs_of_pos (show (0 : Rat) < 2 ^ s by positivity), zpow_add₀ (by norm_num)]
      refine mul_lt_mul_of_pos_right ?_ (by positivity)
      have : (m.natAbs : Rat) < 2 ^ 53 := by exact_mod_cast hm
      rw [Nat.cast_natAbs] at this
      simpa using this
    have h2 : (2 : Rat) ^ (53 + s) ≤ 2 ^ (52 + t) := zpow_le_zpow_right₀ (by norm_num) hle
    linarith
  obtain ⟨n, hn⟩ := Int.eq_ofNat_of_zero_le (show 0 ≤ s - t by omega)
  refine ⟨m * 2 ^ n, ?_⟩
  have : s = n + t := by omega
  rw [this, zpow_add₀ (by norm_num), zpow_natCast]
  push_cast; ring

/-- the nearest integer, of two the even one -/
noncomputable def evenRound (x : Rat) : Int := if Int.fract x = 1 / 2 then (if ⌊x⌋ % 2 = 0 then ⌊x⌋ else ⌊x⌋ + 1) else round x

theorem even_dist (x : Rat) : |x - evenRound x| = |x - round x| := by
  unfold evenRound
  split
  · rename_i h
    have hx : x = ⌊x⌋ + 1 / 2 := by rw [← h]; exact (Int.floor_add_fract x).symm
    rw [abs_sub_round_eq_min, h]
    split
    · have : x - ⌊x⌋ = 1 / 2 := h
      rw [this]; norm_num
    · have : x - ((⌊x⌋ + 1 : Int) : Rat) = -(1 / 2) := by push_cast; linarith
      rw [this]; norm_num
  · rfl

theorem even_near (x : Rat) : |x - evenRound x| ≤ 1 / 2 := by rw [even_dist]; exact abs_sub_round x

theorem even_le (x : Rat) (z : Int) : |x - evenRound x| ≤ |x - z| := by rw [even_dist]; exact round_le x z

theorem even_half (m : Int) : evenRound ((m : Rat) + 1 / 2) = if m % 2 = 0 then m else m + 1 := by
  have h1 : ⌊(m : Rat) + 1 / 2⌋ = m := Int.floor_eq_iff.2 ⟨by linarith, by linarith⟩
  have h2 : Int.fract ((m : Rat) + 1 / 2) = 1 / 2 := by
    unfold Int.fract
    rw [h1]; ring
  unfold evenRound
  rw [if_pos h2, h1]

/-- rounding to nearest, with 53 bits -/
noncomputable def roundD (q : Rat) : Rat :=
  if q = 0 then 0 else
    let t := Int.log 2 |q| - 52
    (evenRound (q / (2 : Rat) ^ t) : Int) * (2 : Rat) ^ t

theorem log_eq {q : Rat} {e : Int} (h0 : (2 : Rat) ^ e ≤ |q|) (h : |q| < 2 ^ (e + 1)) : Int.log 2 |q| = e := by
  have hpos : (0 : Rat) < |q| := lt_of_lt_of_le (by positivity) h0
  have h1 := Int.zpow_log_le_self (b := 2) (by norm_num) hpos
  have h2 := Int.lt_zpow_succ_log_self (b := 2) (by norm_num) |q|
  have h3 : (2 : Rat) ^ e < 2 ^ (Int.log 2 |q| + 1) := lt_of_le_of_lt h0 (by exact_mod_cast h2)
  have h4 : (2 : Rat) ^ (Int.log 2 |q|) < 2 ^ (e + 1) := lt_of_le_of_lt (by exact_mod_cast h1) h
  have := (zpow_lt_zpow_iff_right₀ (by norm_num : (1 : Rat) < 2)).1 h3
  have := (zpow_lt_zpow_iff_right₀ (by norm_num : (1 : Rat) < 2)).1 h4
  omega

/-- the distance is at most half of the last bit -/
theorem roundD_near (q : Rat) (e : Int) (h : |q| < 2 ^ (e + 1)) (h0 : (2 : Rat) ^ e ≤ |q|) : |roundD q - q| ≤ 2 ^ (e - 53) := by
  have hpos : (0 : Rat) < |q| := lt_of_lt_of_le (by positivity) h0
  have hq : q ≠ 0 := abs_pos.1 hpos
  have hl : Int.log 2 |q| = e := log_eq h0 h
  unfold roundD
  rw [if_neg hq, hl]
  simp only
  have hu : (0 : Rat) < 2 ^ (e - 52) := by positivity
  have hr := even_near (q / (2 : Rat) ^ (e - 52))
  have : (evenRound (q / (2 : Rat) ^ (e - 52)) : Rat) * 2 ^ (e - 52) - q = -((q / 2 ^ (e - 52) - evenRound (q / (2 : Rat) ^ (e - 52))) * 2 ^ (e - 52)) := by
    field_simp; ring
  rw [this, abs_neg, abs_mul, abs_of_pos hu]
  have h5 : (2 : Rat) ^ (e - 53) = 1 / 2 * 2 ^ (e - 52) := by
    rw [show e - 52 = e - 53 + 1 by omega, zpow_add_one₀ (by norm_num)]; ring
  rw [h5]
  exact mul_le_mul_of_nonneg_right hr hu.le

theorem roundD_log (q : Rat) (hq : q ≠ 0) : ∃ e : Int, (2 : Rat) ^ e ≤ |q| ∧ |q| < 2 ^ (e + 1) :=
  ⟨Int.log 2 |q|, by exact_mod_cast Int.zpow_log_le_self (b := 2) (by norm_num) (abs_pos.2 hq),
    by exact_mod_cast Int.lt_zpow_succ_log_self (b := 2) (by norm_num) |q|⟩

theorem roundD_double (q : Rat) : IsDouble (roundD q) := by
  by_cases hq : q = 0
  · unfold roundD; rw [if_pos hq]; exact ⟨0, 0, by simp, .inl (by simp)⟩
  obtain ⟨e, h0, h⟩ := roundD_log q hq
  have hl : Int.log 2 |q| = e := log_eq h0 h
  unfold roundD
  rw [if_neg hq, hl]
  refine double_of_le _ _ ?_
  have hu : (0 : Rat) < 2 ^ (e - 52) := by positivity
  have h1 : |q / 2 ^ (e - 52)| < 2 ^ 53 := by
    rw [abs_div, abs_of_pos hu, div_lt_iff₀ hu]
    have : (2 : Rat) ^ (e + 1) = 2 ^ 53 * 2 ^ (e - 52) := by
      rw [show e + 1 = (53 : Int) + (e - 52) by omega, zpow_add₀ (by norm_num)]; norm_num
    rw [← this]; exact h
  have hr := abs_le.1 (even_near (q / (2 : Rat) ^ (e - 52)))
  have h2 := abs_lt.1 h1
  have h3 : (evenRound (q / (2 : Rat) ^ (e - 52)) : Rat) < 2 ^ 53 + 1 := by linarith [hr.1, h2.2]
  have h4 : -(2 ^ 53 + 1 : Rat) < evenRound (q / (2 : Rat) ^ (e - 52)) := by linarith [hr.2, h2.1]
  have h3' : evenRound (q / (2 : Rat) ^ (e - 52)) < 2 ^ 53 + 1 := by exact_mod_cast h3
  have h4' : -(2 ^ 53 + 1) < evenRound (q / (2 : Rat) ^ (e - 52)) := by exact_mod_cast h4
  norm_num at h3' h4' ⊢
  omega

/-- no double is nearer -/
theorem roundD_nearest (q d : Rat) (hd : IsDouble d) : |roundD q - q| ≤ |d - q| := by
  by_cases hq : q = 0
  · unfold roundD; rw [if_pos hq, hq]; simp
  obtain ⟨e, h0, h⟩ := roundD_log q hq
  have hl : Int.log 2 |q| = e := log_eq h0 h
  have hu : (0 : Rat) < 2 ^ (e - 52) := by positivity
  -- among multiples of the last bit
  have key : ∀ n : Int, |roundD q - q| ≤ |n * (2 : Rat) ^ (e - 52) - q| := by
    intro n
    have hr := even_le (q / (2 : Rat) ^ (e - 52)) n
    unfold roundD
    rw [if_neg hq, hl]
    simp only
    have h1 : (evenRound (q / (2 : Rat) ^ (e - 52)) : Rat) * 2 ^ (e - 52) - q = -((q / 2 ^ (e - 52) - evenRound (q / (2 : Rat) ^ (e - 52))) * 2 ^ (e - 52)) := by
      field_simp; ring
    have h2 : (n : Rat) * 2 ^ (e - 52) - q = -((q / 2 ^ (e - 52) - n) * 2 ^ (e - 52)) := by
      field_simp; ring
    rw [h1, h2, abs_neg, abs_neg, abs_mul, abs_mul, abs_of_pos hu]
    exact mul_le_mul_of_nonneg_right hr hu.le
  by_cases hb : (2 : Rat) ^ e ≤ |d|
  · obtain ⟨n, hn⟩ := double_multiple d (e - 52) hd (by rw [show (52 : Int) + (e - 52) = e by omega]; exact hb)
    rw [hn]; exact key n
  · -- the power of two between the two is nearer
    have hp : (2 : Rat) ^ e = ((2 ^ 52 : Int) : Rat) * 2 ^ (e - 52) := by
      conv_lhs => rw [show e = (52 : Int) + (e - 52) by omega, zpow_add₀ (by norm_num)]
      norm_num
    have hd' := abs_lt.1 (not_le.1 hb)
    rcases lt_or_gt_of_ne hq with hneg | hpos
    · rw [abs_of_neg hneg] at h0
      refine le_trans (key (-2 ^ 52)) ?_
      have : (((-2 ^ 52 : Int) : Rat)) * 2 ^ (e - 52) = -2 ^ e := by rw [hp]; push_cast; ring
      rw [this, abs_of_nonneg (by linarith), abs_of_nonneg (by linarith)]
      linarith
    · rw [abs_of_pos hpos] at h0
      refine le_trans (key (2 ^ 52)) ?_
      rw [← hp, abs_of_nonpos (by linarith), abs_of_nonpos (by linarith)]
      linarith

theorem roundD_exact (q : Rat) (h : IsDouble q) : roundD q = q := by
  have := roundD_nearest q q h
  rw [sub_self, abs_zero] at this
  have := abs_nonpos_iff.1 this
  linarith

theorem roundD_neg (q : Rat) (h : roundD q < 0) : q < 0 := by
  by_contra hc
  have := roundD_nearest q 0 ⟨0, 0, by simp, .inl (by simp)⟩
  rw [zero_sub, abs_neg, abs_of_nonneg (not_lt.1 hc), abs_of_nonpos (by linarith)] at this
  linarith

/-- an instance of `Py` with correct rounding (and no largest number) -/
noncomputable def _root_.Verif.Model.Py.ieee : Py :=
  { Py.demo with
    F := Rat
    ofRat := roundD
    toRat := some
    ltZero := fun q => decide (q < 0)
    ofRat_neg := fun q h => roundD_neg q (by simpa using h)
    ltZero_toRat := by intro f q h; cases h; rfl
    exact := by intro q h _; rw [roundD_exact q h]
    double := by intro q r h; cases h; exact roundD_double q }

theorem ieee_ieee : Ieee Py.ieee where
  finite q _ := ⟨roundD q, rfl⟩
  nearest q r d _ h hd := by
    cases h
    rw [rat_abs, rat_abs]
    exact roundD_nearest q d hd

theorem ieee_even : TiesEven Py.ieee where
  even m n h1 h2 _ := by
    show some (roundD _) = _
    have hm : ((2 ^ 52 : Int) : Rat) ≤ m := by exact_mod_cast h1
    have hm' : (m : Rat) + 1 ≤ ((2 ^ 53 : Int) : Rat) := by exact_mod_cast h2
    have hp : (0 : Rat) < 2 ^ n := by positivity
    have hq : ((m : Rat) + 1 / 2) / 2 ^ n = (m + 1 / 2) * 2 ^ (-(n : Int)) := by rw [zpow_neg, zpow_natCast]; rfl
    have hz : (0 : Rat) < 2 ^ (-(n : Int)) := by positivity
    have hpos : (0 : Rat) < (m + 1 / 2) * 2 ^ (-(n : Int)) := mul_pos (by norm_num at hm; linarith) hz
    have hl : Int.log 2 |((m : Rat) + 1 / 2) * 2 ^ (-(n : Int))| = 52 - n := by
      refine log_eq ?_ ?_
      · rw [abs_of_pos hpos, show (52 : Int) - n = 52 + -(n : Int) by omega, zpow_add₀ (by norm_num)]
        refine mul_le_mul_of_nonneg_right ?_ hz.le
        norm_num at hm ⊢; linarith
      · rw [abs_of_pos hpos, show (52 : Int) - n + 1 = 53 + -(n : Int) by omega, zpow_add₀ (by norm_num)]
        refine mul_lt_mul_of_pos_right ?_ hz
        norm_num at hm' ⊢; linarith
    rw [hq]
    unfold roundD
    rw [if_neg hpos.ne', hl]
    simp only
    rw [show (52 : Int) - n - 52 = -(n : Int) by omega, mul_div_assoc, div_self hz.ne', mul_one, even_half, zpow_neg, zpow_natCast]
    rfl

/-! ## Consequences of rounding to nearest -/

section
variable {py : Py} (I : Ieee py)
include I

/-- the result is within half of the last bit -/
theorem near (q r : Rat) (e : Int) (he : -900 ≤ e) (h0 : (2 : Rat) ^ e ≤ |q|) (h : |q| < 2 ^ (e + 1)) (hr : py.toRat (py.ofRat q) = some r) :
    |r - q| ≤ 2 ^ (e - 53) := by
  have h1 : (1 : Rat) ≤ |q| * 2 ^ 900 := by
    have : (2 : Rat) ^ (-900 : Int) ≤ 2 ^ e := zpow_le_zpow_right₀ (by norm_num) he
    have h2 : (2 : Rat) ^ (-900 : Int) * 2 ^ (900 : Nat) = 1 := by
      rw [← zpow_natCast, ← zpow_add₀ (by norm_num)]; norm_num
    rw [← h2]
    exact mul_le_mul_of_nonneg_right (le_trans this h0) (by positivity)
  have := I.nearest q r _ (by rw [rat_abs]; exact h1) hr (roundD_double q)
  rw [rat_abs, rat_abs] at this
  exact le_trans this (roundD_near q e h h0)

/-- a number next to a double becomes that double -/
theorem rounds_to (q : Rat) (M t : Int) (hq : 1 ≤ |q| * 2 ^ 900) (hq' : |q| ≤ 2 ^ 900) (hM : 2 ^ 52 ≤ M) (hM' : M ≤ 2 ^ 53)
    (hn : |q - M * (2 : Rat) ^ t| < 2 ^ (t - 1)) (hb : M = 2 ^ 52 → (M : Rat) * 2 ^ t ≤ q) :
    py.toRat (py.ofRat q) = some (M * (2 : Rat) ^ t) := by
  obtain ⟨r, hr⟩ := I.finite q (by rw [rat_abs]; exact hq')
  rw [hr]
  have hc : IsDouble ((M : Rat) * 2 ^ t) := double_of_le _ _ (by omega)
  have h1 := I.nearest q r _ (by rw [rat_abs]; exact hq) hr hc
  rw [rat_abs, rat_abs, abs_sub_comm ((M : Rat) * 2 ^ t)] at h1
  have ht : (2 : Rat) ^ t = 2 * 2 ^ (t - 1) := by
    conv_lhs => rw [show t = t - 1 + 1 by omega, zpow_add_one₀ (by norm_num)]
    ring
  have hu : (0 : Rat) < 2 ^ (t - 1) := by positivity
  have hp : (2 : Rat) ^ (52 + t) = (2 ^ 52) * 2 ^ t := by rw [zpow_add₀ (by norm_num)]; norm_num
  have h2 := abs_lt.1 hn
  have h3 := abs_le.1 h1
  have hlow : (2 : Rat) ^ (52 + t) ≤ r := by
    by_cases hm : M = 2 ^ 52
    · have h4 := hb hm
      rw [abs_of_nonneg (by linarith)] at h3
      have : (M : Rat) = 2 ^ 52 := by rw [hm]; norm_num
      rw [hp, ← this]
      linarith [h3.1]
    · have h5 : (2 : Rat) ^ 52 + 1 ≤ M := by
        have : (2 ^ 52 + 1 : Int) ≤ M := by omega
        exact_mod_cast this
      have h6 := abs_le.1 (le_of_lt hn)
      have h7 : (2 ^ 52 + 1) * (2 : Rat) ^ t ≤ M * 2 ^ t := mul_le_mul_of_nonneg_right h5 (by positivity)
      have h8 := le_of_lt hn
      rw [hp]
      linarith [h3.1, h2.1]
  obtain ⟨n, hn'⟩ := double_multiple r t (py.double _ _ hr) (le_trans hlow (le_abs_self r))
  have h9 : |r - M * (2 : Rat) ^ t| < 2 ^ t := by
    rw [abs_lt]
    constructor <;> linarith [h3.1, h3.2, h2.1, h2.2]
  rw [hn', ← sub_mul, abs_mul, abs_of_pos (show (0 : Rat) < 2 ^ t by positivity)] at h9
  have h10 : |(n : Rat) - M| < 1 := by
    have h11 : (0 : Rat) < 2 ^ t := by positivity
    by_contra hge
    have := mul_le_mul_of_nonneg_right (not_lt.1 hge) h11.le
    linarith
  have h12 : |n - M| < 1 := by exact_mod_cast h10
  have : n = M := by
    have := abs_lt.1 h12
    omega
  rw [hn', this]

/-- rounding does not jump over a double -/
theorem round_le_double (q r d : Rat) (hq : 1 ≤ |q| * 2 ^ 900) (hr : py.toRat (py.ofRat q) = some r) (hd : IsDouble d) (h : q ≤ d) : r ≤ d := by
  have h1 := I.nearest q r _ (by rw [rat_abs]; exact hq) hr hd
  rw [rat_abs, rat_abs, abs_of_nonneg (by linarith : 0 ≤ d - q)] at h1
  linarith [(abs_le.1 h1).2]

theorem double_le_round (q r d : Rat) (hq : 1 ≤ |q| * 2 ^ 900) (hr : py.toRat (py.ofRat q) = some r) (hd : IsDouble d) (h : d ≤ q) : d ≤ r := by
  have h1 := I.nearest q r _ (by rw [rat_abs]; exact hq) hr hd
  rw [rat_abs, rat_abs, abs_of_nonpos (by linarith : d - q ≤ 0)] at h1
  linarith [(abs_le.1 h1).1]

end

end Verif.Lemmas
