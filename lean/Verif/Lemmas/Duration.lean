import Verif.Lemmas.Round
/-!
# Milliseconds
-/
namespace Verif.Lemmas
open Verif.Model

section
variable {py : Py} (I : Ieee py)
include I

/-- bounds that `Ieee` asks for -/
theorem bounds {q : Rat} (h : 1 / 1000 ≤ q) (h' : q ≤ 2 ^ 60) : 1 ≤ |q| * 2 ^ 900 ∧ |q| ≤ 2 ^ 900 := by
  have h0 : 0 ≤ q := by linarith
  rw [abs_of_nonneg h0]
  refine ⟨?_, le_trans h' (pow_le_pow_right₀ (by norm_num) (by norm_num))⟩
  have h1 : (2 : Rat) ^ 10 ≤ 2 ^ 900 := pow_le_pow_right₀ (by norm_num) (by norm_num)
  have h2 : (1 : Rat) / 1000 * 2 ^ 10 ≤ q * 2 ^ 900 := mul_le_mul h h1 (by positivity) h0
  refine le_trans ?_ h2
  norm_num

/-- seconds of a whole number of milliseconds: the float, and how far 1000 times that is from the number -/
theorem seconds (k : Nat) (hk : 1 ≤ k) (hk' : k < 2 ^ 52) : ∃ (r : Rat) (e : Int), py.toRat (py.ofRat ((k : Rat) / 1000)) = some r ∧
    1000 * (2 : Rat) ^ e ≤ k ∧ (k : Rat) < 2000 * 2 ^ e ∧ |r * 1000 - k| ≤ 1000 * 2 ^ (e - 53) := by
  have hkq : (1 : Rat) ≤ k := by exact_mod_cast hk
  have hkq' : (k : Rat) < 4503599627370496 := by have : k < 4503599627370496 := by simpa using hk'
                                                 exact_mod_cast this
  have hq : (1 : Rat) / 1000 ≤ (k : Rat) / 1000 := by linarith
  have hq' : (k : Rat) / 1000 ≤ 2 ^ 60 := by norm_num; linarith
  obtain ⟨b1, b2⟩ := bounds I hq hq'
  obtain ⟨r, hr⟩ := I.finite _ (by rw [rat_abs]; exact b2)
  obtain ⟨e, h0, h⟩ := roundD_log ((k : Rat) / 1000) (by positivity)
  have habs : |(k : Rat) / 1000| = k / 1000 := abs_of_nonneg (by positivity)
  have he : -900 ≤ e := by
    have h1 : (2 : Rat) ^ (-10 : Int) < 2 ^ (e + 1) := by
      refine lt_of_le_of_lt ?_ h
      rw [habs]; norm_num; linarith
    have := (zpow_lt_zpow_iff_right₀ (by norm_num : (1 : Rat) < 2)).1 h1
    omega
  have hn := near I _ r e he h0 h hr
  rw [habs] at h0 h
  refine ⟨r, e, hr, by linarith, ?_, ?_⟩
  · rw [zpow_add_one₀ (by norm_num)] at h; linarith
  · have : r * 1000 - k = 1000 * (r - k / 1000) := by ring
    rw [this, abs_mul, abs_of_pos (by norm_num : (0 : Rat) < 1000)]
    linarith

/-- the product is within a half of the number -/
theorem product (k : Nat) (hk : 1 ≤ k) (hk' : k < 2 ^ 52) : ∃ r s : Rat, py.toRat (py.ofRat ((k : Rat) / 1000)) = some r ∧
    py.toRat (py.ofRat (r * 1000)) = some s ∧ (k : Rat) - 1 / 2 ≤ s ∧ s ≤ k + 1 / 2 := by
  obtain ⟨r, e, hr, h1, h2, h3⟩ := seconds I k hk hk'
  have hkq : (1 : Rat) ≤ k := by exact_mod_cast hk
  have hkq' : (k : Rat) < 4503599627370496 := by have : k < 4503599627370496 := by simpa using hk'
                                                 exact_mod_cast this
  have h4 : (1000 : Rat) * 2 ^ (e - 53) ≤ 1 / 2 := by
    have : (2 : Rat) ^ (e - 53) = 2 ^ e / 2 ^ 53 := by rw [zpow_sub₀ (by norm_num)]; norm_num
    rw [this, ← mul_div_assoc, div_le_iff₀ (by norm_num)]
    norm_num
    linarith
  have h5 := abs_le.1 (le_trans h3 h4)
  obtain ⟨b1, b2⟩ := bounds I (q := r * 1000) (by linarith [h5.1]) (by norm_num; linarith [h5.2])
  obtain ⟨s, hs⟩ := I.finite _ (by rw [rat_abs]; exact b2)
  have hd : ∀ j : Int, j.natAbs < 2 ^ 53 → IsDouble ((j : Rat) / 2) := fun j hj => ⟨j, 1, hj, .inr (by ring)⟩
  refine ⟨r, s, hr, hs, ?_, ?_⟩
  · have := hd (2 * k - 1) (by norm_num at hk' ⊢; omega)
    have e1 : (((2 * k - 1 : Int)) : Rat) / 2 = k - 1 / 2 := by push_cast; ring
    rw [e1] at this
    exact double_le_round I _ s _ b1 hs this (by linarith [h5.1])
  · have := hd (2 * k + 1) (by norm_num at hk' ⊢; omega)
    have e1 : (((2 * k + 1 : Int)) : Rat) / 2 = k + 1 / 2 := by push_cast; ring
    rw [e1] at this
    exact round_le_double I _ s _ b1 hs this (by linarith [h5.2])

/-- the product is exact unless the number is a little more than 1000 times a power of two -/
theorem product_exact (k : Nat) (hk : 1 ≤ k) (hk' : k < 2 ^ 52) (hw : ∀ j : Int, ¬ (1000 * (2 : Rat) ^ j < k ∧ (k : Rat) ≤ 1024 * 2 ^ j)) :
    ∃ r : Rat, py.toRat (py.ofRat ((k : Rat) / 1000)) = some r ∧ py.toRat (py.ofRat (r * 1000)) = some (k : Rat) := by
  obtain ⟨r, e, hr, h1, h2, h3⟩ := seconds I k hk hk'
  refine ⟨r, hr, ?_⟩
  have hkq : (1 : Rat) ≤ k := by exact_mod_cast hk
  have hkq' : (k : Rat) < 4503599627370496 := by have : k < 4503599627370496 := by simpa using hk'
                                                 exact_mod_cast this
  have hkd : IsDouble (k : Rat) := ⟨k, 0, by norm_num at hk' ⊢; omega, .inl (by simp)⟩
  have hex : py.toRat (py.ofRat (k : Rat)) = some (k : Rat) := by
    refine py.exact _ hkd ?_
    rw [Rat.num_natCast, Int.natAbs_natCast]
    exact Nat.lt_trans hk' (Nat.pow_lt_pow_right (by decide) (by decide))
  rcases h1.eq_or_lt with heq | hlt
  · -- a power of two
    have h4 : py.toRat (py.ofRat ((k : Rat) / 1000)) = some ((2 ^ 52 : Int) * (2 : Rat) ^ (e - 52)) := by
      have hq : (1 : Rat) / 1000 ≤ (k : Rat) / 1000 := by linarith
      have hq' : (k : Rat) / 1000 ≤ 2 ^ 60 := by norm_num; linarith
      obtain ⟨b1, b2⟩ := bounds I hq hq'
      have h5 : (k : Rat) / 1000 = (2 ^ 52 : Int) * (2 : Rat) ^ (e - 52) := by
        rw [← heq, zpow_sub₀ (by norm_num)]; norm_num; ring
      refine rounds_to I _ _ _ b1 b2 (by norm_num) (by norm_num) ?_ (fun _ => h5.ge)
      rw [← h5, sub_self, abs_zero]; positivity
    rw [hr] at h4
    have h5 : r * 1000 = k := by
      rw [Option.some.inj h4, ← heq, zpow_sub₀ (by norm_num)]; norm_num; ring
    rw [h5]; exact hex
  · have hge : (1024 : Rat) * 2 ^ e < k := not_le.1 fun hle => hw e ⟨hlt, hle⟩
    have hE : (1024 : Rat) * 2 ^ e = 2 ^ (e + 10) := by rw [zpow_add₀ (by norm_num)]; norm_num; ring
    have hlt52 : e + 10 < 52 := by
      have : (2 : Rat) ^ (e + 10) < 2 ^ (52 : Int) := by rw [← hE]; exact lt_trans hge (lt_of_lt_of_eq hkq' (by norm_num))
      exact (zpow_lt_zpow_iff_right₀ (by norm_num : (1 : Rat) < 2)).1 this
    obtain ⟨n, hn⟩ := Int.eq_ofNat_of_zero_le (show 0 ≤ 42 - e by omega)
    have he : e = 42 - n := by omega
    have hkM : (k : Rat) = ((k * 2 ^ n : Int) : Rat) * (2 : Rat) ^ (e - 42) := by
      rw [he, show (42 - (n : Int) - 42) = -(n : Int) by omega, zpow_neg, zpow_natCast]
      push_cast; field_simp
    have h5 := abs_le.1 h3
    have h53 : (1000 : Rat) * 2 ^ (e - 53) ≤ 1 / 2 := by
      have : (2 : Rat) ^ (e - 53) = 2 ^ e / 2 ^ 53 := by rw [zpow_sub₀ (by norm_num)]; norm_num
      rw [this, ← mul_div_assoc, div_le_iff₀ (by norm_num)]
      norm_num
      linarith
    obtain ⟨b1, b2⟩ := bounds I (q := r * 1000) (by linarith [h5.1]) (by norm_num; linarith [h5.2])
    have hMlow : (2 : Rat) ^ 52 < ((k * 2 ^ n : Int) : Rat) := by
      have : (2 : Rat) ^ (e + 10) < ((k * 2 ^ n : Int) : Rat) * (2 : Rat) ^ (e - 42) := by rw [← hkM, ← hE]; exact hge
      rw [show e + 10 = 52 + (e - 42) by omega, zpow_add₀ (by norm_num)] at this
      exact_mod_cast lt_of_mul_lt_mul_right this (by positivity)
    have hMhigh : ((k * 2 ^ n : Int) : Rat) ≤ 2 ^ 53 := by
      have : ((k * 2 ^ n : Int) : Rat) * (2 : Rat) ^ (e - 42) < 2 ^ (e + 11) := by
        rw [← hkM]
        refine lt_trans h2 ?_
        rw [zpow_add₀ (by norm_num)]
        have : (0 : Rat) < 2 ^ e := by positivity
        norm_num; linarith
      rw [show e + 11 = 53 + (e - 42) by omega, zpow_add₀ (by norm_num)] at this
      exact le_of_lt (by exact_mod_cast lt_of_mul_lt_mul_right this (by positivity))
    have := rounds_to I (r * 1000) (k * 2 ^ n) (e - 42) b1 b2 (by exact_mod_cast hMlow.le) (by exact_mod_cast hMhigh) (by
      rw [← hkM]
      refine lt_of_le_of_lt h3 ?_
      have h6 : (2 : Rat) ^ (e - 42 - 1) = 1024 * 2 ^ (e - 53) := by
        rw [show e - 42 - 1 = 10 + (e - 53) by omega, zpow_add₀ (by norm_num)]; norm_num
      rw [h6]
      exact mul_lt_mul_of_pos_right (by norm_num) (by positivity)) (fun h => by rw [h] at hMlow; norm_num at hMlow)
    rw [this, ← hkM]

/-- the number is a little more than 1000 times a power of two: what matters is the remainder -/
theorem product_window (k s : Nat) (hk : 1 ≤ k) (hk' : k < 2 ^ 52) (hs : 10 ≤ s) (h1 : 1000 * 2 ^ 52 < k * 2 ^ s) (h2 : k * 2 ^ s ≤ 2 ^ 62) :
    ∃ r y : Rat, py.toRat (py.ofRat ((k : Rat) / 1000)) = some r ∧ py.toRat (py.ofRat (r * 1000)) = some y ∧
      (256 < k * 2 ^ s % 1000 → k * 2 ^ s % 1000 < 500 → y < k) ∧
      (k * 2 ^ s % 1000 < 256 ∨ 500 ≤ k * 2 ^ s % 1000 → (k : Rat) ≤ y) ∧
      (k * 2 ^ s % 1000 = 256 → TiesEven py → (k : Rat) ≤ y) ∧ (k : Rat) - 1 / 2 ≤ y ∧ y ≤ k + 1 / 2 := by
  obtain ⟨r, y, hr, hy, hlo, hhi⟩ := product I k hk hk'
  have hkq : (1 : Rat) ≤ k := by exact_mod_cast hk
  have hkq' : (k : Rat) < 4503599627370496 := by have : k < 4503599627370496 := by simpa using hk'
                                                 exact_mod_cast this
  obtain ⟨n, rfl⟩ : ∃ n, s = n + 10 := ⟨s - 10, by omega⟩
  generalize hN : k * 2 ^ (n + 10) = N at h1 h2
  have h500 : N % 1000 ≠ 500 := by
    have : N = 8 * (k * 2 ^ (n + 7)) := by rw [← hN, pow_add, pow_add]; ring
    omega
  obtain ⟨D, hD⟩ : ∃ D : Int, D = if N % 1000 < 500 then -((N % 1000 : Nat) : Int) else 1000 - ((N % 1000 : Nat) : Int) := ⟨_, rfl⟩
  obtain ⟨M, hM⟩ : ∃ M : Int, 1000 * M = N + D := by
    refine ⟨if N % 1000 < 500 then ((N / 1000 : Nat) : Int) else (N / 1000 : Nat) + 1, ?_⟩
    rw [hD]
    split <;> omega
  have hMlo : 2 ^ 52 ≤ M := by rw [hD] at hM; norm_num at h1 ⊢; split at hM <;> omega
  have hMhi : M ≤ 2 ^ 53 := by rw [hD] at hM; norm_num at h2 ⊢; split at hM <;> omega
  have hDlo : -500 < D ∧ D < 500 := by rw [hD]; split <;> omega
  have hp : (0 : Rat) < 2 ^ (n + 10) := by positivity
  have hNq : (k : Rat) = (N : Rat) / 2 ^ (n + 10) := by rw [← hN]; push_cast; field_simp
  have hz : (2 : Rat) ^ (-((n + 10 : Nat) : Int)) = 1 / 2 ^ (n + 10) := by rw [zpow_neg, zpow_natCast, one_div]
  have hMq : (M : Rat) = (N + D) / 1000 := by
    have : ((1000 * M : Int) : Rat) = ((N + D : Int) : Rat) := by rw [hM]
    push_cast at this
    linarith
  -- the float of the seconds
  have hr' : py.toRat (py.ofRat ((k : Rat) / 1000)) = some (M * (2 : Rat) ^ (-((n + 10 : Nat) : Int))) := by
    have hq : (1 : Rat) / 1000 ≤ (k : Rat) / 1000 := by linarith
    have hq' : (k : Rat) / 1000 ≤ 2 ^ 60 := by norm_num; linarith
    obtain ⟨b1, b2⟩ := bounds I hq hq'
    refine rounds_to I _ _ _ b1 b2 hMlo hMhi ?_ ?_
    · rw [zpow_sub_one₀ (by norm_num), hz, hMq, hNq]
      have : (N : Rat) / 2 ^ (n + 10) / 1000 - (N + D) / 1000 * (1 / 2 ^ (n + 10)) = -D / 1000 * (1 / 2 ^ (n + 10)) := by field_simp; ring
      rw [this, abs_mul, abs_of_pos (by positivity : (0 : Rat) < 1 / 2 ^ (n + 10)), mul_comm]
      refine mul_lt_mul_of_pos_left ?_ (by positivity)
      have hd1 : (-500 : Rat) < D := by exact_mod_cast hDlo.1
      have hd2 : (D : Rat) < 500 := by exact_mod_cast hDlo.2
      rw [abs_lt]
      constructor <;> linarith
    · intro hM52
      rw [hz, hMq, hNq]
      have hneg : D ≤ 0 := by
        rw [hM52] at hM
        norm_num at hM h1
        omega
      have hneg' : (D : Rat) ≤ 0 := by exact_mod_cast hneg
      have : (N : Rat) / 2 ^ (n + 10) / 1000 - (N + D) / 1000 * (1 / 2 ^ (n + 10)) = -D / 1000 * (1 / 2 ^ (n + 10)) := by field_simp; ring
      have h3 : 0 ≤ -(D : Rat) / 1000 * (1 / 2 ^ (n + 10)) := mul_nonneg (by linarith) (by positivity)
      linarith
  have hreq : r * 1000 = k + D * (1 / 2 ^ (n + 10)) := by
    rw [hr] at hr'
    rw [Option.some.inj hr', hz, hMq, hNq]
    field_simp
  obtain ⟨b1, b2⟩ : 1 ≤ |r * 1000| * 2 ^ 900 ∧ |r * 1000| ≤ 2 ^ 900 := by
    have hd1 : (-500 : Rat) < D := by exact_mod_cast hDlo.1
    have hd2 : (D : Rat) < 500 := by exact_mod_cast hDlo.2
    have h3 : (1 : Rat) / 2 ^ (n + 10) ≤ 1 / 1024 := by
      refine one_div_le_one_div_of_le (by norm_num) ?_
      calc (1024 : Rat) = 2 ^ 10 := by norm_num
        _ ≤ 2 ^ (n + 10) := pow_le_pow_right₀ (by norm_num) (by omega)
    have h4 : (0 : Rat) < 1 / 2 ^ (n + 10) := by positivity
    have h5 : (D : Rat) * (1 / 2 ^ (n + 10)) ≤ 1 / 2 := by
      calc (D : Rat) * (1 / 2 ^ (n + 10)) ≤ 500 * (1 / 2 ^ (n + 10)) := mul_le_mul_of_nonneg_right hd2.le h4.le
        _ ≤ 1 / 2 := by linarith
    have h6 : -(1 / 2) ≤ (D : Rat) * (1 / 2 ^ (n + 10)) := by
      calc -(1 / 2) ≤ -500 * (1 / 2 ^ (n + 10)) := by linarith
        _ ≤ (D : Rat) * (1 / 2 ^ (n + 10)) := mul_le_mul_of_nonneg_right hd1.le h4.le
    exact bounds I (by rw [hreq]; linarith) (by rw [hreq]; exact le_trans (b := (k : Rat) + 1 / 2) (by linarith) (by norm_num; linarith))
  have hp4 : (0 : Rat) < 1 / 2 ^ (n + 10) := by positivity
  have hz' : (2 : Rat) ^ (-((n + 1 : Nat) : Int)) = 512 * (1 / 2 ^ (n + 10)) := by
    rw [zpow_neg, zpow_natCast, pow_add, pow_add]; field_simp; norm_num
  have hkM : (k : Rat) = ((k * 2 ^ (n + 1) : Int) : Rat) * (2 : Rat) ^ (-((n + 1 : Nat) : Int)) := by
    rw [zpow_neg, zpow_natCast]; push_cast; field_simp
  have hm1 : 2 * N = 1024 * (k * 2 ^ (n + 1)) := by rw [← hN, pow_add, pow_add]; ring
  refine ⟨r, y, hr, hy, ?_, ?_, ?_, hlo, hhi⟩
  · intro hm hm'
    have hDm : D = -((N % 1000 : Nat) : Int) := by rw [hD, if_pos hm']
    have hDq : (D : Rat) < -256 := by have : D < -256 := by omega
                                      exact_mod_cast this
    have hDq' : (-500 : Rat) < D := by exact_mod_cast hDlo.1
    -- the double below the number is nearer
    have hd : IsDouble ((k : Rat) - 512 * (1 / 2 ^ (n + 10))) := by
      have h3 : (k : Rat) - 512 * (1 / 2 ^ (n + 10)) = ((k * 2 ^ (n + 1) - 1 : Int) : Rat) * (2 : Rat) ^ (-((n + 1 : Nat) : Int)) := by
        conv_lhs => rw [hkM, ← hz']
        push_cast; ring
      rw [h3]
      refine double_of_le _ _ ?_
      have : k * 2 ^ (n + 1) ≤ 2 ^ 53 := by norm_num at h2 ⊢; omega
      have h4 : 1 ≤ k * 2 ^ (n + 1) := Nat.mul_pos hk (by positivity)
      zify at this h4 ⊢
      rw [abs_of_nonneg (by omega)]
      omega
    have h3 := I.nearest _ y _ (by rw [rat_abs]; exact b1) hy hd
    rw [rat_abs, rat_abs, hreq] at h3
    have h4 : |(k : Rat) - 512 * (1 / 2 ^ (n + 10)) - (k + D * (1 / 2 ^ (n + 10)))| = (512 + D) * (1 / 2 ^ (n + 10)) := by
      have : (k : Rat) - 512 * (1 / 2 ^ (n + 10)) - (k + D * (1 / 2 ^ (n + 10))) = -((512 + D) * (1 / 2 ^ (n + 10))) := by ring
      rw [this, abs_neg, abs_of_nonneg (mul_nonneg (by linarith) hp4.le)]
    rw [h4] at h3
    have h5 := (abs_le.1 h3).2
    have h6 : (512 + D) * (1 / 2 ^ (n + 10)) < -(D : Rat) * (1 / 2 ^ (n + 10)) := mul_lt_mul_of_pos_right (by linarith) hp4
    linarith
  · intro hm
    by_cases hm' : 500 ≤ N % 1000
    · have hDp : 0 ≤ D := by rw [hD, if_neg (by omega)]; omega
      have hDq : (0 : Rat) ≤ D := by exact_mod_cast hDp
      refine double_le_round I _ y _ b1 hy ?_ ?_
      · exact ⟨k, 0, by norm_num at hk' ⊢; omega, .inl (by simp)⟩
      · rw [hreq]; have := mul_nonneg hDq hp4.le; linarith
    · have hDm : D = -((N % 1000 : Nat) : Int) := by rw [hD, if_pos (by omega)]
      have hDq : (-256 : Rat) < D := by have : -256 < D := by omega
                                        exact_mod_cast this
      have hDq' : (D : Rat) ≤ 0 := by have : D ≤ 0 := by omega
                                      exact_mod_cast this
      have h3 := rounds_to I (r * 1000) (k * 2 ^ (n + 1)) (-((n + 1 : Nat) : Int)) b1 b2 (by norm_num at h1 ⊢; zify at hm1 h1; omega)
        (by norm_num at h2 ⊢; zify at hm1 h2; omega) (by
          rw [← hkM, zpow_sub_one₀ (by norm_num), hz', hreq]
          have : (k : Rat) + D * (1 / 2 ^ (n + 10)) - k = -(-D * (1 / 2 ^ (n + 10))) := by ring
          rw [this, abs_neg, abs_of_nonneg (mul_nonneg (by linarith) hp4.le)]
          have h7 : (512 : Rat) * (1 / 2 ^ (n + 10)) * 2⁻¹ = 256 * (1 / 2 ^ (n + 10)) := by ring
          rw [h7]
          exact mul_lt_mul_of_pos_right (by linarith) hp4) (fun h => by
            exfalso
            norm_num at h h1
            zify at hm1 h1
            omega)
      rw [hy, ← hkM] at h3
      exact (Option.some.inj h3).ge
  · intro hm E
    have hDm : D = -256 := by rw [hD, if_pos (by omega), hm]; rfl
    have h3 := E.even (k * 2 ^ (n + 1) - 1) (n + 1) (by norm_num at h1 ⊢; zify at hm1 h1; omega) (by norm_num at h2 ⊢; zify at hm1 h2; omega) (by
      by_contra hgt
      have h4 : 2 ^ 800 ≤ k * 2 ^ (n + 1) := le_trans (Nat.pow_le_pow_right (by decide) (by omega)) (Nat.le_mul_of_pos_left _ hk)
      have h5 : k * 2 ^ (n + 1) ≤ 2 ^ 53 := by norm_num at h2 ⊢; omega
      exact absurd ((Nat.pow_le_pow_iff_right (by decide)).1 (le_trans h4 h5)) (by decide))
    have hodd : ¬ ((k : Int) * 2 ^ (n + 1) - 1) % 2 = 0 := by
      rw [pow_succ, ← mul_assoc]; omega
    rw [if_neg hodd] at h3
    have e1 : ((((k : Int) * 2 ^ (n + 1) - 1 : Int) : Rat) + 1 / 2) / 2 ^ (n + 1) = r * 1000 := by
      rw [hreq, hDm]
      push_cast
      rw [show (2 : Rat) ^ (n + 10) = 512 * 2 ^ (n + 1) by rw [pow_add, pow_add]; ring]
      field_simp
      ring
    have e2 : ((((k : Int) * 2 ^ (n + 1) - 1 + 1 : Int)) : Rat) / 2 ^ (n + 1) = k := by
      push_cast
      field_simp
      ring
    rw [e1, e2, hy] at h3
    exact (Option.some.inj h3).ge

end
end Verif.Lemmas
