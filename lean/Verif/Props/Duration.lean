import Verif.Spec.Duration
import Verif.Lemmas.Duration
import Verif.Props.Prim
/-!
# C68: durations in milliseconds
-/
namespace Verif.Props
open Verif.Model Verif.Spec Verif.Lemmas

/-- the value of a duration element with the given text (`getChildElementOptionalTimeValue`, `abstract_arxml_parser.py:193-199`) -/
def timeValue (py : Py) (text : List Char) : PVal py.F := (PObj.setValue py .float PObj.new (.str text)).1.value

theorem timeValue_eq (py : Py) (text : List Char) (q : Rat) (h : Denotes py text q) : timeValue py text = .num (.flt (py.ofRat q)) := by
  obtain ⟨d, ips, fps, xs, hw, rfl, rfl⟩ := h
  have : PObj.setValue py .float PObj.new (.str d.text) = (⟨.num (.flt (py.ofRat (d.value ips fps xs))), some d.text⟩, none) := by
    show PObj.assign py .float PObj.new (.str d.text) = _
    unfold PObj.assign
    simp only [C20_decimal py d ips fps xs hw]
  unfold timeValue
  rw [this]

/-- from a product to a result -/
theorem wholeMs_of {py : Py} {q r y : Rat} {k : Nat} (hr : py.toRat (py.ofRat q) = some r) (hy : py.toRat (py.ofRat (r * 1000)) = some y)
    (h0 : 0 ≤ y) (hf : y.floor = k) : wholeMs py (some (.num (.flt (py.ofRat q)))) = .ok (.num (.int k)) := by
  unfold wholeMs PVal.number?
  simp only [timesThousand, hr, truncate, hy, if_neg (not_lt.2 h0), hf]
  rfl

/-- the periods of RTE and of BSW events agree from one millisecond on -/
theorem timing_whole {py : Py} (I : Ieee py) (k : Nat) (hk : 1 ≤ k) (hk' : k < 2 ^ 52) :
    timingPeriodMs py (some (.num (.flt (py.ofRat ((k : Rat) / 1000))))) = wholeMs py (some (.num (.flt (py.ofRat ((k : Rat) / 1000))))) := by
  have hb : belowMs py (.flt (py.ofRat ((k : Rat) / 1000))) = false := by
    obtain ⟨r, e, hr, _⟩ := seconds I k hk hk'
    obtain ⟨m, e', hm, h1, h2, h3⟩ := seconds I 1 (by decide) (by decide)
    have hm' : py.toRat (py.ofRat (1 / 1000)) = some m := by simpa using hm
    unfold belowMs Num.toRat
    simp only [hr, hm', decide_eq_false_iff_not, not_lt]
    by_cases hk1 : k = 1
    · subst hk1; rw [hm] at hr; exact (Option.some.inj hr).le
    · have hkq : (2 : Rat) ≤ k := by exact_mod_cast (show 2 ≤ k by omega)
      have hkq' : (k : Rat) < 4503599627370496 := by have : k < 4503599627370496 := by simpa using hk'
                                                     exact_mod_cast this
      obtain ⟨b1, b2⟩ := bounds I (q := (k : Rat) / 1000) (by linarith) (by norm_num; linarith)
      refine double_le_round I _ r m b1 hr (py.double _ _ hm') ?_
      have h4 : (1000 : Rat) * 2 ^ (e' - 53) ≤ 1 := by
        have : (2 : Rat) ^ (e' - 53) = 2 ^ e' / 2 ^ 53 := by rw [zpow_sub₀ (by norm_num)]; norm_num
        rw [this, ← mul_div_assoc, div_le_iff₀ (by norm_num)]
        norm_num at h1 ⊢
        linarith
      have h5 := (abs_le.1 h3).2
      norm_num at h5
      linarith
  unfold timingPeriodMs wholeMs PVal.number?
  simp only [hb]
  rfl

theorem floor_of {y : Rat} {k : Nat} (hlo : (k : Rat) - 1 / 2 ≤ y) (hhi : y ≤ k + 1 / 2) :
    ((k : Rat) ≤ y → y.floor = k) ∧ (y < k → y.floor = (k : Int) - 1) := by
  constructor
  · intro h
    show Int.floor y = _
    exact Int.floor_eq_iff.2 ⟨by exact_mod_cast h, by push_cast; linarith⟩
  · intro h
    show Int.floor y = _
    exact Int.floor_eq_iff.2 ⟨by push_cast; linarith, by push_cast; linarith⟩

/-- numbers below 1000 that are a little more than 1000 times a power of two are rounded up -/
theorem small_up : ∀ k < 1024, ∀ s < 63, 52 < s → 1000 * 2 ^ 52 < k * 2 ^ s → k * 2 ^ s ≤ 2 ^ 62 → 500 ≤ k * 2 ^ s % 1000 := by
  decide +kernel

/-- what happens to every whole number of milliseconds -/
theorem ms_cases {py : Py} (I : Ieee py) (k : Nat) (hk : 1 ≤ k) (hk' : k < 2 ^ 52) (ht : ¬ Tied k ∨ TiesEven py) (b : Bool) (hb : b = true ↔ Short k) :
    wholeMs py (some (.num (.flt (py.ofRat ((k : Rat) / 1000))))) = .ok (.num (.int (if b then k - 1 else k : Nat))) := by
  have hkq : (1 : Rat) ≤ k := by exact_mod_cast hk
  by_cases hw : ∃ s, 1000 * 2 ^ 52 < k * 2 ^ s ∧ k * 2 ^ s ≤ 2 ^ 62
  · obtain ⟨s, h1, h2⟩ := hw
    have hs : 10 ≤ s := by
      by_contra hlt
      have h3 : k * 2 ^ s ≤ k * 2 ^ 9 := Nat.mul_le_mul_left _ (Nat.pow_le_pow_right (by decide) (by omega))
      have h4 : k * 2 ^ 9 < 2 ^ 52 * 2 ^ 9 := Nat.mul_lt_mul_of_pos_right hk' (by decide)
      norm_num at h1 h4
      omega
    have hs' : s < 63 := by
      by_contra hge
      have h3 : 1 * 2 ^ 63 ≤ k * 2 ^ s := Nat.mul_le_mul hk (Nat.pow_le_pow_right (by decide) (by omega))
      norm_num at h2 h3
      omega
    obtain ⟨r, y, hr, hy, hlow, hge, htie, hlo, hhi⟩ := product_window I k s hk hk' hs h1 h2
    have h0 : (0 : Rat) ≤ y := by linarith
    -- in terms of the power of two
    have hwin : ∀ j, JustAbove j k → j + s = 52 := by
      rintro j ⟨g1, g2⟩
      have a1 : 1000 * 2 ^ 52 < 1024 * 2 ^ (j + s) := by
        refine lt_trans h1 ?_
        rw [pow_add, ← mul_assoc]
        exact Nat.mul_lt_mul_of_pos_right g2 (by positivity)
      have a2 : 1000 * 2 ^ (j + s) < 2 ^ 62 := by
        refine lt_of_lt_of_le ?_ h2
        rw [pow_add, ← mul_assoc]
        exact Nat.mul_lt_mul_of_pos_right g1 (by positivity)
      by_contra hne
      rcases Nat.lt_or_gt_of_ne hne with hl | hg
      · have : 2 ^ (j + s) ≤ 2 ^ 51 := Nat.pow_le_pow_right (by decide) (by omega)
        norm_num at a1 this
        omega
      · have : 2 ^ 53 ≤ 2 ^ (j + s) := Nat.pow_le_pow_right (by decide) (by omega)
        norm_num at a2 this
        omega
    by_cases hs52 : 52 < s
    · -- less than a second
      have hk1024 : k < 1024 := by
        by_contra hge'
        have h3 : 1024 * 2 ^ 53 ≤ k * 2 ^ s := Nat.mul_le_mul (by omega) (Nat.pow_le_pow_right (by decide) hs52)
        norm_num at h2 h3
        omega
      have hns : b = false := by
        rw [Bool.eq_false_iff, ne_eq, hb]
        rintro ⟨j, hj, _⟩
        have := hwin j hj
        omega
      rw [hns]
      exact wholeMs_of hr hy h0 ((floor_of hlo hhi).1 (hge (.inr (small_up k hk1024 s hs' hs52 h1 h2))))
    · obtain ⟨j, hj⟩ : ∃ j, j + s = 52 := ⟨52 - s, by omega⟩
      have hsj : 52 - j = s := by omega
      have hp : (2 : Nat) ^ 52 = 2 ^ j * 2 ^ s := by rw [← pow_add, hj]
      have g1 : 1000 * 2 ^ j < k := by
        rw [hp, ← mul_assoc] at h1
        exact Nat.lt_of_mul_lt_mul_right h1
      have g2 : k ≤ 1024 * 2 ^ j := by
        have h62 : (2 : Nat) ^ 62 = 1024 * 2 ^ j * 2 ^ s := by rw [mul_assoc, ← hp]; norm_num
        rw [h62] at h2
        exact Nat.le_of_mul_le_mul_right h2 (by positivity)
      rcases g2.eq_or_lt with g2 | g2
      · -- a power of two
        have hns : b = false := by
          rw [Bool.eq_false_iff, ne_eq, hb]
          rintro ⟨j', hj', _⟩
          have := hwin j' hj'
          have : j' = j := by omega
          subst this
          exact absurd hj'.2 (by omega)
        have h62 : k * 2 ^ s = 2 ^ 62 := by rw [g2, mul_assoc, ← hp]; norm_num
        rw [hns]
        exact wholeMs_of hr hy h0 ((floor_of hlo hhi).1 (hge (.inr (by rw [h62]; norm_num))))
      · by_cases hsh : 256 < k * 2 ^ s % 1000 ∧ k * 2 ^ s % 1000 < 500
        · have hb' : b = true := hb.2 ⟨j, ⟨g1, g2⟩, by rw [hsj]; exact hsh.1, by rw [hsj]; exact hsh.2⟩
          rw [hb']
          refine wholeMs_of hr hy h0 ?_
          rw [(floor_of hlo hhi).2 (hlow hsh.1 hsh.2)]
          simp only [if_true]
          omega
        · have hns : b = false := by
            rw [Bool.eq_false_iff, ne_eq, hb]
            rintro ⟨j', hj', hm⟩
            have := hwin j' hj'
            have : j' = j := by omega
            subst this
            rw [hsj] at hm
            exact hsh hm
          rw [hns]
          by_cases h256 : k * 2 ^ s % 1000 = 256
          · rcases ht with ht | E
            · exact absurd ⟨j, ⟨g1, g2⟩, by rw [hsj]; exact h256⟩ ht
            · exact wholeMs_of hr hy h0 ((floor_of hlo hhi).1 (htie h256 E))
          · exact wholeMs_of hr hy h0 ((floor_of hlo hhi).1 (hge (by omega)))
  · have hns : b = false := by
      rw [Bool.eq_false_iff, ne_eq, hb]
      rintro ⟨j, ⟨g1, g2⟩, _⟩
      have hj : j ≤ 42 := by
        by_contra hgt
        have : 1000 * 2 ^ 43 ≤ 1000 * 2 ^ j := Nat.mul_le_mul_left _ (Nat.pow_le_pow_right (by decide) (by omega))
        norm_num at this hk'
        omega
      refine hw ⟨52 - j, ?_, ?_⟩
      · have : (2 : Nat) ^ 52 = 2 ^ j * 2 ^ (52 - j) := by rw [← pow_add]; congr 1; omega
        rw [this, ← mul_assoc]
        exact Nat.mul_lt_mul_of_pos_right g1 (by positivity)
      · have : (2 : Nat) ^ 62 = 1024 * 2 ^ j * 2 ^ (52 - j) := by
          rw [mul_assoc, ← pow_add, show j + (52 - j) = 52 by omega]; norm_num
        rw [this]
        exact Nat.mul_le_mul_right _ g2.le
    obtain ⟨r, hr, hy⟩ := product_exact I k hk hk' (by
      rintro j ⟨g1, g2⟩
      have hj : j ≤ 52 := by
        by_contra hgt
        have h3 : (2 : Rat) ^ (52 : Int) ≤ 2 ^ j := zpow_le_zpow_right₀ (by norm_num) (by omega)
        have hkq' : (k : Rat) < 4503599627370496 := by have : k < 4503599627370496 := by simpa using hk'
                                                       exact_mod_cast this
        norm_num at h3
        linarith
      obtain ⟨s, hs⟩ := Int.eq_ofNat_of_zero_le (show 0 ≤ 52 - j by omega)
      have hjs : j = 52 - s := by omega
      have hpow : (2 : Rat) ^ j = 2 ^ 52 / 2 ^ s := by rw [hjs, zpow_sub₀ (by norm_num), zpow_natCast]; norm_num
      rw [hpow] at g1 g2
      have hpos : (0 : Rat) < 2 ^ s := by positivity
      refine hw ⟨s, ?_, ?_⟩
      · rw [← mul_div_assoc, div_lt_iff₀ hpos] at g1
        exact_mod_cast g1
      · rw [← mul_div_assoc, le_div_iff₀ hpos] at g2
        have : (k : Rat) * 2 ^ s ≤ ((2 ^ 62 : Nat) : Rat) := le_trans g2 (by norm_num)
        exact_mod_cast this)
    rw [hns]
    refine wholeMs_of hr hy (by linarith) ?_
    show Int.floor (k : Rat) = _
    simp

open Classical in
/-- **C68 (partial)** A period of `k` milliseconds, written in seconds, is reported as `k` milliseconds, except for the numbers in `Short`: a
little more than 1000 times a power of two, with a certain remainder.  These are reported one less (`C68_lost_broken`).  Nothing is assumed about
how ties are rounded, so the numbers where a tie decides are left to `C68_even_partial`. -/
theorem C68_ms_partial (py : Py) (I : Ieee py) (text : List Char) (k : Nat) (hk : 1 ≤ k) (hk' : k < 2 ^ 52) (h : Denotes py text (k / 1000))
    (ht : ¬ Tied k) : timingPeriodMs py (some (timeValue py text)) = .ok (.num (.int (if Short k then k - 1 else k : Nat))) ∧
      wholeMs py (some (timeValue py text)) = .ok (.num (.int (if Short k then k - 1 else k : Nat))) := by
  rw [timeValue_eq py text _ h, timing_whole I k hk hk']
  have := ms_cases I k hk hk' (.inl ht) (decide (Short k)) (by simp)
  simp only [decide_eq_true_eq] at this
  exact ⟨this, this⟩

open Classical in
/-- **C68 (partial)** With the usual rule for ties, the same for all numbers.  Missing: the numbers of `Short` (`C68_lost_broken`). -/
theorem C68_even_partial (py : Py) (I : Ieee py) (E : TiesEven py) (text : List Char) (k : Nat) (hk : 1 ≤ k) (hk' : k < 2 ^ 52) (h : Denotes py text (k / 1000)) :
    timingPeriodMs py (some (timeValue py text)) = .ok (.num (.int (if Short k then k - 1 else k : Nat))) ∧
      wholeMs py (some (timeValue py text)) = .ok (.num (.int (if Short k then k - 1 else k : Nat))) := by
  rw [timeValue_eq py text _ h, timing_whole I k hk hk']
  have := ms_cases I k hk hk' (.inr E) (decide (Short k)) (by simp)
  simp only [decide_eq_true_eq] at this
  exact ⟨this, this⟩

/-- **C68** Up to one second every whole number of milliseconds is reported. -/
theorem C68_second (py : Py) (I : Ieee py) (text : List Char) (k : Nat) (hk : 1 ≤ k) (hk' : k ≤ 1000) (h : Denotes py text (k / 1000)) :
    timingPeriodMs py (some (timeValue py text)) = .ok (.num (.int k)) ∧ wholeMs py (some (timeValue py text)) = .ok (.num (.int k)) := by
  have hj : ∀ j, ¬ JustAbove j k := by
    rintro j ⟨h1, _⟩
    have : 1 ≤ 2 ^ j := Nat.one_le_two_pow
    omega
  have := C68_ms_partial py I text k hk (lt_of_le_of_lt hk' (by norm_num)) h (fun ⟨j, h1, _⟩ => hj j h1)
  rw [if_neg (fun ⟨j, h1, _⟩ => hj j h1)] at this
  exact this

/-- **C68** It is never more, and never less by more than one. -/
theorem C68_bound (py : Py) (I : Ieee py) (text : List Char) (k : Nat) (hk : 1 ≤ k) (hk' : k < 2 ^ 52) (h : Denotes py text (k / 1000)) :
    ∃ i : Int, (i = k ∨ i = k - 1) ∧ timingPeriodMs py (some (timeValue py text)) = .ok (.num (.int i)) ∧
      wholeMs py (some (timeValue py text)) = .ok (.num (.int i)) := by
  rw [timeValue_eq py text _ h, timing_whole I k hk hk']
  obtain ⟨r, y, hr, hy, hlo, hhi⟩ := product I k hk hk'
  have hkq : (1 : Rat) ≤ k := by exact_mod_cast hk
  have h0 : (0 : Rat) ≤ y := by linarith
  by_cases hc : (k : Rat) ≤ y
  · exact ⟨k, .inl rfl, wholeMs_of hr hy h0 ((floor_of hlo hhi).1 hc), wholeMs_of hr hy h0 ((floor_of hlo hhi).1 hc)⟩
  · have hf : y.floor = ((k - 1 : Nat) : Int) := by rw [(floor_of hlo hhi).2 (not_le.1 hc)]; omega
    exact ⟨((k - 1 : Nat) : Int), .inr (by omega), wholeMs_of hr hy h0 hf, wholeMs_of hr hy h0 hf⟩

/-- **C68** Without a period there is no number. -/
theorem C68_absent (py : Py) : timingPeriodMs py none = .ok .none ∧ wholeMs py none = .ok .none := ⟨rfl, rfl⟩

/-- **C68** Whole seconds that a program has assigned are exact, however many, and so are negative ones. -/
theorem C68_seconds (py : Py) (n : Int) :
    timingPeriodMs py (some (.num (.int n))) = .ok (.num (.int (n * 1000))) ∧ wholeMs py (some (.num (.int n))) = .ok (.num (.int (n * 1000))) := by
  refine ⟨?_, rfl⟩
  unfold timingPeriodMs PVal.number?
  simp only [timesThousand, truncate]
  split <;> rfl

/-- **C68** In all cases the number of milliseconds of a BSW event, or of a minimum start interval, is that of the float product without its
fraction: towards zero for negative durations too. -/
theorem C68_truncated (py : Py) (f : py.F) (r y : Rat) (hr : py.toRat f = some r) (hy : py.toRat (py.ofRat (r * 1000)) = some y) :
    ∃ i : Int, wholeMs py (some (.num (.flt f))) = .ok (.num (.int i)) ∧ |(i : Rat)| ≤ |y| ∧ |y| < |(i : Rat)| + 1 ∧ 0 ≤ (i : Rat) * y := by
  unfold wholeMs PVal.number?
  simp only [timesThousand, hr, truncate, hy]
  refine ⟨_, rfl, ?_⟩
  split
  · rename_i hneg
    have h1 : ((-y).floor : Rat) ≤ -y := Int.floor_le (-y)
    have h2 : -y < ((-y).floor : Rat) + 1 := Int.lt_floor_add_one (-y)
    have h3 : 0 ≤ (-y).floor := (Int.floor_nonneg (a := -y)).2 (by linarith)
    have h3' : (0 : Rat) ≤ ((-y).floor : Rat) := by exact_mod_cast h3
    push_cast
    rw [abs_neg, abs_of_nonneg h3', abs_of_neg hneg]
    exact ⟨h1, h2, by nlinarith⟩
  · rename_i hneg
    have hnn : 0 ≤ y := not_lt.1 hneg
    have h1 : (y.floor : Rat) ≤ y := Int.floor_le y
    have h2 : y < (y.floor : Rat) + 1 := Int.lt_floor_add_one y
    have h3 : 0 ≤ y.floor := (Int.floor_nonneg (a := y)).2 hnn
    have h3' : (0 : Rat) ≤ (y.floor : Rat) := by exact_mod_cast h3
    rw [abs_of_nonneg h3', abs_of_nonneg hnn]
    exact ⟨h1, h2, mul_nonneg h3' hnn⟩

/-- **C68** Infinity and not-a-number have no whole number of milliseconds: an exception is raised, except that an RTE event returns a
negative infinity as it is. -/
theorem C68_infinite (py : Py) (f : py.F) (h : py.toRat f = none) : wholeMs py (some (.num (.flt f))) = .error .valueError ∧
    timingPeriodMs py (some (.num (.flt f))) = if py.ltZero f then .ok (.num (.flt f)) else .error .valueError := by
  refine ⟨?_, ?_⟩
  · unfold wholeMs PVal.number?
    simp only [timesThousand, h, truncate]
    rfl
  · unfold timingPeriodMs PVal.number?
    have hb : belowMs py (.flt f) = py.ltZero f := by simp only [belowMs, Num.toRat, h]
    simp only [hb, timesThousand, h, truncate]
    rfl

/-- **C68** A period without a value is a `TypeError`. -/
theorem C68_no_value (py : Py) : timingPeriodMs py (some .none) = .error .typeError ∧ wholeMs py (some .none) = .error .typeError := ⟨rfl, rfl⟩

/-- the text `1.001` -/
def exactText (ip fp : List Char) : Dec := ⟨.none, ip, true, fp, none⟩

theorem denotes_plain (py : Py) (ip fp : List Char) (h : ∀ c ∈ ip ++ fp, asciiDigit c = true) (hne : ip ≠ []) :
    Denotes py (ip ++ '.' :: fp) (number 10 (ip.map fun c => c.toNat - 48) + number 10 (fp.map fun c => c.toNat - 48) / 10 ^ fp.length) := by
  refine ⟨exactText ip fp, ip.map (fun c => c.toNat - 48), fp.map (fun c => c.toNat - 48), [], ⟨?_, ?_, ?_, ?_, rfl⟩, ?_, ?_⟩
  · exact digits_ascii py ip fun c hc => h c (List.mem_append_left _ hc)
  · exact digits_ascii py fp fun c hc => h c (List.mem_append_right _ hc)
  · intro hp; cases hp
  · exact .inl (by simpa using hne)
  · simp [exactText, Dec.text, Sign.text, expText]
  · simp [exactText, Dec.value, Sign.apply]

/-- **C68 fails** for 1001 milliseconds: the period `1.001` is reported as 1000. -/
theorem C68_lost_broken (py : Py) (I : Ieee py) : Denotes py "1.001".toList (1001 / 1000) ∧
    timingPeriodMs py (some (timeValue py "1.001".toList)) = .ok (.num (.int 1000)) ∧
    wholeMs py (some (timeValue py "1.001".toList)) = .ok (.num (.int 1000)) := by
  have hd : Denotes py "1.001".toList ((1001 : Nat) / 1000) := by
    have := denotes_plain py "1".toList "001".toList (by decide) (by decide)
    have e1 : number 10 ("1".toList.map fun c => c.toNat - 48) = 1 := by decide
    have e2 : number 10 ("001".toList.map fun c => c.toNat - 48) = 1 := by decide
    rw [e1, e2] at this
    have e3 : (((1 : Nat) : Rat) + ((1 : Nat) : Rat) / 10 ^ "001".toList.length) = ((1001 : Nat) : Rat) / 1000 := by
      rw [show "001".toList.length = 3 from rfl]; norm_num
    rw [e3] at this
    exact this
  have hj0 : JustAbove 0 1001 := ⟨by decide, by decide⟩
  have hs : Short 1001 := ⟨0, hj0, by decide, by decide⟩
  have ht : ¬ Tied 1001 := by
    rintro ⟨j, ⟨h1, h2⟩, h3⟩
    have : j = 0 := by
      by_contra hne
      have : 2 ^ 1 ≤ 2 ^ j := Nat.pow_le_pow_right (by decide) (by omega)
      omega
    subst this
    exact absurd h3 (by decide)
  have := C68_ms_partial py I _ 1001 (by decide) (by norm_num) hd ht
  rw [if_pos hs] at this
  exact ⟨by have := hd; norm_num at this ⊢; exact this, this⟩

/-- **C68 fails** for BSW events (and minimum start intervals) below a millisecond: up to 976 microseconds are reported as 0 milliseconds. -/
theorem C68_zero_broken (py : Py) (I : Ieee py) (text : List Char) (u : Nat) (hu : 1 ≤ u) (hu' : u ≤ 976) (h : Denotes py text (u / 1000000)) :
    wholeMs py (some (timeValue py text)) = .ok (.num (.int 0)) := by
  rw [timeValue_eq py text _ h]
  have huq : (1 : Rat) ≤ u := by exact_mod_cast hu
  have huq' : (u : Rat) ≤ 976 := by exact_mod_cast hu'
  have hbig : ∀ q : Rat, 1 / 2000000 ≤ q → q ≤ 1 → 1 ≤ |q| * 2 ^ 900 ∧ |q| ≤ 2 ^ 900 := by
    intro q h1 h2
    rw [abs_of_nonneg (by linarith)]
    refine ⟨?_, le_trans h2 (one_le_pow₀ (by norm_num))⟩
    have h3 : (2 : Rat) ^ 21 ≤ 2 ^ 900 := pow_le_pow_right₀ (by norm_num) (by norm_num)
    have h4 : (1 : Rat) / 2000000 * 2 ^ 21 ≤ q * 2 ^ 900 := mul_le_mul h1 h3 (by positivity) (by linarith)
    refine le_trans ?_ h4
    norm_num
  obtain ⟨b1, b2⟩ := hbig ((u : Rat) / 1000000) (by linarith) (by linarith)
  obtain ⟨r, hr⟩ := I.finite _ (by rw [rat_abs]; exact b2)
  have d1 : IsDouble (1 / 1024) := ⟨1, 10, by decide, .inr (by norm_num)⟩
  have d2 : IsDouble (1 / 2097152) := ⟨1, 21, by decide, .inr (by norm_num)⟩
  have r1 := round_le_double I _ r _ b1 hr d1 (by linarith)
  have r2 := double_le_round I _ r _ b1 hr d2 (by linarith)
  obtain ⟨c1, c2⟩ := hbig (r * 1000) (by linarith) (by linarith)
  obtain ⟨y, hy⟩ := I.finite _ (by rw [rat_abs]; exact c2)
  have d3 : IsDouble (1000 / 1024) := ⟨1000, 10, by decide, .inr (by norm_num)⟩
  have d4 : IsDouble 0 := ⟨0, 0, by decide, .inl (by norm_num)⟩
  have y1 := round_le_double I _ y _ c1 hy d3 (by linarith)
  have y2 := double_le_round I _ y _ c1 hy d4 (by linarith)
  refine wholeMs_of (k := 0) hr hy y2 ?_
  show Int.floor y = _
  exact Int.floor_eq_iff.2 ⟨by simpa using y2, by push_cast; linarith⟩

/-- the hypotheses are met: floats with correct rounding exist, and `0.005` is five milliseconds -/
example : ∃ py, Ieee py ∧ Denotes py "0.005".toList ((5 : Nat) / 1000) ∧
    timingPeriodMs py (some (timeValue py "0.005".toList)) = .ok (.num (.int 5)) := by
  have hd : Denotes Py.ieee "0.005".toList ((5 : Nat) / 1000) := by
    have := denotes_plain Py.ieee "0".toList "005".toList (by decide) (by decide)
    have e1 : number 10 ("0".toList.map fun c => c.toNat - 48) = 0 := by decide
    have e2 : number 10 ("005".toList.map fun c => c.toNat - 48) = 5 := by decide
    rw [e1, e2] at this
    have e3 : (((0 : Nat) : Rat) + ((5 : Nat) : Rat) / 10 ^ "005".toList.length) = ((5 : Nat) : Rat) / 1000 := by
      rw [show "005".toList.length = 3 from rfl]; norm_num
    rw [e3] at this
    exact this
  exact ⟨Py.ieee, ieee_ieee, hd, (C68_second _ ieee_ieee _ 5 (by decide) (by decide) hd).1⟩

/-- floats with the usual rule for ties exist, and there are ties: `8.113` is one, and reported as it is -/
example : ∃ py, Ieee py ∧ TiesEven py ∧ Tied 8113 ∧ wholeMs py (some (timeValue py "8.113".toList)) = .ok (.num (.int 8113)) := by
  have hd : Denotes Py.ieee "8.113".toList ((8113 : Nat) / 1000) := by
    have := denotes_plain Py.ieee "8".toList "113".toList (by decide) (by decide)
    have e1 : number 10 ("8".toList.map fun c => c.toNat - 48) = 8 := by decide
    have e2 : number 10 ("113".toList.map fun c => c.toNat - 48) = 113 := by decide
    rw [e1, e2] at this
    have e3 : (((8 : Nat) : Rat) + ((113 : Nat) : Rat) / 10 ^ "113".toList.length) = ((8113 : Nat) : Rat) / 1000 := by
      rw [show "113".toList.length = 3 from rfl]; norm_num
    rw [e3] at this
    exact this
  have hs : ¬ Short 8113 := by
    rintro ⟨j, ⟨h1, h2⟩, h3, _⟩
    have h4 : j < 4 := by
      by_contra hne
      have : 2 ^ 4 ≤ 2 ^ j := Nat.pow_le_pow_right (by decide) (by omega)
      omega
    have h5 : 3 ≤ j := by
      by_contra hne
      have : 2 ^ j ≤ 2 ^ 2 := Nat.pow_le_pow_right (by decide) (by omega)
      omega
    have : j = 3 := by omega
    subst this
    exact absurd h3 (by decide)
  have := (C68_even_partial _ ieee_ieee ieee_even _ 8113 (by decide) (by norm_num) hd).2
  rw [if_neg hs] at this
  exact ⟨Py.ieee, ieee_ieee, ieee_even, ⟨3, ⟨by decide, by decide⟩, by decide⟩, this⟩

end Verif.Props
