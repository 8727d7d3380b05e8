import Verif.Model.Collection
/-!
# The Python facts the primitive types rely on

The behaviour of Python's characters (`str.isdecimal`, `str.isspace`, `\w`, `str.lower`) outside ASCII and of its
floats is a parameter: every theorem holds for every `Py`.  The laws are what the proofs use; `Py.demo`
satisfies them.
-/
namespace Verif.Model

/-- numbers an IEEE double can represent (without the limit on the exponent) -/
def IsDouble (q : Rat) : Prop := ∃ (m : Int) (e : Nat), m.natAbs < 2 ^ 53 ∧ (q = m * 2 ^ e ∨ q * 2 ^ e = m)

def asciiDigit (c : Char) : Bool := 48 ≤ c.toNat && c.toNat ≤ 57
def asciiWord (c : Char) : Bool :=
  (48 ≤ c.toNat && c.toNat ≤ 57) || (65 ≤ c.toNat && c.toNat ≤ 90) || (97 ≤ c.toNat && c.toNat ≤ 122) || c.toNat == 95
def asciiSpace (c : Char) : Bool := (9 ≤ c.toNat && c.toNat ≤ 13) || (28 ≤ c.toNat && c.toNat ≤ 32)

theorem toNat_ofNat (n : Nat) (h : n < 0xd800) : (Char.ofNat n).toNat = n := by
  have hv : n.isValidChar := .inl h
  unfold Char.ofNat
  rw [dif_pos hv]
  simp [Char.ofNatAux, Char.toNat]

structure Py where
  /-- the decimal value of a character (`\d` is `(digit c).isSome`; what `int` and `float` accept as a digit) -/
  digit : Char → Option Nat
  /-- `str.isspace`, what `strip()` removes -/
  space : Char → Bool
  /-- `\w` -/
  word : Char → Bool
  /-- `str.lower` of one character -/
  lower : Char → List Char
  /-- Python's `float` objects -/
  F : Type
  /-- the float nearest to a rational -/
  ofRat : Rat → F
  /-- the value of a finite float -/
  toRat : F → Option Rat
  /-- `f < 0` -/
  ltZero : F → Bool
  digit_lt : ∀ c d, digit c = some d → d < 10
  digit_ascii : ∀ c, c.toNat < 128 → digit c = if asciiDigit c then some (c.toNat - 48) else none
  space_ascii : ∀ c, c.toNat < 128 → space c = asciiSpace c
  digit_space : ∀ c, (digit c).isSome = true → space c = false
  word_ascii : ∀ c, c.toNat < 128 → word c = asciiWord c
  lower_ascii : ∀ c, c.toNat < 128 → lower c = [if 65 ≤ c.toNat ∧ c.toNat ≤ 90 then Char.ofNat (c.toNat + 32) else c]
  /-- beyond ASCII only the Kelvin sign and the dotted capital I have ASCII letters in their lower case -/
  lower_other : ∀ c, 128 ≤ c.toNat → lower c ≠ [] ∧ ∀ x ∈ lower c, x = 'k' ∨ x = 'i' ∨ 128 ≤ x.toNat
  /-- only digits and blanks have digits and blanks in their lower case, and they have no case -/
  lower_inert : ∀ c x, x ∈ lower c → (digit x).isSome = true ∨ space x = true → lower c = [c]
  lower_digit : ∀ c, (digit c).isSome = true ∨ space c = true → lower c = [c]
  /-- rounding does not make a number negative -/
  ofRat_neg : ∀ q, ltZero (ofRat q) = true → q < 0
  ltZero_toRat : ∀ f q, toRat f = some q → ltZero f = decide (q < 0)
  /-- small enough representable numbers are converted exactly -/
  exact : ∀ q, IsDouble q → q.num.natAbs < 2 ^ 900 → toRat (ofRat q) = some q
  /-- the result of a conversion is representable -/
  double : ∀ q r, toRat (ofRat q) = some r → IsDouble r

open Classical in
/-- an instance: ASCII characters, floats that give up on everything not representable -/
noncomputable def Py.demo : Py where
  digit c := if asciiDigit c then some (c.toNat - 48) else none
  space := asciiSpace
  word := asciiWord
  lower c := [if 65 ≤ c.toNat ∧ c.toNat ≤ 90 then Char.ofNat (c.toNat + 32) else c]
  F := Rat
  ofRat q := if IsDouble q then q else 0
  toRat := some
  digit_lt := by
    intro c d h
    split at h
    · rename_i hd
      simp only [asciiDigit, Bool.and_eq_true, decide_eq_true_eq] at hd
      cases h; omega
    · cases h
  digit_ascii := fun _ _ => rfl
  space_ascii := fun _ _ => rfl
  digit_space := by
    intro c h
    split at h
    · rename_i hd
      simp only [asciiDigit, Bool.and_eq_true, decide_eq_true_eq] at hd
      simp only [asciiSpace, Bool.or_eq_false_iff, Bool.and_eq_false_iff, decide_eq_false_iff_not]
      omega
    · cases h
  word_ascii := fun _ _ => rfl
  lower_ascii := fun _ _ => rfl
  lower_other := by
    intro c hc
    refine ⟨by simp, fun x hx => ?_⟩
    have : ¬ (65 ≤ c.toNat ∧ c.toNat ≤ 90) := by omega
    simp only [this, if_false, List.mem_singleton] at hx
    subst hx; exact .inr (.inr hc)
  ltZero q := decide (q < 0)
  lower_inert := by
    intro c x hx h
    rw [List.mem_singleton] at hx
    by_cases hu : 65 ≤ c.toNat ∧ c.toNat ≤ 90
    · exfalso
      rw [if_pos hu] at hx
      have hc : (Char.ofNat (c.toNat + 32)).toNat = c.toNat + 32 := toNat_ofNat _ (by omega)
      subst hx
      rcases h with h | h
      · split at h
        · rename_i hd
          simp only [asciiDigit, hc, Bool.and_eq_true, decide_eq_true_eq] at hd
          omega
        · cases h
      · simp only [asciiSpace, hc, Bool.or_eq_true, Bool.and_eq_true, decide_eq_true_eq] at h
        omega
    · rw [if_neg hu]
  lower_digit := by
    intro c h
    by_cases hu : 65 ≤ c.toNat ∧ c.toNat ≤ 90
    · exfalso
      rcases h with h | h
      · split at h
        · rename_i hd
          simp only [asciiDigit, Bool.and_eq_true, decide_eq_true_eq] at hd
          omega
        · cases h
      · simp only [asciiSpace, Bool.or_eq_true, Bool.and_eq_true, decide_eq_true_eq] at h
        omega
    · rw [if_neg hu]
  ofRat_neg := by
    intro q h
    split at h
    · simpa using h
    · simp at h
  ltZero_toRat := by intro f q h; cases h; rfl
  exact := by intro q h _; simp [h]
  double := by
    intro q r h
    simp only [Option.some.injEq] at h
    subst h
    split
    · assumption
    · exact ⟨0, 0, by simp, .inl (by simp)⟩

end Verif.Model
