import Verif.Spec.Prim
import Verif.Lemmas.Regex
import Mathlib.Algebra.Field.Rat
import Mathlib.Tactic.FieldSimp
import Mathlib.Tactic.Ring
namespace Verif.Lemmas
open Verif.Model Verif.Spec Verif.Model.Re

/-! ### numbers -/

theorem number_cons (b d : Nat) (ds : List Nat) : number b (d :: ds) = d * b ^ ds.length + number b ds := by
  simp only [number, List.reverse_cons, List.zipIdx_append, List.map_append, List.sum_append, List.length_reverse]
  simp [Nat.add_comm]

theorem horner_some (base : Nat) (dig : Char → Option Nat) (s : List Char) (ds : List Nat) (acc : Nat)
    (h : s.map dig = ds.map some) (hb : ∀ d ∈ ds, d < base) :
    horner base dig s acc = some (acc * base ^ ds.length + number base ds) := by
  induction s generalizing ds acc with
  | nil =>
    cases ds with
    | nil => simp [horner, number]
    | cons d ds => simp at h
  | cons c s ih =>
    cases ds with
    | nil => simp at h
    | cons d ds =>
      simp only [List.map_cons, List.cons.injEq] at h
      simp only [horner, h.1, hb d (by simp), if_true]
      rw [ih ds _ h.2 (fun x hx => hb x (by simp [hx])), number_cons]
      congr 1
      rw [List.length_cons, Nat.pow_succ, Nat.add_mul, Nat.mul_assoc, Nat.mul_comm base, Nat.add_assoc]

theorem horner_inv (base : Nat) (dig : Char → Option Nat) (s : List Char) (acc n : Nat)
    (h : horner base dig s acc = some n) : ∃ ds : List Nat, s.map dig = ds.map some ∧ (∀ d ∈ ds, d < base) := by
  induction s generalizing acc with
  | nil => exact ⟨[], rfl, by simp⟩
  | cons c s ih =>
    simp only [horner] at h
    cases hd : dig c with
    | none => simp [hd] at h
    | some d =>
      simp only [hd] at h
      split at h
      · rename_i hlt
        obtain ⟨ds, h1, h2⟩ := ih _ h
        exact ⟨d :: ds, by simp [hd, h1], by simpa [hlt] using h2⟩
      · cases h

/-! ### characters -/

theorem ofNat_toNat (c : Char) : Char.ofNat c.toNat = c := Char.ofNat_toNat c

theorem ascii_ind {P : Char → Prop} (h : ∀ n < 128, P (Char.ofNat n)) (c : Char) (hc : c.toNat < 128) : P c := by
  rw [← ofNat_toNat c]; exact h _ hc

theorem hexTable_lookup (c : Char) : hexTable.lookup c = if isHex c then some (hexVal c) else none := by
  by_cases hc : c.toNat < 128
  · revert hc; revert c
    exact ascii_ind (P := fun c => hexTable.lookup c = if isHex c then some (hexVal c) else none) (by decide +kernel)
  · have h1 : isHex c = false := by
      simp only [isHex, asciiDigit, Bool.or_eq_false_iff, Bool.and_eq_false_iff, decide_eq_false_iff_not]; omega
    rw [h1]
    have : ∀ x ∈ hexTable.map (·.1), x.toNat < 128 := by decide +kernel
    have hn : c ∉ hexTable.map (·.1) := fun hm => hc (this c hm)
    have key : ∀ l : List (Char × Nat), c ∉ l.map (·.1) → l.lookup c = none := by
      intro l
      induction l with
      | nil => simp
      | cons e l ih =>
        intro h
        simp only [List.map_cons, List.mem_cons, not_or] at h
        rw [show (e :: l) = ((e.1, e.2) :: l) from rfl, List.lookup_cons, beq_eq_false_iff_ne.mpr h.1]
        exact ih h.2
    simpa using key _ hn

theorem digit_of_isDigit {py : Py} {c : Char} (h : py.isDigit c = true) : ∃ d, py.digit c = some d := Option.isSome_iff_exists.mp h

theorem digits_all {py : Py} {s : List Char} {ds : List Nat} (h : Digits py s ds) : ∀ c ∈ s, py.isDigit c = true := by
  induction s generalizing ds with
  | nil => simp
  | cons c s ih =>
    cases ds with
    | nil => simp [Digits] at h
    | cons d ds =>
      simp only [Digits, List.map_cons, List.cons.injEq] at h
      intro x hx
      rcases List.mem_cons.mp hx with rfl | hx
      · simp [Py.isDigit, h.1]
      · exact ih h.2 x hx

theorem digits_of_all {py : Py} {s : List Char} (h : ∀ c ∈ s, py.isDigit c = true) : ∃ ds, Digits py s ds := by
  induction s with
  | nil => exact ⟨[], rfl⟩
  | cons c s ih =>
    obtain ⟨ds, hds⟩ := ih fun x hx => h x (by simp [hx])
    obtain ⟨d, hd⟩ := digit_of_isDigit (h c (by simp))
    exact ⟨d :: ds, by simp only [Digits, List.map_cons, hd, List.cons.injEq, true_and]; exact hds⟩

theorem digits_lt {py : Py} {s : List Char} {ds : List Nat} (h : Digits py s ds) : ∀ d ∈ ds, d < 10 := by
  induction s generalizing ds with
  | nil => cases ds <;> simp_all [Digits]
  | cons c s ih =>
    cases ds with
    | nil => simp
    | cons d ds =>
      simp only [Digits, List.map_cons, List.cons.injEq] at h
      intro x hx
      rcases List.mem_cons.mp hx with rfl | hx
      · exact py.digit_lt _ _ h.1
      · exact ih h.2 x hx

theorem digits_length {py : Py} {s : List Char} {ds : List Nat} (h : Digits py s ds) : s.length = ds.length := by
  simpa using congrArg List.length h

theorem digits_nil {py : Py} {s : List Char} {ds : List Nat} (h : Digits py s ds) : s = [] ↔ ds = [] := by
  rw [← List.length_eq_zero_iff, ← List.length_eq_zero_iff, digits_length h]

theorem digits_append {py : Py} {s t : List Char} {ds es : List Nat} (h : Digits py s ds) (h' : Digits py t es) :
    Digits py (s ++ t) (ds ++ es) := by
  simp only [Digits, List.map_append] at *; rw [h, h']

theorem digit_ascii_none {py : Py} {c : Char} (h : c.toNat < 128) (h' : asciiDigit c = false) : py.isDigit c = false := by
  simp [Py.isDigit, py.digit_ascii c h, h']

/-! ### `strip` -/

theorem dropWhile_append_all {p : Char → Bool} {a b : List Char} (h : ∀ c ∈ a, p c = true) :
    (a ++ b).dropWhile p = b.dropWhile p := by
  induction a with
  | nil => rfl
  | cons c a ih =>
    rw [List.cons_append, List.dropWhile_cons_of_pos (h c (by simp))]
    exact ih fun x hx => h x (by simp [hx])

theorem dropWhile_eq_self {p : Char → Bool} {s : List Char} (h : ∀ c r, s = c :: r → p c = false) :
    s.dropWhile p = s := by
  cases s with
  | nil => rfl
  | cons c r => rw [List.dropWhile_cons_of_neg (by simp [h c r rfl])]

/-- starts and ends with a non-blank (or is empty) -/
def Tight (py : Py) (s : List Char) : Prop :=
  (∀ c r, s = c :: r → py.space c = false) ∧ (∀ r c, s = r ++ [c] → py.space c = false)

theorem strip_tight (py : Py) {pre s post : List Char} (h1 : ∀ c ∈ pre, py.space c = true)
    (h2 : ∀ c ∈ post, py.space c = true) (ht : Tight py s) : py.strip (pre ++ s ++ post) = s := by
  cases s with
  | nil =>
    have : ((pre ++ [] ++ post).dropWhile py.space) = [] := by
      rw [List.append_nil, dropWhile_append_all h1]
      have := dropWhile_append_all (b := []) h2
      simpa using this
    rw [Py.strip, this]; rfl
  | cons c r =>
    have e1 : (pre ++ (c :: r) ++ post).dropWhile py.space = (c :: r) ++ post := by
      rw [List.append_assoc, dropWhile_append_all h1, List.cons_append,
        List.dropWhile_cons_of_neg (by simp [ht.1 c r rfl])]
    have e2 : ((c :: r) ++ post).reverse.dropWhile py.space = (c :: r).reverse := by
      rw [List.reverse_append, dropWhile_append_all (by simpa using h2)]
      refine dropWhile_eq_self ?_
      intro x t hx
      refine ht.2 t.reverse x ?_
      have := congrArg List.reverse hx
      simpa using this
    rw [Py.strip, e1, e2, List.reverse_reverse]

theorem takeWhile_all {p : Char → Bool} {s : List Char} {c : Char} (h : c ∈ s.takeWhile p) : p c = true := by
  induction s with
  | nil => simp at h
  | cons x s ih =>
    by_cases hx : p x = true
    · rw [List.takeWhile_cons_of_pos hx] at h
      rcases List.mem_cons.mp h with rfl | h
      · exact hx
      · exact ih h
    · rw [List.takeWhile_cons_of_neg hx] at h; cases h

theorem strip_spec (py : Py) (s : List Char) :
    ∃ pre post, s = pre ++ py.strip s ++ post ∧ (∀ c ∈ pre, py.space c = true) ∧ (∀ c ∈ post, py.space c = true)
      ∧ Tight py (py.strip s) := by
  have hd : ∀ l : List Char, ∀ c r, l.dropWhile py.space = c :: r → py.space c = false := by
    intro l c r h
    have := List.head?_dropWhile_not py.space l
    rw [h] at this
    simpa using this
  refine ⟨s.takeWhile py.space, ((s.dropWhile py.space).reverse.takeWhile py.space).reverse, ?_, ?_, ?_, ?_⟩
  · have h2 := List.takeWhile_append_dropWhile (p := py.space) (l := (s.dropWhile py.space).reverse)
    have h3 := congrArg List.reverse h2
    rw [List.reverse_append, List.reverse_reverse] at h3
    have h1 := List.takeWhile_append_dropWhile (p := py.space) (l := s)
    rw [Py.strip, List.append_assoc, h3, h1]
  · intro c hc; exact takeWhile_all hc
  · intro c hc; rw [List.mem_reverse] at hc; exact takeWhile_all hc
  · constructor
    · intro c r h
      simp only [Py.strip] at h
      generalize hu : s.dropWhile py.space = u at *
      have h2 := congrArg List.reverse (List.takeWhile_append_dropWhile (p := py.space) (l := u.reverse))
      rw [List.reverse_append, List.reverse_reverse, h] at h2
      exact hd s c _ (by rw [hu]; exact h2.symm)
    · intro r c h
      have h2 := congrArg List.reverse h
      simp only [Py.strip, List.reverse_reverse, List.reverse_append, List.reverse_cons, List.reverse_nil, List.nil_append,
        List.singleton_append] at h2
      exact hd _ _ _ h2

/-! ### `int` -/

theorem underscored_sound (py : Py) (s t : List Char) (h : underscored py s = some t) :
    ∃ ds, Underscored py s ds ∧ Digits py t ds := by
  fun_induction underscored py s generalizing t with
  | case1 => cases h
  | case2 c hc =>
    cases h
    obtain ⟨d, hd⟩ := digit_of_isDigit hc
    exact ⟨[d], .one hd, by simp [Digits, hd]⟩
  | case3 => cases h
  | case4 c s hc ih =>
    obtain ⟨u, hu, rfl⟩ := Option.map_eq_some_iff.mp h
    obtain ⟨ds, h1, h2⟩ := ih u hu
    obtain ⟨d, hd⟩ := digit_of_isDigit hc
    exact ⟨d :: ds, .under hd h1, by simp only [Digits, List.map_cons, hd, List.cons.injEq, true_and]; exact h2⟩
  | case5 => cases h
  | case6 c s _ _ hc ih =>
    obtain ⟨u, hu, rfl⟩ := Option.map_eq_some_iff.mp h
    obtain ⟨ds, h1, h2⟩ := ih u hu
    obtain ⟨d, hd⟩ := digit_of_isDigit hc
    exact ⟨d :: ds, .cons hd h1, by simp only [Digits, List.map_cons, hd, List.cons.injEq, true_and]; exact h2⟩
  | case7 => cases h

theorem underscored_head {py : Py} {s : List Char} {ds : List Nat} (h : Underscored py s ds) :
    ∃ c r, s = c :: r ∧ py.isDigit c = true := by
  cases h with
  | one hd => exact ⟨_, _, rfl, by simp [Py.isDigit, hd]⟩
  | cons hd _ => exact ⟨_, _, rfl, by simp [Py.isDigit, hd]⟩
  | under hd _ => exact ⟨_, _, rfl, by simp [Py.isDigit, hd]⟩

theorem underscored_last {py : Py} {s : List Char} {ds : List Nat} (h : Underscored py s ds) :
    ∃ r c, s = r ++ [c] ∧ py.isDigit c = true := by
  induction h with
  | one hd => exact ⟨[], _, rfl, by simp [Py.isDigit, hd]⟩
  | cons hd _ ih => obtain ⟨r, c, rfl, hc⟩ := ih; exact ⟨_ :: r, c, rfl, hc⟩
  | under hd _ ih => obtain ⟨r, c, rfl, hc⟩ := ih; exact ⟨_ :: '_' :: r, c, rfl, hc⟩

theorem underscore_not_digit (py : Py) : py.isDigit '_' = false := digit_ascii_none (by decide) (by decide)

theorem underscored_complete (py : Py) (s : List Char) (ds : List Nat) (h : Underscored py s ds) :
    ∃ t, underscored py s = some t ∧ Digits py t ds := by
  induction h with
  | @one c d hd =>
    have : py.isDigit c = true := by simp [Py.isDigit, hd]
    exact ⟨[c], by simp [underscored, this], by simp [Digits, hd]⟩
  | @cons c d s ds hd hs ih =>
    obtain ⟨t, ht, hdt⟩ := ih
    have hc : py.isDigit c = true := by simp [Py.isDigit, hd]
    obtain ⟨x, r, rfl, hx⟩ := underscored_head hs
    have hx' : x ≠ '_' := by rintro rfl; simp [underscore_not_digit] at hx
    refine ⟨c :: t, ?_, by simp only [Digits, List.map_cons, hd, List.cons.injEq, true_and]; exact hdt⟩
    rw [underscored.eq_4 _ _ _ (by simp) (by intro s h; cases h; exact hx' rfl)]
    simp [hc, ht]
  | @under c d s ds hd hs ih =>
    obtain ⟨t, ht, hdt⟩ := ih
    have hc : py.isDigit c = true := by simp [Py.isDigit, hd]
    exact ⟨c :: t, by simp [underscored, hc, ht], by simp only [Digits, List.map_cons, hd, List.cons.injEq, true_and]; exact hdt⟩

theorem minus_not_digit (py : Py) : py.isDigit '-' = false := digit_ascii_none (by decide) (by decide)
theorem plus_not_digit (py : Py) : py.isDigit '+' = false := digit_ascii_none (by decide) (by decide)
theorem dot_not_digit (py : Py) : py.isDigit '.' = false := digit_ascii_none (by decide) (by decide)

theorem takeSign_text (sg : Sign) (s : List Char) (h : ∀ c r, s = c :: r → c ≠ '-' ∧ c ≠ '+') :
    takeSign (sg.text ++ s) = (decide (sg = .minus), s) := by
  cases sg with
  | none =>
    simp only [Sign.text, List.nil_append]
    cases s with
    | nil => rfl
    | cons c r =>
      obtain ⟨h1, h2⟩ := h c r rfl
      unfold takeSign
      split
      · rename_i h; cases h; exact absurd rfl h1
      · rename_i h; cases h; exact absurd rfl h2
      · rfl
  | plus => rfl
  | minus => rfl

theorem takeSign_spec (s : List Char) : ∃ sg : Sign, s = sg.text ++ (takeSign s).2 ∧ (takeSign s).1 = decide (sg = .minus) := by
  unfold takeSign
  split
  · exact ⟨.minus, rfl, rfl⟩
  · exact ⟨.plus, rfl, rfl⟩
  · exact ⟨.none, rfl, rfl⟩

theorem sign_not_space (py : Py) (sg : Sign) (c : Char) (h : c ∈ sg.text) : py.space c = false := by
  cases sg with
  | none => cases h
  | plus => simp only [Sign.text, List.mem_singleton] at h; subst h; rw [py.space_ascii _ (by decide)]; decide
  | minus => simp only [Sign.text, List.mem_singleton] at h; subst h; rw [py.space_ascii _ (by decide)]; decide

theorem tight_of {py : Py} {s : List Char} (h1 : ∃ c r, s = c :: r ∧ py.space c = false)
    (h2 : ∃ r c, s = r ++ [c] ∧ py.space c = false) : Tight py s := by
  obtain ⟨c, r, rfl, hc⟩ := h1
  obtain ⟨r', c', h2, hc'⟩ := h2
  refine ⟨fun x t h => by cases h; exact hc, fun t x h => ?_⟩
  rw [h2] at h
  have := List.append_inj_right' h rfl
  cases this; exact hc'

theorem digit_not_space {py : Py} {c : Char} (h : py.isDigit c = true) : py.space c = false := py.digit_space c h

theorem pyInt_iff (py : Py) (s : List Char) (i : Int) :
    pyInt py s = some i ↔ ∃ sg ds, LooseInt py s sg ds
      ∧ i = if sg = Sign.minus then -(number 10 ds : Int) else number 10 ds := by
  constructor
  · intro h
    obtain ⟨pre, post, hs, h1, h2, _⟩ := strip_spec py s
    obtain ⟨sg, hsg, hneg⟩ := takeSign_spec (py.strip s)
    simp only [pyInt] at h
    cases hu : underscored py (takeSign (py.strip s)).2 with
    | none => simp [hu] at h
    | some t =>
      simp only [hu] at h
      obtain ⟨ds, hU, hD⟩ := underscored_sound py _ _ hu
      rw [horner_some 10 py.digit t ds 0 hD (digits_lt hD)] at h
      simp only [Nat.zero_mul, Nat.zero_add, Option.some.injEq, hneg, decide_eq_true_eq] at h
      refine ⟨sg, ds, ⟨pre, (takeSign (py.strip s)).2, post, ?_, h1, h2, hU⟩, h.symm⟩
      rw [List.append_assoc pre, ← hsg]; exact hs
  · rintro ⟨sg, ds, ⟨pre, body, post, hs, h1, h2, hU⟩, rfl⟩
    have hst : py.strip s = sg.text ++ body := by
      rw [hs, List.append_assoc pre]
      refine strip_tight py h1 h2 (tight_of ?_ ?_)
      · obtain ⟨c, r, hc, hd⟩ := underscored_head hU
        cases hsg : sg.text with
        | nil => exact ⟨c, r, by simp [hc], digit_not_space hd⟩
        | cons x t => exact ⟨x, t ++ body, rfl, sign_not_space py sg x (by simp [hsg])⟩
      · obtain ⟨r, c, hc, hd⟩ := underscored_last hU
        exact ⟨sg.text ++ r, c, by simp [hc], digit_not_space hd⟩
    obtain ⟨t, ht, hD⟩ := underscored_complete py _ _ hU
    have hts : takeSign (sg.text ++ body) = (decide (sg = .minus), body) := by
      refine takeSign_text sg body ?_
      intro c r e
      obtain ⟨c', r', hc, hd⟩ := underscored_head hU
      rw [e] at hc; cases hc
      constructor <;> rintro rfl
      · simp [minus_not_digit] at hd
      · simp [plus_not_digit] at hd
    simp only [pyInt, hst, hts, ht]
    rw [horner_some 10 py.digit t ds 0 hD (digits_lt hD)]
    simp

/-! ### the decimal pattern -/

theorem rel_dec (py : Py) (s : List Char) : test (reDec py) s = true ↔
    ∃ d ips fps xs, Dec.Wf py d ips fps xs ∧ (s = d.text ∨ s = d.text ++ ['\n']) := by
  rw [reDec, test_iff (rel_seq (rel_opt (rel_chr isSign)) (rel_seq (rel_alt (rel_seq (rel_plus py.isDigit)
    (rel_opt (rel_seq (rel_lit '.') (rel_star py.isDigit)))) (rel_seq (rel_lit '.') (rel_plus py.isDigit)))
    (rel_seq (rel_opt (rel_seq (rel_chr _) (rel_seq (rel_opt (rel_chr isSign)) (rel_plus py.isDigit)))) rel_eol)))]
  have sgn : ∀ (s t : List Char), ((∃ c, s = c :: t ∧ isSign c = true) ∨ t = s) ↔ ∃ sg : Sign, s = sg.text ++ t := by
    intro s t
    constructor
    · rintro (⟨c, rfl, hc⟩ | rfl)
      · simp only [isSign, Bool.or_eq_true, beq_iff_eq] at hc
        rcases hc with rfl | rfl
        · exact ⟨.minus, rfl⟩
        · exact ⟨.plus, rfl⟩
      · exact ⟨.none, rfl⟩
    · rintro ⟨sg, rfl⟩
      cases sg with
      | none => exact .inr rfl
      | plus => exact .inl ⟨'+', rfl, rfl⟩
      | minus => exact .inl ⟨'-', rfl, rfl⟩
  simp only [sgn]
  constructor
  · rintro ⟨s', t1, ⟨sg, rfl⟩, t2, hmant, t3, hexp, rfl, hend⟩
    have tail : ∃ (e : Option (Char × Sign × List Char)) (xs : List Nat),
        t2 = expText e ++ s' ∧
        (match e with | none => xs = [] | some (e, _, x) => (e = 'e' ∨ e = 'E') ∧ Digits py x xs ∧ xs ≠ []) := by
      rcases hexp with ⟨u, ⟨c, rfl, hc⟩, v, ⟨sg', rfl⟩, x, rfl, hx, hd⟩ | rfl
      · obtain ⟨xs, hxs⟩ := digits_of_all hd
        refine ⟨some (c, sg', x), xs, by simp [expText], ?_, hxs, fun h => hx ((digits_nil hxs).mpr h)⟩
        simpa using hc
      · exact ⟨none, [], rfl, rfl⟩
    obtain ⟨e, xs, rfl, hwe⟩ := tail
    have close : ∀ (d : Dec) (ips fps : List Nat), d.exp = e → Dec.Wf py d ips fps xs →
        (sg.text ++ t1 = d.text ++ s') → ∃ d ips fps xs, Dec.Wf py d ips fps xs ∧ (sg.text ++ t1 = d.text ∨ sg.text ++ t1 = d.text ++ ['\n']) := by
      intro d ips fps _ hw ht
      refine ⟨d, ips, fps, xs, hw, ?_⟩
      rcases hend with rfl | rfl
      · left; simpa using ht
      · right; exact ht
    rcases hmant with ⟨u, ⟨ip, rfl, hip, hdi⟩, (⟨v, rfl, fp, rfl, hdf⟩ | rfl)⟩ | ⟨u, rfl, fp, rfl, hfp, hdf⟩
    · obtain ⟨ips, hips⟩ := digits_of_all hdi
      obtain ⟨fps, hfps⟩ := digits_of_all hdf
      refine close ⟨sg, ip, true, fp, e⟩ ips fps rfl ⟨hips, hfps, by simp, .inl fun h => hip ((digits_nil hips).mpr h), hwe⟩ ?_
      simp [Dec.text]
    · obtain ⟨ips, hips⟩ := digits_of_all hdi
      refine close ⟨sg, ip, false, [], e⟩ ips [] rfl ⟨hips, rfl, by simp, .inl fun h => hip ((digits_nil hips).mpr h), hwe⟩ ?_
      simp [Dec.text]
    · obtain ⟨fps, hfps⟩ := digits_of_all hdf
      refine close ⟨sg, [], true, fp, e⟩ [] fps rfl ⟨rfl, hfps, by simp, .inr fun h => hfp ((digits_nil hfps).mpr h), hwe⟩ ?_
      simp [Dec.text]
  · rintro ⟨⟨sg, ip, pt, fp, e⟩, ips, fps, xs, hw, hs⟩
    obtain ⟨s', hs', hend⟩ : ∃ s', s = Dec.text ⟨sg, ip, pt, fp, e⟩ ++ s' ∧ (s' = [] ∨ s' = ['\n']) := by
      rcases hs with rfl | rfl
      · exact ⟨[], by simp, .inl rfl⟩
      · exact ⟨['\n'], rfl, .inr rfl⟩
    obtain ⟨hip, hfp, hnp, hne, hexp⟩ := hw
    simp only at hip hfp hnp hne hexp
    simp only [Dec.text, List.append_assoc] at hs'
    refine ⟨s', _, ⟨sg, hs'⟩, expText e ++ s', ?_, s', ?_, rfl, hend⟩
    · cases pt with
      | false =>
        have hn : fps = [] := hnp rfl
        subst hn
        have : ips ≠ [] := by simpa using hne
        exact .inl ⟨_, ⟨ip, rfl, fun h => this ((digits_nil hip).mp h), digits_all hip⟩, .inr (by simp)⟩
      | true =>
        by_cases hi : ip = []
        · subst hi
          have hi : ips = [] := (digits_nil hip).mp rfl
          have : fps ≠ [] := by simpa [hi] using hne
          exact .inr ⟨_, by simp, fp, rfl, fun h => this ((digits_nil hfp).mp h), digits_all hfp⟩
        · exact .inl ⟨_, ⟨ip, rfl, hi, digits_all hip⟩, .inl ⟨_, by simp, fp, rfl, digits_all hfp⟩⟩
    · cases e with
      | none => exact .inr rfl
      | some e =>
        obtain ⟨c, sg', x⟩ := e
        obtain ⟨hc, hx, hxn⟩ := hexp
        exact .inl ⟨_, ⟨c, rfl, by simpa using hc⟩, _, ⟨sg', by simp⟩, x, rfl, fun h => hxn ((digits_nil hx).mp h), digits_all hx⟩

/-! ### `float` -/

theorem takeWhile_stop {p : Char → Bool} {a b : List Char} (h1 : ∀ c ∈ a, p c = true)
    (h2 : ∀ c r, b = c :: r → p c = false) : (a ++ b).takeWhile p = a ∧ (a ++ b).dropWhile p = b := by
  induction a with
  | nil =>
    cases b with
    | nil => simp
    | cons c r => simp [h2 c r rfl]
  | cons c a ih =>
    have hc := h1 c (by simp)
    obtain ⟨e1, e2⟩ := ih fun x hx => h1 x (by simp [hx])
    simp only [List.cons_append, List.takeWhile_cons_of_pos hc, List.dropWhile_cons_of_pos hc, e1, e2, and_self]

theorem number_append (b : Nat) (ds es : List Nat) : number b (ds ++ es) = number b ds * b ^ es.length + number b es := by
  induction ds with
  | nil => simp [number]
  | cons d ds ih =>
    rw [List.cons_append, number_cons, ih, number_cons, List.length_append, Nat.pow_add]
    ring

theorem dec_not_space (py : Py) {d : Dec} {ips fps xs : List Nat} (hw : Dec.Wf py d ips fps xs) :
    ∀ c ∈ d.text, py.space c = false := by
  obtain ⟨hip, hfp, hnp, hne, hexp⟩ := hw
  have asc : ∀ x : Char, x.toNat < 128 → asciiSpace x = false → py.space x = false :=
    fun x h1 h2 => by rw [py.space_ascii x h1, h2]
  intro c hc
  simp only [Dec.text, List.mem_append, or_assoc] at hc
  rcases hc with h | h | h | h
  · exact sign_not_space py _ c h
  · exact digit_not_space (digits_all hip c h)
  · cases hp : d.point with
    | false => simp [hp] at h
    | true =>
      simp only [hp, if_true, List.mem_cons] at h
      rcases h with rfl | h
      · exact asc _ (by decide) (by decide)
      · exact digit_not_space (digits_all hfp c h)
  · cases he : d.exp with
    | none => simp [he, expText] at h
    | some e =>
      obtain ⟨x, sg, t⟩ := e
      simp only [he] at hexp
      simp only [he, expText, List.mem_cons, List.mem_append] at h
      rcases h with rfl | h | h
      · rcases hexp.1 with rfl | rfl <;> exact asc _ (by decide) (by decide)
      · exact sign_not_space py _ c h
      · exact digit_not_space (digits_all hexp.2.1 c h)

theorem tight_all {py : Py} {s : List Char} (h : ∀ c ∈ s, py.space c = false) : Tight py s :=
  ⟨fun c r e => h c (by simp [e]), fun r c e => h c (by simp [e])⟩

theorem exp_stop (py : Py) {d : Dec} {ips fps xs : List Nat} (hw : Dec.Wf py d ips fps xs) :
    ∀ c r, expText d.exp = c :: r → py.isDigit c = false ∧ c ≠ '.' := by
  intro c r h
  have hexp := hw.exp
  cases he : d.exp with
  | none => simp [he, expText] at h
  | some e =>
    obtain ⟨x, sg, t⟩ := e
    simp only [he] at hexp
    simp only [he, expText, List.cons.injEq] at h
    obtain ⟨rfl, _⟩ := h
    rcases hexp.1 with rfl | rfl <;> exact ⟨digit_ascii_none (by decide) (by decide), by decide⟩

theorem mant_eq (neg : Bool) (a b l : Nat) :
    (if neg = true then -((a * 10 ^ l + b : Nat) : Rat) else ((a * 10 ^ l + b : Nat) : Rat)) / 10 ^ l
      = if neg = true then -((a : Rat) + b / 10 ^ l) else (a : Rat) + b / 10 ^ l := by
  have h : (10 : Rat) ^ l ≠ 0 := pow_ne_zero _ (by decide)
  cases neg
  · simp only [Bool.false_eq_true, if_false, Nat.cast_add, Nat.cast_mul, Nat.cast_pow, Nat.cast_ofNat]; field_simp
  · simp only [if_true, Nat.cast_add, Nat.cast_mul, Nat.cast_pow, Nat.cast_ofNat]; field_simp

theorem pyFloat_dec (py : Py) (d : Dec) (ips fps xs : List Nat) (hw : Dec.Wf py d ips fps xs) (post : List Char)
    (hpost : post = [] ∨ post = ['\n']) : pyFloat py (d.text ++ post) = some (d.value ips fps xs) := by
  have hst : py.strip (d.text ++ post) = d.text := by
    have := strip_tight py (pre := []) (s := d.text) (post := post) (by simp) (by
      rcases hpost with rfl | rfl
      · simp
      · intro c hc; simp only [List.mem_singleton] at hc; subst hc; rw [py.space_ascii _ (by decide)]; decide)
      (tight_all (dec_not_space py hw))
    simpa using this
  have hstop := exp_stop py hw
  obtain ⟨hip, hfp, hnp, hne, hexp⟩ := hw
  obtain ⟨sg, ip, pt, fp, e⟩ := d
  simp only at hip hfp hnp hne hexp hstop
  have hD := digits_append hip hfp
  have hmid : (if pt = true then '.' :: fp else []) = [] ∧ fp = [] ∨ (if pt = true then '.' :: fp else []) = '.' :: fp := by
    cases pt with
    | false => exact .inl ⟨rfl, (digits_nil hfp).mpr (hnp rfl)⟩
    | true => exact .inr rfl
  generalize hmg : (if pt = true then '.' :: fp else []) = mid at hmid
  have htext : Dec.text ⟨sg, ip, pt, fp, e⟩ = sg.text ++ (ip ++ (mid ++ expText e)) := by
    simp [Dec.text, ← hmg]
  have hts : takeSign (sg.text ++ (ip ++ (mid ++ expText e))) = (decide (sg = .minus), ip ++ (mid ++ expText e)) := by
    refine takeSign_text sg _ ?_
    intro c r h
    cases ip with
    | cons x t =>
      simp only [List.cons_append, List.cons.injEq] at h
      have := digits_all hip x (by simp)
      constructor <;> rintro rfl
      · simp [h.1, minus_not_digit] at this
      · simp [h.1, plus_not_digit] at this
    | nil =>
      have hi : ips = [] := (digits_nil hip).mp rfl
      have hf : fps ≠ [] := by simpa [hi] using hne
      rcases hmid with ⟨_, h2⟩ | h2
      · exact absurd ((digits_nil hfp).mp h2) hf
      · rw [h2] at h
        simp only [List.nil_append, List.cons_append, List.cons.injEq] at h
        rw [← h.1]; decide
  have htw : (ip ++ (mid ++ expText e)).takeWhile py.isDigit = ip ∧ (ip ++ (mid ++ expText e)).dropWhile py.isDigit = mid ++ expText e := by
    refine takeWhile_stop (digits_all hip) ?_
    intro c r h
    rcases hmid with ⟨h1, _⟩ | h1
    · rw [h1] at h; exact (hstop c r h).1
    · rw [h1] at h
      simp only [List.cons_append, List.cons.injEq] at h
      rw [← h.1]; exact dot_not_digit py
  have hfr : takeFrac py (mid ++ expText e) = (fp, expText e) := by
    unfold takeFrac
    rcases hmid with ⟨h1, h2⟩ | h1
    · rw [h1, h2, List.nil_append]
      split
      · rename_i t h; exact absurd rfl (hstop _ _ h).2
      · rfl
    · rw [h1, List.cons_append]
      have := takeWhile_stop (digits_all hfp) (fun c r h => (hstop c r h).1)
      simp only [this.1, this.2]
  have hnil : ¬ (ip = [] ∧ fp = []) := by
    rintro ⟨h1, h2⟩
    rcases hne with h | h
    · exact h ((digits_nil hip).mp h1)
    · exact h ((digits_nil hfp).mp h2)
  have hlen := digits_length hfp
  rw [htext] at hst ⊢
  simp only [pyFloat, hst, hts, htw.1, htw.2, hfr]
  rw [horner_some 10 py.digit _ _ 0 hD (digits_lt hD)]
  simp only [Nat.zero_mul, Nat.zero_add, hnil, if_false, number_append, hlen, mant_eq]
  cases e with
  | none =>
    simp [expText, Dec.value, Sign.apply]
  | some e =>
    obtain ⟨c, sg', x⟩ := e
    obtain ⟨hc, hx, hxn⟩ := hexp
    have hts' : takeSign (sg'.text ++ x) = (decide (sg' = .minus), x) := by
      refine takeSign_text sg' _ ?_
      intro c r h
      have := digits_all hx c (by simp [h])
      constructor <;> rintro rfl
      · simp [minus_not_digit] at this
      · simp [plus_not_digit] at this
    have hce : (c == 'e' || c == 'E') = true := by simpa using hc
    have hxe : x ≠ [] := fun h => hxn ((digits_nil hx).mp h)
    simp only [expText, hce, if_true, hts', hxe, if_false, horner_some 10 py.digit _ _ 0 hx (digits_lt hx),
      Nat.zero_mul, Nat.zero_add, Dec.value, Sign.apply, decide_eq_true_eq, Option.some.injEq]
    cases sg' <;> simp [div_eq_mul_inv]

end Verif.Lemmas
