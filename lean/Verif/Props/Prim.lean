import Verif.Lemmas.Prim
import Mathlib.Algebra.Order.Field.Basic
import Mathlib.Algebra.Order.Ring.Rat
/-!
# Properties C19–C26: primitive values

Texts are lists of characters; `py : Py` stands for Python's character classes and floats (every one that obeys the
laws in `Verif/Model/Py.lean`).
-/
namespace Verif.Props
open Verif.Model Verif.Spec Verif.Lemmas

/-! ## C19 -/

/-- **C19** A numerical, float or positive integer that was given a text the reader accepts is written with exactly these
characters, whatever the object held before. -/
theorem C19_verbatim (py : Py) (repr : py.F → List Char) (c : PObj.Cls) (o : PObj py.F) (s : List Char) (n : Num py.F)
    (h : convert py s = .ok n) :
    let o' := (PObj.setValue py c o (.str s)).1
    o'.writtenNumerical repr = some s ∧ o'.text' repr = s ∧ o'.value = .num n := by
  simp [PObj.setValue, PObj.assign, h, PObj.writtenNumerical, PObj.text']

/-! ## C20 -/

theorem hexDigits_all {s : List Char} {ds : List Nat} (h : HexDigits s ds) :
    (∀ c ∈ s, isHex c = true) ∧ s.map (fun c => if isHex c then some (hexVal c) else none) = ds.map some ∧ (∀ d ∈ ds, d < 16) := by
  have e : (fun c => hexTable.lookup c) = fun c => if isHex c then some (hexVal c) else none := funext hexTable_lookup
  have h' := h
  unfold HexDigits at h'
  rw [e] at h'
  refine ⟨?_, h', ?_⟩
  · intro c hc
    have : (if isHex c then some (hexVal c) else none) ∈ ds.map some := by rw [← h']; exact List.mem_map_of_mem hc
    obtain ⟨d, _, hd⟩ := List.mem_map.mp this
    by_cases hx : isHex c = true
    · exact hx
    · simp [hx] at hd
  · intro d hd
    have : some d ∈ s.map (fun c => hexTable.lookup c) := by rw [h]; exact List.mem_map_of_mem hd
    obtain ⟨c, _, hc⟩ := List.mem_map.mp this
    have key : ∀ e ∈ hexTable, e.2 < 16 := by decide
    have mem : ∀ l : List (Char × Nat), l.lookup c = some d → (c, d) ∈ l := by
      intro l
      induction l with
      | nil => simp
      | cons e l ih =>
        intro h
        by_cases hce : c = e.1
        · simp [List.lookup, hce] at h; simp [hce, ← h]
        · rw [show (e :: l) = ((e.1, e.2) :: l) from rfl, List.lookup_cons, beq_eq_false_iff_ne.mpr hce] at h
          exact List.mem_cons_of_mem _ (ih h)
    exact key _ (mem _ hc)

theorem hexDigits_of_all {s : List Char} (h : ∀ c ∈ s, isHex c = true) : ∃ ds, HexDigits s ds := by
  refine ⟨s.map hexVal, ?_⟩
  unfold HexDigits
  rw [List.map_map]
  refine List.map_congr_left fun c hc => ?_
  simp [hexTable_lookup, h c hc]

theorem reHex_eq (s : List Char) : reHex s = match s with
    | '0' :: x :: t => if (x == 'x' || x == 'X') = true then
        (if t.takeWhile isHex = [] then none else some (t.takeWhile isHex)) else none
    | _ => none := by
  unfold reHex
  match s with
  | [] => rfl
  | [c] => by_cases h : c = '0' <;> simp [Re.seq, Re.lit, Re.chr, h]
  | c :: x :: t =>
    by_cases h : c = '0'
    · subst h
      simp only [Re.seq, Re.lit, Re.chr, beq_self_eq_true, if_true]
      rw [cap_plus]
    · simp [Re.seq, Re.lit, Re.chr, h]

theorem reBin_eq (py : Py) (s : List Char) : reBin py s = match s with
    | '0' :: x :: t => if (x == 'b' || x == 'B') = true then
        (if t.takeWhile py.isDigit = [] then none else some (t.takeWhile py.isDigit)) else none
    | _ => none := by
  unfold reBin
  match s with
  | [] => rfl
  | [c] => by_cases h : c = '0' <;> simp [Re.seq, Re.lit, Re.chr, h]
  | c :: x :: t =>
    by_cases h : c = '0'
    · subst h
      simp only [Re.seq, Re.lit, Re.chr, beq_self_eq_true, if_true]
      rw [cap_plus]
    · simp [Re.seq, Re.lit, Re.chr, h]

theorem takeWhile_prefix {p : Char → Bool} {a b : List Char} (h : ∀ c ∈ a, p c = true) :
    (a ++ b).takeWhile p = a ++ b.takeWhile p := by
  induction a with
  | nil => rfl
  | cons c a ih => rw [List.cons_append, List.takeWhile_cons_of_pos (h c (by simp)), ih fun x hx => h x (by simp [hx])]; rfl

theorem zero_ne (t : List Char) : ('0' :: t ≠ "true".toList) ∧ ('0' :: t ≠ "false".toList) := by
  constructor <;> intro h <;> cases h

/-- a hexadecimal prefix decides the result -/
theorem convert_hex (py : Py) (x : Char) (hx : x = 'x' ∨ x = 'X') (t : List Char) (ds : List Nat) (hne : t.takeWhile isHex ≠ [])
    (h : HexDigits (t.takeWhile isHex) ds) : convert py ('0' :: x :: t) = .ok (.int (number 16 ds)) := by
  have hr : reHex ('0' :: x :: t) = some (t.takeWhile isHex) := by
    rw [reHex_eq]
    have : (x == 'x' || x == 'X') = true := by simpa using hx
    simp [this, hne]
  obtain ⟨_, h2, h3⟩ := hexDigits_all h
  rw [convert, if_neg (zero_ne _).1, if_neg (zero_ne _).2, hr]
  simp only
  rw [horner_some 16 _ _ ds 0 h2 h3]
  simp

theorem reHex_none_of_bin (b : Char) (hb : b = 'b' ∨ b = 'B') (t : List Char) : reHex ('0' :: b :: t) = none := by
  rw [reHex_eq]; rcases hb with rfl | rfl <;> rfl

theorem convert_bin (py : Py) (b : Char) (hb : b = 'b' ∨ b = 'B') (t : List Char) (ds : List Nat) (hne : t.takeWhile py.isDigit ≠ [])
    (h : Digits py (t.takeWhile py.isDigit) ds) (h2 : ∀ d ∈ ds, d < 2) : convert py ('0' :: b :: t) = .ok (.int (number 2 ds)) := by
  have hr : reBin py ('0' :: b :: t) = some (t.takeWhile py.isDigit) := by
    rw [reBin_eq]
    have : (b == 'b' || b == 'B') = true := by simpa using hb
    simp [this, hne]
  rw [convert, if_neg (zero_ne _).1, if_neg (zero_ne _).2, reHex_none_of_bin b hb, hr]
  simp only
  rw [horner_some 2 _ _ ds 0 h h2]
  simp

/-- **C20** `true` and `false` are 1 and 0. -/
theorem C20_words (py : Py) : convert py "true".toList = .ok (.int 1) ∧ convert py "false".toList = .ok (.int 0) := by
  constructor
  · simp [convert]
  · simp [convert]

/-- **C20** A hexadecimal text (either case, any number of digits) is converted to the number it denotes. -/
theorem C20_hex (py : Py) (x : Char) (hx : x = 'x' ∨ x = 'X') (s : List Char) (ds : List Nat) (hne : s ≠ [])
    (h : HexDigits s ds) : convert py ('0' :: x :: s) = .ok (.int (number 16 ds)) := by
  have : s.takeWhile isHex = s := by
    have := takeWhile_prefix (b := []) (hexDigits_all h).1
    simpa using this
  exact convert_hex py x hx s ds (by rw [this]; exact hne) (by rw [this]; exact h)

/-- **C20** A binary text is converted to the number it denotes. -/
theorem C20_bin (py : Py) (b : Char) (hb : b = 'b' ∨ b = 'B') (s : List Char) (ds : List Nat) (hne : s ≠ [])
    (h : Digits py s ds) (h2 : ∀ d ∈ ds, d < 2) : convert py ('0' :: b :: s) = .ok (.int (number 2 ds)) := by
  have : s.takeWhile py.isDigit = s := by
    have := takeWhile_prefix (b := []) (digits_all h)
    simpa using this
  exact convert_bin py b hb s ds (by rw [this]; exact hne) (by rw [this]; exact h) h2

theorem dec_chars (py : Py) {d : Dec} {ips fps xs : List Nat} (hw : Dec.Wf py d ips fps xs) :
    ∀ c ∈ d.text, py.isDigit c = true ∨ c ∈ ['+', '-', '.', 'e', 'E'] := by
  obtain ⟨hip, hfp, hnp, hne, hexp⟩ := hw
  have sg : ∀ (sg : Sign) c, c ∈ sg.text → py.isDigit c = true ∨ c ∈ ['+', '-', '.', 'e', 'E'] := by
    intro sg c h; cases sg <;> simp [Sign.text] at h <;> subst h <;> simp
  intro c hc
  simp only [Dec.text, List.mem_append, or_assoc] at hc
  rcases hc with h | h | h | h
  · exact sg _ c h
  · exact .inl (digits_all hip c h)
  · cases hp : d.point with
    | false => simp [hp] at h
    | true =>
      simp only [hp, if_true, List.mem_cons] at h
      rcases h with rfl | h
      · simp
      · exact .inl (digits_all hfp c h)
  · cases he : d.exp with
    | none => simp [he, expText] at h
    | some e =>
      obtain ⟨x, s', t⟩ := e
      simp only [he] at hexp
      simp only [he, expText, List.mem_cons, List.mem_append] at h
      rcases h with rfl | h | h
      · rcases hexp.1 with rfl | rfl <;> simp
      · exact sg _ c h
      · exact .inl (digits_all hexp.2.1 c h)

theorem convert_dec (py : Py) (d : Dec) (ips fps xs : List Nat) (hw : Dec.Wf py d ips fps xs) (post : List Char)
    (hpost : post = [] ∨ post = ['\n']) : convert py (d.text ++ post) = .ok (.flt (py.ofRat (d.value ips fps xs))) := by
  have hch : ∀ c ∈ d.text ++ post, py.isDigit c = true ∨ c ∈ ['+', '-', '.', 'e', 'E', '\n'] := by
    intro c hc
    rcases List.mem_append.mp hc with h | h
    · rcases dec_chars py hw c h with h | h
      · exact .inl h
      · exact .inr (by simp only [List.mem_cons, List.not_mem_nil, or_false] at h ⊢; tauto)
    · rcases hpost with rfl | rfl
      · cases h
      · simp only [List.mem_singleton] at h; subst h; simp
  have notin : ∀ x : Char, x.toNat < 128 → asciiDigit x = false → x ∉ ['+', '-', '.', 'e', 'E', '\n'] → x ∉ d.text ++ post := by
    intro x h1 h2 h3 hm
    rcases hch x hm with h | h
    · simp [digit_ascii_none h1 h2] at h
    · exact h3 h
  have h1 : d.text ++ post ≠ "true".toList := by
    intro h; exact notin 't' (by decide) (by decide) (by decide) (by rw [h]; decide)
  have h2 : d.text ++ post ≠ "false".toList := by
    intro h; exact notin 'f' (by decide) (by decide) (by decide) (by rw [h]; decide)
  have h3 : reHex (d.text ++ post) = none := by
    rw [reHex_eq]
    split
    · rename_i x t heq
      split
      · rename_i hx
        simp only [Bool.or_eq_true, beq_iff_eq] at hx
        rcases hx with rfl | rfl
        · exact absurd (by rw [heq]; simp) (notin 'x' (by decide) (by decide) (by decide))
        · exact absurd (by rw [heq]; simp) (notin 'X' (by decide) (by decide) (by decide))
      · rfl
    · rfl
  have h4 : reBin py (d.text ++ post) = none := by
    rw [reBin_eq]
    split
    · rename_i x t heq
      split
      · rename_i hx
        simp only [Bool.or_eq_true, beq_iff_eq] at hx
        rcases hx with rfl | rfl
        · exact absurd (by rw [heq]; simp) (notin 'b' (by decide) (by decide) (by decide))
        · exact absurd (by rw [heq]; simp) (notin 'B' (by decide) (by decide) (by decide))
      · rfl
    · rfl
  have h5 : Re.test (reDec py) (d.text ++ post) = true := by
    rw [rel_dec]
    rcases hpost with rfl | rfl
    · exact ⟨d, ips, fps, xs, hw, .inl (by simp)⟩
    · exact ⟨d, ips, fps, xs, hw, .inr rfl⟩
  rw [convert, if_neg h1, if_neg h2, h3, h4]
  simp only [h5, if_true, pyFloat_dec py d ips fps xs hw post hpost]

/-- **C20** A decimal text (sign, integer digits, fraction, exponent) is converted to the float nearest to the number it
denotes. -/
theorem C20_decimal (py : Py) (d : Dec) (ips fps xs : List Nat) (hw : Dec.Wf py d ips fps xs) :
    convert py d.text = .ok (.flt (py.ofRat (d.value ips fps xs))) := by
  have := convert_dec py d ips fps xs hw [] (.inl rfl)
  simpa using this

theorem digits_ascii (py : Py) (s : List Char) (h : ∀ c ∈ s, asciiDigit c = true) : Digits py s (s.map fun c => c.toNat - 48) := by
  unfold Digits
  rw [List.map_map]
  refine List.map_congr_left fun c hc => ?_
  have := h c hc
  have hlt : c.toNat < 128 := by simp only [asciiDigit, Bool.and_eq_true, decide_eq_true_eq] at this; omega
  simp [py.digit_ascii c hlt, this]

/-- a plain digit sequence as a decimal -/
def plainDec (s : List Char) : Dec := ⟨.none, s, false, [], none⟩

theorem plainDec_wf (py : Py) (s : List Char) (h : ∀ c ∈ s, asciiDigit c = true) (hne : s ≠ []) :
    Dec.Wf py (plainDec s) (s.map fun c => c.toNat - 48) [] [] :=
  ⟨digits_ascii py s h, rfl, fun _ => rfl, .inl (by simpa using hne), rfl⟩

theorem convert_plain (py : Py) (s : List Char) (h : ∀ c ∈ s, asciiDigit c = true) (hne : s ≠ []) :
    convert py s = .ok (.flt (py.ofRat (number 10 (s.map fun c => c.toNat - 48)))) := by
  have := C20_decimal py _ _ _ _ (plainDec_wf py s h hne)
  simpa [plainDec, Dec.text, expText, Sign.text, Dec.value, Sign.apply, number] using this

/-- **C20 (partial)** An integer written with decimal digits is converted to that integer, as long as it needs at most 53
bits.  Missing: larger ones (`C20_large_broken`). -/
theorem C20_decimal_integer_partial (py : Py) (s : List Char) (h : ∀ c ∈ s, asciiDigit c = true) (hne : s ≠ [])
    (hb : number 10 (s.map fun c => c.toNat - 48) < 2 ^ 53) :
    ∃ n, convert py s = .ok n ∧ n.toRat py = some (number 10 (s.map fun c => c.toNat - 48) : Rat) := by
  refine ⟨_, convert_plain py s h hne, ?_⟩
  generalize number 10 (s.map fun c => c.toNat - 48) = m at hb
  refine py.exact _ ⟨m, 0, by simpa using hb, .inl (by simp)⟩ ?_
  have : ((m : Rat)).num.natAbs = m := by simp
  rw [this]
  exact Nat.lt_trans hb (Nat.pow_lt_pow_right (by decide) (by decide))

/-- a number needing 54 bits is not representable -/
theorem not_double : ¬ IsDouble 9007199254740993 := by
  rintro ⟨m, e, hm, h | h⟩
  · have hi : (9007199254740993 : Int) = m * 2 ^ e := by exact_mod_cast h
    cases e with
    | zero => simp at hi; omega
    | succ e =>
      have : (9007199254740993 : Int) = 2 * (m * 2 ^ e) := by rw [hi]; ring
      omega
  · have hi : (9007199254740993 : Int) * 2 ^ e = m := by exact_mod_cast h
    have h1 : (1 : Int) ≤ 2 ^ e := by
      have : (1 : Nat) ≤ 2 ^ e := Nat.one_le_two_pow
      exact_mod_cast this
    have h2 : (9007199254740993 : Int) ≤ 9007199254740993 * 2 ^ e := by omega
    omega

/-- **C20 fails** for large decimal integers, which go through a float: 9007199254740993 = 2⁵³+1 is never converted to
itself, although it is a plain decimal number. -/
theorem C20_large_broken (py : Py) : ∃ s : List Char, (∀ c ∈ s, asciiDigit c = true) ∧
    number 10 (s.map fun c => c.toNat - 48) = 9007199254740993 ∧
    ∀ n, convert py s = .ok n → n.toRat py ≠ some 9007199254740993 := by
  have hd : ∀ c ∈ "9007199254740993".toList, asciiDigit c = true := by decide +kernel
  have hnum : number 10 ("9007199254740993".toList.map fun c => c.toNat - 48) = 9007199254740993 := by decide +kernel
  refine ⟨"9007199254740993".toList, hd, hnum, ?_⟩
  intro n hn hc
  rw [convert_plain py _ hd (by decide), hnum, Except.ok.injEq] at hn
  subst hn
  exact not_double (py.double _ _ hc)

/-- **C20 fails** for octal texts, a documented format: `017` denotes 15 but is read as 17. -/
theorem C20_octal_broken (py : Py) : ∃ n, convert py "017".toList = .ok n ∧ n.toRat py = some 17
    ∧ number 8 [0, 1, 7] = 15 := by
  obtain ⟨n, h1, h2⟩ := C20_decimal_integer_partial py "017".toList (by decide +kernel) (by decide) (by decide +kernel)
  refine ⟨n, h1, ?_, by decide⟩
  rw [h2]
  have : number 10 ("017".toList.map fun c => c.toNat - 48) = 17 := by decide +kernel
  rw [this]; rfl

example (py : Py) : convert py "0xfF".toList = .ok (.int 255) :=
  C20_hex py 'x' (.inl rfl) ['f', 'F'] [15, 15] (by simp) (by rfl)
example (py : Py) : convert py "0b101".toList = .ok (.int 5) :=
  C20_bin py 'b' (.inl rfl) ['1', '0', '1'] [1, 0, 1] (by simp) (digits_ascii py _ (by decide +kernel)) (by decide)
example (py : Py) : convert py "-12.5e-3".toList = .ok (.flt (py.ofRat (-(12 + 5 / 10) * (1 / 10 ^ 3)))) :=
  C20_decimal py ⟨.minus, ['1', '2'], true, ['5'], some ('e', .minus, ['3'])⟩ [1, 2] [5] [3]
    ⟨digits_ascii py _ (by decide +kernel), digits_ascii py _ (by decide +kernel), by simp, by simp,
      .inl rfl, digits_ascii py _ (by decide +kernel), by simp⟩

/-! ## C21 -/

theorem not_digit_ascii_loose {py : Py} {s : List Char} {sg : Sign} {ds : List Nat} (h : LooseInt py s sg ds) (c : Char)
    (hc : c ∈ s) : py.space c = true ∨ py.isDigit c = true ∨ c ∈ ['+', '-', '_'] := by
  obtain ⟨pre, body, post, rfl, h1, h2, hU⟩ := h
  simp only [List.mem_append, or_assoc] at hc
  rcases hc with h | h | h | h
  · exact .inl (h1 c h)
  · cases sg <;> simp [Sign.text] at h <;> subst h <;> simp
  · right
    clear h1 h2
    induction hU with
    | one hd => simp only [List.mem_singleton] at h; subst h; simp [Py.isDigit, hd]
    | cons hd _ ih =>
      rcases List.mem_cons.mp h with rfl | h
      · simp [Py.isDigit, hd]
      · exact ih h
    | under hd _ ih =>
      rcases List.mem_cons.mp h with rfl | h
      · simp [Py.isDigit, hd]
      · rcases List.mem_cons.mp h with rfl | h
        · simp
        · exact ih h
  · exact .inl (h2 c h)

theorem loose_not (py : Py) {s : List Char} {sg : Sign} {ds : List Nat} (h : LooseInt py s sg ds) (x : Char)
    (h1 : x.toNat < 128) (h2 : asciiDigit x = false) (h3 : asciiSpace x = false) (h4 : x ∉ ['+', '-', '_']) : x ∉ s := by
  intro hm
  rcases not_digit_ascii_loose h x hm with h | h | h
  · rw [py.space_ascii x h1, h3] at h; cases h
  · rw [digit_ascii_none h1 h2] at h; cases h
  · exact h4 h

theorem convert_loose (py : Py) (s : List Char) (sg : Sign) (ds : List Nat) (h : LooseInt py s sg ds) :
    ∃ n, convert py s = .ok n := by
  have n1 : s ≠ "true".toList := by
    intro e; exact loose_not py h 't' (by decide) (by decide) (by decide) (by decide) (by rw [e]; decide)
  have n2 : s ≠ "false".toList := by
    intro e; exact loose_not py h 'f' (by decide) (by decide) (by decide) (by decide) (by rw [e]; decide)
  have n3 : reHex s = none := by
    rw [reHex_eq]
    split
    · rename_i x t
      split
      · rename_i hx
        simp only [Bool.or_eq_true, beq_iff_eq] at hx
        rcases hx with rfl | rfl
        · exact absurd (by simp) (loose_not py h 'x' (by decide) (by decide) (by decide) (by decide))
        · exact absurd (by simp) (loose_not py h 'X' (by decide) (by decide) (by decide) (by decide))
      · rfl
    · rfl
  have n4 : reBin py s = none := by
    rw [reBin_eq]
    split
    · rename_i x t
      split
      · rename_i hx
        simp only [Bool.or_eq_true, beq_iff_eq] at hx
        rcases hx with rfl | rfl
        · exact absurd (by simp) (loose_not py h 'b' (by decide) (by decide) (by decide) (by decide))
        · exact absurd (by simp) (loose_not py h 'B' (by decide) (by decide) (by decide) (by decide))
      · rfl
    · rfl
  rw [convert, if_neg n1, if_neg n2, n3, n4]
  simp only
  by_cases ht : Re.test (reDec py) s = true
  · obtain ⟨d, ips, fps, xs, hw, hs⟩ := (rel_dec py s).mp ht
    obtain ⟨post, hp, rfl⟩ : ∃ post, (post = [] ∨ post = ['\n']) ∧ s = d.text ++ post := by
      rcases hs with rfl | rfl
      · exact ⟨[], .inl rfl, by simp⟩
      · exact ⟨['\n'], .inr rfl, rfl⟩
    simp [ht, pyFloat_dec py d ips fps xs hw post hp]
  · have := (pyInt_iff py s _).mpr ⟨sg, ds, h, rfl⟩
    simp [ht, this]

/-- **C21 (what is accepted)** The texts given a value are exactly: `true`, `false`; a hexadecimal number followed by
anything; a binary number followed by anything but a digit; a decimal number, possibly with a final newline; a signed
integer with blanks around it and underscores between digits. -/
theorem C21_accepted_iff (py : Py) (s : List Char) : (∃ n, convert py s = .ok n) ↔ Accepted py s := by
  constructor
  · rintro ⟨n, h⟩
    unfold convert at h
    split at h
    · rename_i e; rw [e]; exact .doc .tru
    · split at h
      · rename_i e; rw [e]; exact .doc .fls
      · cases hh : reHex s with
        | some g =>
          clear h
          rw [reHex_eq] at hh
          split at hh
          · rename_i x t _ _
            split at hh
            · rename_i hx
              split at hh
              · cases hh
              · rename_i hne
                obtain ⟨ds, hds⟩ := hexDigits_of_all (s := t.takeWhile isHex) fun c hc => takeWhile_all hc
                have e := List.takeWhile_append_dropWhile (p := isHex) (l := t)
                rw [← e]
                exact .hexJunk (by simpa using hx) hds hne
            · cases hh
          · cases hh
        | none =>
          simp only [hh] at h
          cases hb : reBin py s with
          | some g =>
            have hb' := hb
            rw [reBin_eq] at hb
            split at hb
            · rename_i x t _ _
              split at hb
              · rename_i hx
                split at hb
                · cases hb
                · rename_i hne
                  cases hb
                  simp only [hb'] at h
                  cases hn : horner 2 py.digit (t.takeWhile py.isDigit) 0 with
                  | none => simp [hn] at h
                  | some m =>
                    obtain ⟨ds, h1, h2⟩ := horner_inv _ _ _ _ _ hn
                    have e := List.takeWhile_append_dropWhile (p := py.isDigit) (l := t)
                    rw [← e]
                    refine .binJunk (by simpa using hx) h1 h2 hne ?_
                    intro c r hr
                    have := List.head?_dropWhile_not py.isDigit t
                    rw [hr] at this
                    simpa [Py.isDigit] using this
              · cases hb
            · cases hb
          | none =>
            simp only [hb] at h
            split at h
            · rename_i ht
              obtain ⟨d, ips, fps, xs, hw, hs⟩ := (rel_dec py s).mp ht
              rcases hs with rfl | rfl
              · exact .doc (.dec hw)
              · exact .newline hw
            · cases hi : pyInt py s with
              | none => simp [hi] at h
              | some i =>
                obtain ⟨sg, ds, hl, _⟩ := (pyInt_iff py s i).mp hi
                exact .loose hl
  · have hex : ∀ x t (ds : List Nat) rest, (x = 'x' ∨ x = 'X') → HexDigits t ds → t ≠ [] → ∃ n, convert py ('0' :: x :: t ++ rest) = .ok n := by
      intro x t ds rest hx h hne
      have e := takeWhile_prefix (b := rest) (hexDigits_all h).1
      obtain ⟨es, hes⟩ := hexDigits_of_all (s := (t ++ rest).takeWhile isHex) fun c hc => takeWhile_all hc
      exact ⟨_, convert_hex py x hx (t ++ rest) es (by rw [e]; simp [hne]) hes⟩
    have bin : ∀ b t (ds : List Nat) rest, (b = 'b' ∨ b = 'B') → Digits py t ds → (∀ d ∈ ds, d < 2) → t ≠ [] →
        (∀ c r, rest = c :: r → py.digit c = none) → ∃ n, convert py ('0' :: b :: t ++ rest) = .ok n := by
      intro b t ds rest hb h h2 hne hr
      have e := (takeWhile_stop (b := rest) (digits_all h) (fun c r e => by simp [Py.isDigit, hr c r e])).1
      exact ⟨_, convert_bin py b hb (t ++ rest) ds (by rw [e]; exact hne) (by rw [e]; exact h) h2⟩
    intro h
    cases h with
    | doc h =>
      cases h with
      | tru => exact ⟨_, (C20_words py).1⟩
      | fls => exact ⟨_, (C20_words py).2⟩
      | hex hx h hne => exact ⟨_, C20_hex py _ hx _ _ hne h⟩
      | bin hb h h2 hne => exact ⟨_, C20_bin py _ hb _ _ hne h h2⟩
      | dec hw => exact ⟨_, C20_decimal py _ _ _ _ hw⟩
    | hexJunk hx h hne => exact hex _ _ _ _ hx h hne
    | binJunk hb h h2 hne hr => exact bin _ _ _ _ hb h h2 hne hr
    | newline hw => exact ⟨_, convert_dec py _ _ _ _ hw _ (.inr rfl)⟩
    | loose h => exact convert_loose py s _ _ h

/-- **C21 (partial)** Every other text raises `ValueError`.  Missing: texts with trailing garbage after a hexadecimal or
binary number are accepted (`C21_trailing_broken`). -/
theorem C21_rejected_partial (py : Py) (s : List Char) (h : ¬ Accepted py s) : convert py s = .error .valueError := by
  have key : convert py s = .error .valueError ∨ ∃ n, convert py s = .ok n := by
    unfold convert
    repeat' split
    all_goals first | exact .inl rfl | exact .inr ⟨_, rfl⟩
  rcases key with h' | h'
  · exact h'
  · exact absurd ((C21_accepted_iff py s).mp h') h

/-- **C21 fails**: `0x1FZZ` is given the value 31 and `0b1five` the value 1, although they are no numbers. -/
theorem C21_trailing_broken (py : Py) :
    convert py "0x1FZZ".toList = .ok (.int 31) ∧ convert py "0b1five".toList = .ok (.int 1)
    ∧ ¬ Documented py "0x1FZZ".toList := by
  refine ⟨?_, ?_, ?_⟩
  · have e : ("1FZZ".toList).takeWhile isHex = ['1', 'F'] := by decide
    exact convert_hex py 'x' (.inl rfl) "1FZZ".toList [1, 15] (by rw [e]; simp) (by rw [e]; rfl)
  · have e : ("1five".toList).takeWhile py.isDigit = ['1'] := by
      have h1 : py.isDigit '1' = true := by simp [Py.isDigit, py.digit_ascii '1' (by decide)]; decide
      have h2 : py.isDigit 'f' = false := digit_ascii_none (by decide) (by decide)
      have : "1five".toList = '1' :: 'f' :: "ive".toList := by decide
      rw [this, List.takeWhile_cons_of_pos h1, List.takeWhile_cons_of_neg (by simp [h2])]
    have hd := digits_ascii py ['1'] (by decide)
    exact convert_bin py 'b' (.inl rfl) "1five".toList [1] (by rw [e]; simp) (by rw [e]; exact hd) (by decide)
  · intro h
    generalize hs : "0x1FZZ".toList = s at h
    cases h with
    | tru => revert hs; decide
    | fls => revert hs; decide
    | @hex x t ds hx h hne =>
      have ht : t = "1FZZ".toList := by
        have : "0x1FZZ".toList = '0' :: 'x' :: "1FZZ".toList := by decide
        rw [this] at hs; cases hs; rfl
      have := (hexDigits_all h).1 'Z' (by rw [ht]; decide)
      revert this; decide
    | @bin b t ds hb h h2 hne =>
      have : "0x1FZZ".toList = '0' :: 'x' :: "1FZZ".toList := by decide
      rw [this] at hs; cases hs
      rcases hb with h | h <;> revert h <;> decide
    | dec hw =>
      rcases dec_chars py hw 'x' (by rw [← hs]; decide) with h | h
      · rw [digit_ascii_none (by decide) (by decide)] at h; cases h
      · revert h; decide

/-- **C21 fails** as to the effect of a rejected text: the object keeps its value but from then on is written with the
rejected text. -/
theorem C21_rejected_text_kept_broken (py : Py) (repr : py.F → List Char) (c : PObj.Cls) (o : PObj py.F) (s : List Char)
    (h : ¬ Accepted py s) :
    PObj.setValue py c o (.str s) = (⟨o.value, some s⟩, some .valueError)
    ∧ (PObj.setValue py c o (.str s)).1.writtenNumerical repr = some s := by
  simp [PObj.setValue, PObj.assign, C21_rejected_partial py s h, PObj.writtenNumerical]

theorem not_accepted_abc (py : Py) : ¬ Accepted py "abc".toList := by
  intro h
  generalize hs : "abc".toList = s at h
  cases h with
  | doc h =>
    cases h with
    | tru => revert hs; decide
    | fls => revert hs; decide
    | hex => revert hs; intro hs; cases hs
    | bin => revert hs; intro hs; cases hs
    | dec hw =>
      rcases dec_chars py hw 'a' (by rw [← hs]; decide) with h | h
      · rw [digit_ascii_none (by decide) (by decide)] at h; cases h
      · revert h; decide
  | hexJunk => cases hs
  | binJunk => cases hs
  | @newline d _ _ _ hw =>
    have : 'a' ∈ d.text ++ ['\n'] := by rw [← hs]; decide
    rcases List.mem_append.mp this with h | h
    · rcases dec_chars py hw 'a' h with h | h
      · rw [digit_ascii_none (by decide) (by decide)] at h; cases h
      · revert h; decide
    · revert h; decide
  | loose h => exact loose_not py h 'a' (by decide) (by decide) (by decide) (by decide) (by rw [← hs]; decide)

example (py : Py) : convert py "abc".toList = .error .valueError := C21_rejected_partial py _ (not_accepted_abc py)

/-! ## C22 -/

theorem lower_word (py : Py) (w : List Char) (hw : ∀ c ∈ w, c.toNat < 128 ∧ c ≠ 'k' ∧ c ≠ 'i') (s : List Char) :
    PBool.lower py s = w ↔ s.map asciiLower = w := by
  unfold PBool.lower
  induction s generalizing w with
  | nil => simp
  | cons c s ih =>
    by_cases hc : c.toNat < 128
    · rw [List.flatMap_cons, py.lower_ascii c hc, List.map_cons]
      change asciiLower c :: s.flatMap py.lower = w ↔ _
      cases w with
      | nil => simp
      | cons x w =>
        simp only [List.cons.injEq]
        rw [ih w fun y hy => hw y (by simp [hy])]
    · obtain ⟨hne, hx⟩ := py.lower_other c (by omega)
      have hal : asciiLower c = c := by unfold asciiLower; rw [if_neg (by omega)]
      constructor
      · intro h
        exfalso
        cases hl : py.lower c with
        | nil => exact hne hl
        | cons x r =>
          have hxw : x ∈ w := by rw [← h, List.flatMap_cons, hl]; simp
          have := hw x hxw
          rcases hx x (by rw [hl]; simp) with h | h | h
          · exact this.2.1 h
          · exact this.2.2 h
          · omega
      · intro h
        exfalso
        have hxw : c ∈ w := by rw [← h, List.map_cons, hal]; simp
        have := hw c hxw
        omega

/-- a text whose lower case consists of digits, blanks, signs and underscores has no case -/
theorem lower_inert (py : Py) (s : List Char)
    (h : ∀ x ∈ PBool.lower py s, py.space x = true ∨ py.isDigit x = true ∨ x ∈ ['+', '-', '_']) : PBool.lower py s = s := by
  unfold PBool.lower at *
  induction s with
  | nil => rfl
  | cons c s ih =>
    have hs := ih fun x hx => h x (by rw [List.flatMap_cons]; simp [hx])
    rw [List.flatMap_cons, hs]
    have hl : ∀ x ∈ py.lower c, py.space x = true ∨ py.isDigit x = true ∨ x ∈ ['+', '-', '_'] :=
      fun x hx => h x (by rw [List.flatMap_cons]; simp [hx])
    suffices py.lower c = [c] by rw [this]; rfl
    by_cases hc : c.toNat < 128
    · rw [py.lower_ascii c hc] at hl ⊢
      split
      · rename_i hu
        rw [if_pos hu] at hl
        exfalso
        have hx := hl _ (List.mem_singleton.mpr rfl)
        have hlow : (Char.ofNat (c.toNat + 32)).toNat = c.toNat + 32 := toNat_ofNat _ (by omega)
        rcases hx with hx | hx | hx
        · rw [py.space_ascii _ (by omega)] at hx
          simp only [asciiSpace, hlow, Bool.or_eq_true, Bool.and_eq_true, decide_eq_true_eq] at hx
          omega
        · rw [digit_ascii_none (by omega) (by simp only [asciiDigit, hlow, Bool.and_eq_false_iff, decide_eq_false_iff_not]; omega)] at hx
          cases hx
        · simp only [List.mem_cons, List.not_mem_nil, or_false] at hx
          rcases hx with hx | hx | hx
          all_goals
            have := congrArg Char.toNat hx
            rw [hlow] at this
            simp at this
            omega
      · rfl
    · obtain ⟨hne, hx⟩ := py.lower_other c (by omega)
      cases hlc : py.lower c with
      | nil => exact absurd hlc hne
      | cons x r =>
        rw [← hlc]
        have hxm : x ∈ py.lower c := by rw [hlc]; simp
        rcases hl x hxm with h' | h' | h'
        · exact py.lower_inert c x hxm (.inr h')
        · exact py.lower_inert c x hxm (.inl h')
        · exfalso
          rcases hx x hxm with e | e | e
          · subst e; revert h'; decide
          · subst e; revert h'; decide
          · simp only [List.mem_cons, List.not_mem_nil, or_false] at h'
            rcases h' with rfl | rfl | rfl <;> revert e <;> decide

theorem inert_lower (py : Py) (s : List Char)
    (h : ∀ x ∈ s, py.space x = true ∨ py.isDigit x = true ∨ x ∈ ['+', '-', '_']) : PBool.lower py s = s := by
  unfold PBool.lower
  induction s with
  | nil => rfl
  | cons c s ih =>
    rw [List.flatMap_cons, ih fun x hx => h x (by simp [hx])]
    suffices py.lower c = [c] by rw [this]; rfl
    rcases h c (by simp) with h' | h' | h'
    · exact py.lower_digit c (.inr h')
    · exact py.lower_digit c (.inl h')
    · simp only [List.mem_cons, List.not_mem_nil, or_false] at h'
      rcases h' with rfl | rfl | rfl <;> exact py.lower_ascii _ (by decide)

theorem pyInt_digit (py : Py) (c : Char) (h : asciiDigit c = true) : pyInt py [c] = some ((c.toNat - 48 : Nat) : Int) := by
  rw [pyInt_iff]
  have hlt : c.toNat < 128 := by simp only [asciiDigit, Bool.and_eq_true, decide_eq_true_eq] at h; omega
  refine ⟨.none, [c.toNat - 48], ⟨[], [c], [], rfl, by simp, by simp, .one ?_⟩, ?_⟩
  · rw [py.digit_ascii c hlt, if_pos h]
  · simp [number]

theorem boolConvert_iff (py : Py) (s : List Char) (b : Bool) : PBool.convert py s = .ok b ↔ BoolText py s b := by
  have wt : ∀ c ∈ "true".toList, c.toNat < 128 ∧ c ≠ 'k' ∧ c ≠ 'i' := by decide
  have wf : ∀ c ∈ "false".toList, c.toNat < 128 ∧ c ≠ 'k' ∧ c ≠ 'i' := by decide
  have w1 : ∀ c ∈ "1".toList, c.toNat < 128 ∧ c ≠ 'k' ∧ c ≠ 'i' := by decide
  have w0 : ∀ c ∈ "0".toList, c.toNat < 128 ∧ c ≠ 'k' ∧ c ≠ 'i' := by decide
  have loose : ∀ i, pyInt py (PBool.lower py s) = some i → BoolText py s (i != 0) := by
    intro i hi
    obtain ⟨sg, ds, hl, rfl⟩ := (pyInt_iff py _ i).mp hi
    rw [lower_inert py s fun x hx => not_digit_ascii_loose hl x hx] at hl
    have : ((if sg = Sign.minus then -(number 10 ds : Int) else number 10 ds) != 0) = (number 10 ds != 0) := by
      rw [Bool.eq_iff_iff]
      simp only [bne_iff_ne, ne_eq]
      split <;> omega
    rw [this]
    exact .int hl
  constructor
  · intro h
    unfold PBool.convert at h
    dsimp only at h
    split at h
    · rename_i hv
      cases h
      rcases hv with hv | hv
      · exact .tru ((lower_word py _ wt s).mp hv)
      · have := loose 1 (by rw [hv]; exact pyInt_digit py '1' (by decide))
        exact this
    · split at h
      · rename_i hv
        cases h
        rcases hv with hv | hv
        · exact .fls ((lower_word py _ wf s).mp hv)
        · have := loose 0 (by rw [hv]; exact pyInt_digit py '0' (by decide))
          exact this
      · cases hi : pyInt py (PBool.lower py s) with
        | none => simp [hi] at h
        | some i =>
          simp only [hi, Except.ok.injEq] at h
          subst h
          exact loose i hi
  · intro h
    cases h with
    | tru h =>
      have := (lower_word py _ wt s).mpr h
      simp [PBool.convert, this]
    | fls h =>
      have := (lower_word py _ wf s).mpr h
      have n1 : ¬ ("false".toList = "true".toList ∨ "false".toList = "1".toList) := by decide
      simp only [PBool.convert, this, if_neg n1]
      simp
    | @int sg ds h =>
      have e : PBool.lower py s = s := inert_lower py s fun x hx => not_digit_ascii_loose h x hx
      have hi := (pyInt_iff py s _).mpr ⟨sg, ds, h, rfl⟩
      have hb : ((if sg = Sign.minus then -(number 10 ds : Int) else number 10 ds) != 0) = (number 10 ds != 0) := by
        rw [Bool.eq_iff_iff]
        simp only [bne_iff_ne, ne_eq]
        split <;> omega
      unfold PBool.convert
      rw [e]
      dsimp only
      have nt : s ≠ "true".toList := by
        intro e; exact loose_not py h 't' (by decide) (by decide) (by decide) (by decide) (by rw [e]; decide)
      have nf : s ≠ "false".toList := by
        intro e; exact loose_not py h 'f' (by decide) (by decide) (by decide) (by decide) (by rw [e]; decide)
      by_cases h1 : s = "1".toList
      · have := pyInt_digit py '1' (by decide)
        rw [h1] at hi
        rw [show "1".toList = ['1'] from rfl, this, Option.some.injEq] at hi
        rw [if_pos (.inr h1), ← hb, ← hi]
        rfl
      · rw [if_neg (by tauto)]
        by_cases h0 : s = "0".toList
        · have := pyInt_digit py '0' (by decide)
          rw [h0] at hi
          rw [show "0".toList = ['0'] from rfl, this, Option.some.injEq] at hi
          rw [if_pos (.inr h0), ← hb, ← hi]
          rfl
        · rw [if_neg (by tauto), hi]
          simp only [hb]

/-- **C22** A truth-value text, with blanks around it, gives the object that value; it is then written without the blanks. -/
theorem C22_accepted (py : Py) (o : PBool.BObj) (pre w post : List Char) (b : Bool) (h : BoolText py w b) (ht : Trimmed py w)
    (h1 : ∀ c ∈ pre, py.space c = true) (h2 : ∀ c ∈ post, py.space c = true) :
    let r := PBool.setValue py o (.str (pre ++ w ++ post))
    r.2 = none ∧ r.1.value = some b ∧ PBool.text' r.1 = w := by
  have hs := strip_tight py h1 h2 ht
  have hc := (boolConvert_iff py w b).mpr h
  simp only [PBool.setValue, PBool.assign, hs, hc, PBool.text', and_self]

/-- **C22** Any other text raises `ValueError` and leaves the object as it was. -/
theorem C22_rejected (py : Py) (o : PBool.BObj) (s : List Char)
    (h : ∀ pre w post, s = pre ++ w ++ post → (∀ c ∈ pre, py.space c = true) → (∀ c ∈ post, py.space c = true) →
      ∀ b, ¬ BoolText py w b) : PBool.setValue py o (.str s) = (o, some .valueError) := by
  obtain ⟨pre, post, e, h1, h2, _⟩ := strip_spec py s
  have hn : ∀ b, PBool.convert py (py.strip s) ≠ .ok b := fun b hb => h pre _ post e h1 h2 b ((boolConvert_iff py _ b).mp hb)
  have : PBool.convert py (py.strip s) = .error .valueError := by
    cases hc : PBool.convert py (py.strip s) with
    | ok b => exact absurd hc (hn b)
    | error err =>
      unfold PBool.convert at hc
      dsimp only at hc
      repeat' split at hc
      all_goals first | (cases hc; done) | (cases hc; rfl)
  simp [PBool.setValue, PBool.assign, this]

/-- a text is not read both as true and as false -/
theorem C22_unambiguous (py : Py) (s : List Char) (a b : Bool) (ha : BoolText py s a) (hb : BoolText py s b) : a = b := by
  have h1 := (boolConvert_iff py s a).mpr ha
  have h2 := (boolConvert_iff py s b).mpr hb
  rw [h1] at h2; cases h2; rfl

example (py : Py) (o : PBool.BObj) : (PBool.setValue py o (.str " TrUe\n".toList)).1.value = some true :=
  (C22_accepted py o [' '] "TrUe".toList ['\n'] true (.tru (by unfold CaseVariant; decide +kernel))
    ⟨by intro c r h; cases h; rw [py.space_ascii _ (by decide)]; decide,
     by
      intro r c h
      have h' := congrArg List.getLast? h
      rw [List.getLast?_append] at h'
      have : c = 'e' := by simpa using h'.symm
      rw [this, py.space_ascii _ (by decide)]; decide⟩
    (by simp [py.space_ascii]; decide) (by simp [py.space_ascii]; decide)).2.1

/-! ## C23 -/

theorem toDigits_chars (n : Nat) : ∀ c ∈ Nat.toDigits 10 n, asciiDigit c = true := by
  intro c hc
  have h := Nat.isDigit_of_mem_toDigits (by decide) (by decide) hc
  simp only [Char.isDigit, Bool.and_eq_true, decide_eq_true_eq] at h
  simp only [asciiDigit, Bool.and_eq_true, decide_eq_true_eq]
  have h1 : (48 : UInt32).toNat ≤ c.val.toNat := UInt32.le_iff_toNat_le.mp h.1
  have h2 : c.val.toNat ≤ (57 : UInt32).toNat := UInt32.le_iff_toNat_le.mp h.2
  exact ⟨h1, h2⟩

theorem number_toDigits (n : Nat) : number 10 ((Nat.toDigits 10 n).map fun c => c.toNat - 48) = n := by
  induction n using Nat.strongRecOn with
  | ind n ih =>
    by_cases h : n < 10
    · rw [Nat.toDigits_of_lt_base h]
      clear ih
      revert h; revert n; decide
    · have h' : 10 ≤ n := by omega
      rw [Nat.toDigits_of_base_le (by decide) h', List.map_append, number_append, ih (n / 10) (by omega)]
      have : number 10 ([Nat.digitChar (n % 10)].map fun c => c.toNat - 48) = n % 10 := by
        have key : ∀ m < 10, number 10 ([Nat.digitChar m].map fun c => c.toNat - 48) = m := by decide
        exact key _ (Nat.mod_lt _ (by decide))
      rw [this]
      simp
      omega

theorem toDigits_ne_nil (n : Nat) : Nat.toDigits 10 n ≠ [] := by
  by_cases h : n < 10
  · rw [Nat.toDigits_of_lt_base h]; simp
  · rw [Nat.toDigits_of_base_le (by decide) (by omega)]; simp

/-- an optionally negative digit sequence is a decimal number -/
theorem signed_denotes (py : Py) (neg : Prop) [Decidable neg] (t : List Char) (n : Nat) (hch : ∀ c ∈ t, asciiDigit c = true)
    (hnil : t ≠ []) (hnum : number 10 (t.map fun c => c.toNat - 48) = n) :
    ∃ d ips, Dec.Wf py d ips [] [] ∧ (if neg then '-' :: t else t) = d.text
      ∧ d.value ips [] [] = if neg then -(n : Rat) else n := by
  have h0 : ((number 10 [] : Nat) : Rat) = 0 := by simp [number]
  have wf : ∀ sg, Dec.Wf py ⟨sg, t, false, [], none⟩ (t.map fun c => c.toNat - 48) [] [] := fun sg =>
    { ip := digits_ascii py _ hch
      fp := rfl
      noPoint := fun _ => rfl
      nonempty := .inl (by simpa using hnil)
      exp := rfl }
  by_cases h : neg
  · refine ⟨⟨.minus, t, false, [], none⟩, _, wf .minus, ?_, ?_⟩
    · rw [if_pos h]
      show '-' :: t = ['-'] ++ t ++ [] ++ []
      simp
    · rw [if_pos h]
      unfold Dec.value
      rw [hnum]
      simp [Sign.apply, h0]
  · refine ⟨⟨.none, t, false, [], none⟩, _, wf .none, ?_, ?_⟩
    · rw [if_neg h]
      show t = [] ++ t ++ [] ++ []
      simp
    · rw [if_neg h]
      unfold Dec.value
      rw [hnum]
      simp [Sign.apply, h0]

theorem int_rat (i : Int) : (i : Rat) = if i < 0 then -(i.natAbs : Rat) else i.natAbs := by
  by_cases h : i < 0
  · rw [if_pos h]
    have : i = -(i.natAbs : Int) := by omega
    conv => lhs; rw [this]
    rw [Int.cast_neg, Int.cast_natCast]
  · rw [if_neg h]
    have : i = (i.natAbs : Int) := by omega
    conv => lhs; rw [this]
    rw [Int.cast_natCast]

/-- `str(i)` is a decimal number denoting `i` -/
theorem strInt_denotes (py : Py) (i : Int) : ∃ d ips, Dec.Wf py d ips [] [] ∧ strInt i = d.text ∧ d.value ips [] [] = i := by
  rw [int_rat i]
  exact signed_denotes py (i < 0) _ _ (toDigits_chars _) (toDigits_ne_nil _) (number_toDigits _)

/-- the object was last given a text by one of these assignments -/
def lastText {F : Type} : List (PIn F) → Option (List Char)
  | [] => none
  | .str s :: r => (lastText r).or (some s)
  | _ :: r => lastText r

theorem text_step (py : Py) (c : PObj.Cls) (o : PObj py.F) (v : PIn py.F) :
    (PObj.setValue py c o v).1.text = (lastText [v]).or o.text := by
  cases v <;> cases c <;> simp only [PObj.setValue, PObj.assign, lastText]
  all_goals repeat' split
  all_goals simp

theorem text_fold (py : Py) (c : PObj.Cls) (vs : List (PIn py.F)) (o : PObj py.F) :
    (vs.foldl (fun o v => (PObj.setValue py c o v).1) o).text = (lastText vs).or o.text := by
  induction vs generalizing o with
  | nil => simp [lastText]
  | cons v vs ih =>
    rw [List.foldl_cons, ih, text_step]
    cases v <;> simp [lastText]

/-- **C23 (what is written)** A numerical, float or positive integer is written with the last text it was ever given, even
a rejected one and even if other values were assigned since; only an object never given a text is written with its
value. -/
theorem C23_written (py : Py) (repr : py.F → List Char) (c : PObj.Cls) (vs : List (PIn py.F)) :
    (PObj.assigns py c vs).text' repr =
      (match lastText vs with
       | some t => t
       | none => strVal repr (PObj.assigns py c vs).value) := by
  have := text_fold py c vs PObj.new
  simp only [PObj.new, Option.or_none] at this
  unfold PObj.text' PObj.assigns
  rw [PObj.new, this]
  cases lastText vs <;> rfl

/-- **C23 (partial)** After assigning an integer to a numerical that was never given a text, the text written is a
decimal number denoting the integer.  Missing: objects that were given a text before (`C23_stale_broken`), such as
everything that was loaded from a file. -/
theorem C23_int_partial (py : Py) (repr : py.F → List Char) (c : PObj.Cls) (hc : c ≠ .float) (o : PObj py.F) (ho : o.text = none)
    (i : Int) (hi : c = .positive → 0 ≤ i) :
    let r := PObj.setValue py c o (.int i)
    r.2 = none ∧ ∃ d ips, Dec.Wf py d ips [] [] ∧ r.1.writtenNumerical repr = some d.text ∧ d.value ips [] [] = i := by
  obtain ⟨d, ips, hw, ht, hv⟩ := strInt_denotes py i
  cases c with
  | float => exact absurd rfl hc
  | numerical => exact ⟨rfl, d, ips, hw, by simp [PObj.setValue, PObj.assign, PObj.writtenNumerical, ho, strVal, ht], hv⟩
  | positive =>
    have : ¬ i < 0 := by have := hi rfl; omega
    refine ⟨by simp [PObj.setValue, PObj.assign, this], d, ips, hw, ?_, hv⟩
    simp [PObj.setValue, PObj.assign, this, PObj.writtenNumerical, ho, strVal, ht]

/-- **C23 (partial)** Assigning a text changes value and text together (every class and every prior state). -/
theorem C23_text_partial (py : Py) (repr : py.F → List Char) (c : PObj.Cls) (o : PObj py.F) (s : List Char) (n : Num py.F)
    (h : convert py s = .ok n) :
    (PObj.setValue py c o (.str s)).1.value = .num n ∧ (PObj.setValue py c o (.str s)).1.text' repr = s :=
  ⟨(C19_verbatim py repr c o s n h).2.2, (C19_verbatim py repr c o s n h).2.1⟩

/-- **C23 fails**: assigning an integer to a numerical or float that was given a text never changes what is written. -/
theorem C23_stale_broken (py : Py) (repr : py.F → List Char) (c : PObj.Cls) (o : PObj py.F) (t : List Char) (ho : o.text = some t)
    (i : Int) : (PObj.setValue py c o (.int i)).1.writtenNumerical repr = some t
      ∧ (PObj.setValue py c o (.int i)).1.text' repr = t := by
  have := text_step py c o (.int i)
  simp only [lastText, Option.none_or, ho] at this
  simp [PObj.writtenNumerical, PObj.text', this]

/-- **C23 fails** concretely: a numerical read as `1` and assigned 2 is written as `1`. -/
example (py : Py) (repr : py.F → List Char) :
    (PObj.setValue py .numerical (PObj.setValue py .numerical PObj.new (.str "1".toList)).1 (.int 2)).1.writtenNumerical repr
      = some "1".toList := by
  refine (C23_stale_broken py repr .numerical _ _ ?_ 2).1
  rw [text_step]
  rfl

/-- **C23 fails** for truth values assigned to a numerical: the text written is `True` or `False`, which the reader
rejects. -/
theorem C23_bool_broken (py : Py) (repr : py.F → List Char) (o : PObj py.F) (ho : o.text = none) (b : Bool) :
    ∃ t, (PObj.setValue py .numerical o (.bool b)).1.writtenNumerical repr = some t ∧ convert py t = .error .valueError := by
  refine ⟨if b then "True".toList else "False".toList, ?_, C21_rejected_partial py _ ?_⟩
  · simp [PObj.setValue, PObj.assign, PObj.writtenNumerical, ho, strVal]
  · intro h
    have notin : ∀ x ∈ ['u', 's'], x ∉ (if b then "True".toList else "False".toList) → True := fun _ _ _ => trivial
    generalize hs : (if b then "True".toList else "False".toList) = s at h
    have hmem : ∃ x, x ∈ s ∧ x.toNat < 128 ∧ asciiDigit x = false ∧ asciiSpace x = false
        ∧ x ∉ ['+', '-', '_'] ∧ x ∉ ['+', '-', '.', 'e', 'E'] ∧ x ≠ '\n' := by
      cases b
      · exact ⟨'s', by rw [← hs]; decide, by decide⟩
      · exact ⟨'u', by rw [← hs]; decide, by decide⟩
    obtain ⟨x, hx, a1, a2, a3, a4, a5, a6⟩ := hmem
    have hne : s.head? ≠ some '0' := by cases b <;> rw [← hs] <;> decide
    have dec : ∀ {d : Dec} {ips fps xs : List Nat}, Dec.Wf py d ips fps xs → x ∉ d.text := by
      intro d ips fps xs hw hm
      rcases dec_chars py hw x hm with h | h
      · rw [digit_ascii_none a1 a2] at h; cases h
      · exact a5 h
    cases h with
    | doc h =>
      cases h with
      | tru => cases b <;> revert hs <;> decide
      | fls => cases b <;> revert hs <;> decide
      | hex => exact hne rfl
      | bin => exact hne rfl
      | dec hw => exact dec hw hx
    | hexJunk => exact hne rfl
    | binJunk => exact hne rfl
    | newline hw =>
      rcases List.mem_append.mp hx with h | h
      · exact dec hw h
      · exact a6 (by simpa using h)
    | loose h => exact loose_not py h x a1 a2 a3 a4 hx

/-- **C23 fails** for booleans: an object that was given a text and is assigned a truth value is written with the old
text. -/
theorem C23_boolean_stale_broken (py : Py) (o : PBool.BObj) (t : List Char) (ho : o.text = some t) (b : Bool) :
    (PBool.setValue py o (.bool b)).1.value = some b ∧ PBool.text' (PBool.setValue py o (.bool b)).1 = t := by
  simp [PBool.setValue, PBool.assign, PBool.text', ho]

/-- **C23 (partial)** A boolean never given a text or number is written `true` or `false` after assigning a truth value;
one assigned an integer is written with the integer, which denotes its truth value. -/
theorem C23_boolean_partial (py : Py) (o : PBool.BObj) :
    (∀ b, o.text = none → BoolText py (PBool.text' (PBool.setValue py o (.bool b)).1) b)
    ∧ (∀ i, (PBool.setValue py o (.int i)).1.value = some (i != 0)
        ∧ BoolText py (PBool.text' (PBool.setValue py o (.int i)).1) (i != 0)) := by
  constructor
  · intro b ho
    cases b
    · have : PBool.text' (PBool.setValue py o (.bool false)).1 = "false".toList := by
        simp [PBool.setValue, PBool.assign, PBool.text', ho]
      rw [this]; exact .fls (by unfold CaseVariant; decide +kernel)
    · have : PBool.text' (PBool.setValue py o (.bool true)).1 = "true".toList := by
        simp [PBool.setValue, PBool.assign, PBool.text', ho]
      rw [this]; exact .tru (by unfold CaseVariant; decide +kernel)
  · intro i
    refine ⟨rfl, ?_⟩
    have e : PBool.text' (PBool.setValue py o (.int i)).1 = strInt i := rfl
    rw [e]
    have under : ∀ s : List Char, s ≠ [] → (∀ c ∈ s, asciiDigit c = true) → Underscored py s (s.map fun c => c.toNat - 48) := by
      intro s
      induction s with
      | nil => intro h; exact absurd rfl h
      | cons c s ih =>
        intro _ hd
        have hc := hd c (by simp)
        have hlt : c.toNat < 128 := by simp only [asciiDigit, Bool.and_eq_true, decide_eq_true_eq] at hc; omega
        have hdc : py.digit c = some (c.toNat - 48) := by rw [py.digit_ascii c hlt, if_pos hc]
        cases s with
        | nil => exact .one hdc
        | cons x s => exact .cons hdc (ih (by simp) fun y hy => hd y (by simp [hy]))
    have hU := under _ (toDigits_ne_nil i.natAbs) (toDigits_chars _)
    have hl : LooseInt py (strInt i) (if i < 0 then .minus else .none) ((Nat.toDigits 10 i.natAbs).map fun c => c.toNat - 48) := by
      refine ⟨[], Nat.toDigits 10 i.natAbs, [], ?_, by simp, by simp, hU⟩
      by_cases h : i < 0 <;> simp [strInt, h, Sign.text]
    have := BoolText.int hl
    rw [number_toDigits] at this
    have hb : (i.natAbs != 0) = (i != 0) := by
      rw [Bool.eq_iff_iff]; simp
    rw [hb] at this
    exact this

/-! ## C24 -/

/-- the value is a number below zero -/
def Negative (py : Py) : PVal py.F → Bool
  | .num (.int i) => decide (i < 0)
  | .num (.flt f) => py.ltZero f
  | _ => false

/-- **C24 (partial)** Assigning a negative integer raises and keeps the previous value; assigning another one stores it.
Missing: texts (`C24_text_broken`). -/
theorem C24_int_partial (py : Py) (o : PObj py.F) (i : Int) :
    (i < 0 → PObj.setValue py .positive o (.int i) = (o, some .valueError))
    ∧ (0 ≤ i → PObj.setValue py .positive o (.int i) = (⟨.num (.int i), o.text⟩, none)) := by
  constructor
  · intro h; simp [PObj.setValue, PObj.assign, h]
  · intro h
    have : ¬ i < 0 := by omega
    simp [PObj.setValue, PObj.assign, this]

theorem strip_head_minus (py : Py) (s : List Char) (c : Char) (r : List Char) (hs : s = c :: r) (hc : py.space c = false) :
    (py.strip s).head? = some c := by
  obtain ⟨pre, post, e, h1, h2, _⟩ := strip_spec py s
  cases pre with
  | cons x p =>
    rw [hs] at e
    have : c = x := by simpa using congrArg List.head? e
    have := h1 x (by simp)
    simp_all
  | nil =>
    cases hst : py.strip s with
    | nil =>
      rw [hst, hs] at e
      simp only [List.nil_append] at e
      have := h2 c (by rw [← e]; simp)
      simp [hc] at this
    | cons x t =>
      rw [hst, hs] at e
      have : c = x := by simpa using congrArg List.head? e
      simp [this]

theorem convert_nonneg (py : Py) (s : List Char) (n : Num py.F) (h : convert py s = .ok n)
    (hs : (py.strip s).head? ≠ some '-') : Negative py (.num n) = false := by
  have minus : py.space '-' = false := by rw [py.space_ascii _ (by decide)]; decide
  unfold convert at h
  split at h
  · cases h; rfl
  · split at h
    · cases h; rfl
    · cases hh : reHex s with
      | some g =>
        simp only [hh] at h
        split at h
        · cases h; simp [Negative]
        · cases h
      | none =>
        simp only [hh] at h
        cases hb : reBin py s with
        | some g =>
          simp only [hb] at h
          split at h
          · cases h; simp [Negative]
          · cases h
        | none =>
          simp only [hb] at h
          split at h
          · rename_i ht
            obtain ⟨d, ips, fps, xs, hw, hsd⟩ := (rel_dec py s).mp ht
            obtain ⟨post, hp, rfl⟩ : ∃ post, (post = [] ∨ post = ['\n']) ∧ s = d.text ++ post := by
              rcases hsd with rfl | rfl
              · exact ⟨[], .inl rfl, by simp⟩
              · exact ⟨['\n'], .inr rfl, rfl⟩
            rw [pyFloat_dec py d ips fps xs hw post hp] at h
            simp only [Except.ok.injEq] at h
            subst h
            simp only [Negative]
            have hsign : d.sign ≠ .minus := by
              intro hm
              refine hs (strip_head_minus py _ '-' (d.ip ++ (if d.point then '.' :: d.fp else []) ++ expText d.exp ++ post) ?_ minus)
              simp [Dec.text, hm, Sign.text]
            by_contra hneg
            have := py.ofRat_neg _ (by simpa using hneg)
            have hpos : 0 ≤ d.value ips fps xs := by
              unfold Dec.value
              have h10 : (0 : Rat) ≤ 10 := by decide
              have h0 : (0 : Rat) ≤ Sign.apply d.sign (number 10 ips + number 10 fps / 10 ^ fps.length) := by
                simp only [Sign.apply, if_neg hsign]
                have e1 : (0 : Rat) ≤ number 10 ips := by exact_mod_cast Nat.zero_le _
                have e2 : (0 : Rat) ≤ number 10 fps := by exact_mod_cast Nat.zero_le _
                have e3 : (0 : Rat) ≤ 10 ^ fps.length := pow_nonneg h10 _
                exact add_nonneg e1 (div_nonneg e2 e3)
              refine mul_nonneg h0 ?_
              split
              · exact div_nonneg (by decide) (pow_nonneg h10 _)
              · exact pow_nonneg h10 _
              · decide
            exact absurd this (not_lt.mpr hpos)
          · cases hi : pyInt py s with
            | none => simp [hi] at h
            | some i =>
              simp only [hi, Except.ok.injEq] at h
              subst h
              obtain ⟨sg, ds, ⟨pre, body, post, e, h1, h2, hU⟩, rfl⟩ := (pyInt_iff py s i).mp hi
              have hsg : sg ≠ .minus := by
                rintro rfl
                obtain ⟨r, c, hb, hc⟩ := underscored_last hU
                have ht : Tight py (Sign.minus.text ++ body) :=
                  tight_of ⟨'-', body, rfl, minus⟩ ⟨Sign.minus.text ++ r, c, by simp [hb], digit_not_space hc⟩
                have := strip_tight py h1 h2 ht
                refine hs ?_
                rw [e, show pre ++ Sign.minus.text ++ body ++ post = pre ++ (Sign.minus.text ++ body) ++ post by simp, this]
                rfl
              simp [Negative, hsg]

/-- **C24 (partial)** No sequence of assignments makes a positive integer negative, as long as no text assigned starts
with a minus sign (after blanks).  Missing: such texts (`C24_text_broken`). -/
theorem C24_history_partial (py : Py) (vs : List (PIn py.F)) (h : ∀ s, .str s ∈ vs → (py.strip s).head? ≠ some '-') :
    Negative py (PObj.assigns py .positive vs).value = false := by
  unfold PObj.assigns
  suffices ∀ o : PObj py.F, Negative py o.value = false →
      Negative py (vs.foldl (fun o v => (PObj.setValue py .positive o v).1) o).value = false from this _ rfl
  induction vs with
  | nil => exact fun o h => h
  | cons v vs ih =>
    intro o ho
    rw [List.foldl_cons]
    refine ih (fun s hs => h s (by simp [hs])) _ ?_
    cases v with
    | none => exact ho
    | other => exact ho
    | flt f => exact ho
    | bool b => rfl
    | int i =>
      by_cases hi : i < 0
      · rw [(C24_int_partial py o i).1 hi]; exact ho
      · rw [(C24_int_partial py o i).2 (by omega)]; simpa [Negative] using hi
    | str s =>
      cases hc : convert py s with
      | error e => simpa [PObj.setValue, PObj.assign, hc] using ho
      | ok n =>
        have := convert_nonneg py s n hc (h s (by simp))
        simpa [PObj.setValue, PObj.assign, hc] using this

/-- **C24 fails** for texts: assigning `-5` to a positive integer is accepted and stores a negative number. -/
theorem C24_text_broken (py : Py) (o : PObj py.F) :
    (PObj.setValue py .positive o (.str "-5".toList)).2 = none
    ∧ Negative py (PObj.setValue py .positive o (.str "-5".toList)).1.value = true := by
  have hw : Dec.Wf py ⟨.minus, ['5'], false, [], none⟩ [5] [] [] :=
    ⟨digits_ascii py _ (by decide +kernel), rfl, fun _ => rfl, by simp, rfl⟩
  have h := C20_decimal py _ _ _ _ hw
  have ht : Dec.text ⟨.minus, ['5'], false, [], none⟩ = "-5".toList := by decide
  have hv : Dec.value ⟨.minus, ['5'], false, [], none⟩ [5] [] [] = -5 := by
    simp [Dec.value, Sign.apply, number]
  rw [ht, hv] at h
  have he := py.exact (-5) ⟨-5, 0, by decide, .inl (by simp)⟩ (by
    have : ((-5 : Rat)).num.natAbs = 5 := by decide
    rw [this]
    exact Nat.lt_of_lt_of_le (by decide : 5 < 2 ^ 3) (Nat.pow_le_pow_right (by decide) (by decide)))
  have hz := py.ltZero_toRat _ _ he
  simp only [PObj.setValue, PObj.assign, h, Negative, hz]
  decide

example (py : Py) : Negative py (PObj.assigns py .positive [.int 3, .int (-4), .str "0x10".toList, .flt (py.ofRat 2)]).value = false := by
  refine C24_history_partial py _ fun s hs => ?_
  have : s = "0x10".toList := by simpa using hs
  rw [this]
  have e := strip_head_minus py "0x10".toList '0' "x10".toList (by decide) (by rw [py.space_ascii _ (by decide)]; decide)
  rw [e]
  decide

/-! ## C25 -/

theorem slash_not_word (py : Py) : py.word '/' = false := by rw [py.word_ascii _ (by decide)]; decide

theorem pathText_append (a b : List (List Char)) : pathText (a ++ b) = pathText a ++ pathText b := by
  induction a with
  | nil => rfl
  | cons x a ih => simp [pathText, ih]

/-- **C25** The short value of an absolute path of two or more word segments is its last segment. -/
theorem C25_short (py : Py) (segs : List (List Char)) (last : List Char) (h : ∀ s ∈ segs, WordSeg py s) (hl : WordSeg py last)
    (hne : segs ≠ []) : getShortValue py (some (pathText (segs ++ [last]))) = .ok last := by
  obtain ⟨s0, rest, rfl⟩ := List.exists_cons_of_ne_nil hne
  obtain ⟨c0, t0, hs0⟩ := List.exists_cons_of_ne_nil (h s0 (by simp)).1
  have hc0 : py.word c0 = true := (h s0 (by simp)).2 c0 (by simp [hs0])
  have hshape : pathText ((s0 :: rest) ++ [last]) = '/' :: c0 :: ((t0 ++ pathText rest) ++ '/' :: last) := by
    rw [pathText_append]; simp [pathText, hs0]
  have hmid : ∀ c ∈ t0 ++ pathText rest, (py.word c || c == '/') = true := by
    intro c hc
    rcases List.mem_append.mp hc with hc | hc
    · simp [(h s0 (by simp)).2 c (by simp [hs0, hc])]
    · have : ∀ l : List (List Char), (∀ s ∈ l, WordSeg py s) → ∀ c ∈ pathText l, (py.word c || c == '/') = true := by
        intro l
        induction l with
        | nil => simp [pathText]
        | cons x l ih =>
          intro hh c hc
          simp only [pathText, List.cons_append, List.mem_cons, List.mem_append] at hc
          rcases hc with rfl | hc | hc
          · simp
          · simp [(hh x (by simp)).2 c hc]
          · exact ih (fun s hs => hh s (by simp [hs])) c hc
      exact this rest (fun s hs => h s (by simp [hs])) c hc
  have hlast : last.takeWhile py.word = last := by
    have := takeWhile_prefix (b := []) hl.2
    simpa using this
  have key : reShort py ('/' :: c0 :: ((t0 ++ pathText rest) ++ '/' :: last)) = some last := by
    unfold reShort
    simp only [Re.seq, Re.lit, Re.plus, Re.chr, beq_self_eq_true, if_true, hc0, Bool.true_or, Re.star]
    rw [starK_last _ _ _ _ hmid]
    · simp only [beq_self_eq_true, if_true]
      have := cap_plus py.word last
      rw [hlast, if_neg hl.1] at this
      exact this
    · simp only [beq_self_eq_true, if_true]
      have := cap_plus py.word last
      rw [hlast, if_neg hl.1] at this
      change (Re.cap (Re.plus py.word) last fun g _ => some g).isSome = true
      rw [this]; rfl
    · intro x y hx hxy
      cases x with
      | nil => exact absurd rfl hx
      | cons x0 x =>
        simp only [List.cons_append, List.cons.injEq] at hxy
        cases y with
        | nil => rfl
        | cons y0 y =>
          have : py.word y0 = true := hl.2 y0 (by rw [hxy.2]; simp)
          have : (y0 == '/') = false := by
            rw [beq_eq_false_iff_ne]
            rintro rfl
            rw [slash_not_word] at this
            cases this
          simp [this]
  rw [hshape, getShortValue, key]

theorem rel_cap (p : Char → Bool) (s : List Char) :
    (Re.cap (Re.plus p) s (fun g _ => some g)).isSome = true ↔ ∃ c r, s = c :: r ∧ p c = true := by
  rw [cap_plus]
  cases s with
  | nil => simp
  | cons c r =>
    by_cases h : p c = true
    · simp [h]
    · simp [h]

/-- **C25** The short value is the whole text if the text does not start with `/…/x`, where `…` are word characters and
slashes (at least one) and `x` is a word character. -/
theorem C25_whole (py : Py) (s : List Char)
    (h : ∀ mid x rest, s = '/' :: mid ++ '/' :: x :: rest → mid ≠ [] → (∀ c ∈ mid, py.word c = true ∨ c = '/') → py.word x = false) :
    getShortValue py (some s) = .ok s := by
  have : reShort py s = none := by
    rw [← Option.not_isSome_iff_eq_none]
    unfold reShort
    rw [rel_seq (rel_lit '/') (rel_seq (rel_plus _) (rel_lit '/'))]
    rintro ⟨s', ⟨t, rfl, u, ⟨a, rfl, hne, ha⟩, rfl⟩, hk⟩
    obtain ⟨c, r, rfl, hc⟩ := (rel_cap py.word s').mp hk
    have := h a c r (by simp) hne (fun x hx => by simpa using ha x hx)
    simp [this] at hc
  simp [getShortValue, this]

/-- **C25 fails** for segments with other characters: the short value of `/A/B-C` is `B`, which is neither the last
segment nor the whole text. -/
theorem C25_short_broken (py : Py) : getShortValue py (some "/A/B-C".toList) = .ok "B".toList := by
  have w : ∀ c : Char, c.toNat < 128 → asciiWord c = true → py.word c = true := fun c h1 h2 => by rw [py.word_ascii c h1, h2]
  have nd : py.word '-' = false := by rw [py.word_ascii _ (by decide)]; decide
  have key : reShort py ('/' :: 'A' :: ([] ++ '/' :: "B-C".toList)) = some ['B'] := by
    have hcap : Re.cap (Re.plus py.word) "B-C".toList (fun g _ => some g) = some ['B'] := by
      rw [cap_plus]
      have : "B-C".toList.takeWhile py.word = ['B'] := by
        have e : "B-C".toList = 'B' :: '-' :: ['C'] := by decide
        rw [e, List.takeWhile_cons_of_pos (w 'B' (by decide) (by decide)), List.takeWhile_cons_of_neg (by simp [nd])]
      rw [this]; rfl
    unfold reShort
    simp only [Re.seq, Re.lit, Re.plus, Re.chr, beq_self_eq_true, if_true, w 'A' (by decide) (by decide), Bool.true_or, Re.star]
    rw [starK_last _ _ _ _ (by simp)]
    · simp only [beq_self_eq_true, if_true]
      exact hcap
    · simp only [beq_self_eq_true, if_true]
      change (Re.cap (Re.plus py.word) "B-C".toList fun g _ => some g).isSome = true
      rw [hcap]; rfl
    · intro x y hx hxy
      cases x with
      | nil => exact absurd rfl hx
      | cons x0 x =>
        simp only [List.cons_append, List.cons.injEq] at hxy
        cases y with
        | nil => rfl
        | cons y0 y =>
          have hm : y0 ∈ "B-C".toList := by rw [hxy.2]; simp
          have : ∀ z ∈ "B-C".toList, (z == '/') = false := by decide
          simp [this y0 hm]
  have e : "/A/B-C".toList = '/' :: 'A' :: ([] ++ '/' :: "B-C".toList) := by decide
  rw [e, getShortValue, key]
  rfl

example (py : Py) : getShortValue py (some "/Pkg/Sub/El_1".toList) = .ok "El_1".toList := by
  have w : ∀ l : List Char, l ≠ [] → (∀ c ∈ l, c.toNat < 128 ∧ asciiWord c = true) → WordSeg py l :=
    fun l hn h => ⟨hn, fun c hc => by rw [py.word_ascii c (h c hc).1, (h c hc).2]⟩
  exact C25_short py ["Pkg".toList, "Sub".toList] "El_1".toList
    (by
      intro s hs
      simp only [List.mem_cons, List.not_mem_nil, or_false] at hs
      rcases hs with rfl | rfl <;> exact w _ (by decide) (by decide))
    (w _ (by decide) (by decide)) (by simp)

/-! ## C26 -/

/-- **C26** The revision check accepts exactly the texts that start with digits `.` digits `.` digit. -/
theorem C26_revision (s : List Char) : Re.test reRevision s = true ↔ MajorMinorPatch s := by
  rw [reRevision, test_iff (rel_seq (rel_plus _) (rel_seq (rel_lit '.') (rel_seq (rel_plus _) (rel_seq (rel_lit '.')
    (rel_seq (rel_plus _) (rel_opt (rel_seq (rel_chr _) (rel_star _))))))))]
  constructor
  · rintro ⟨s', t, ⟨a, rfl, ha1, ha2⟩, u, rfl, v, ⟨b, rfl, hb1, hb2⟩, w, rfl, x, ⟨c, rfl, hc1, hc2⟩, _⟩
    obtain ⟨c0, c, rfl⟩ := List.exists_cons_of_ne_nil hc1
    exact ⟨a, b, c0, c ++ x, by simp, ha1, hb1, ha2, hb2, hc2 c0 (by simp)⟩
  · rintro ⟨a, b, c, rest, rfl, ha1, hb1, ha2, hb2, hc⟩
    exact ⟨rest, _, ⟨a, by simp, ha1, ha2⟩, _, rfl, _, ⟨b, rfl, hb1, hb2⟩, _, rfl, rest,
      ⟨[c], rfl, by simp, by simpa using hc⟩, .inr rfl⟩

example : Re.test reRevision "4.3.10_beta".toList = true :=
  (C26_revision _).mpr ⟨['4'], ['3'], '1', "0_beta".toList, by decide, by simp, by simp, by decide, by decide, by decide⟩
example : ¬ MajorMinorPatch "4.x.1".toList := by
  rw [← C26_revision]; decide +kernel

end Verif.Props
