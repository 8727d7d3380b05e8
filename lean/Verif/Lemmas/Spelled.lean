import Verif.Spec.Spelled
import Verif.Lemmas.Prim
import Verif.Lemmas.MarkupFile
import Verif.Lemmas.MarkupMain
/-!
# References to characters
-/
namespace Verif.Lemmas
open Verif Verif.Model Verif.Spec

theorem hexDigit_table (c : Char) : hexDigit c = hexTable.lookup c := by
  by_cases h : c.toNat < 128
  · have : ∀ n < 128, hexDigit (Char.ofNat n) = hexTable.lookup (Char.ofNat n) := by decide +kernel
    have := this c.toNat h
    rwa [Char.ofNat_toNat] at this
  · have h1 : hexDigit c = none := by
      unfold hexDigit
      rw [if_neg (by simp [asciiDigit]; omega), if_neg (by omega), if_neg (by omega)]
    rw [h1]
    symm
    rw [List.lookup_eq_none_iff]
    intro p hp
    rw [bne_iff_ne]
    intro e
    subst e
    have : ∀ q ∈ hexTable, q.1.toNat < 128 := by decide +kernel
    exact h (this p hp)

theorem digit_table (c : Char) (d : Nat) : (asciiDigit c = true ∧ c.toNat - 48 = d) ↔ (hexTable.lookup c = some d ∧ d < 10) := by
  rw [← hexDigit_table]
  constructor
  · rintro ⟨h1, h2⟩
    refine ⟨by rw [hexDigit, if_pos h1, h2], ?_⟩
    simp [asciiDigit] at h1
    omega
  · rintro ⟨h1, h2⟩
    unfold hexDigit at h1
    split at h1
    · rename_i h; exact ⟨h, by simpa using h1⟩
    · split at h1
      · rename_i h; simp at h1; omega
      · split at h1
        · rename_i h; simp at h1; omega
        · cases h1

theorem number_fold (b : Nat) (ds : List Nat) : number b ds = ds.foldl (fun a d => a * b + d) 0 := by
  induction ds using List.reverseRecOn with
  | nil => rfl
  | append_singleton ds d ih => rw [number_append, List.foldl_append, ← ih]; simp [number]

theorem foldl_none {α β : Type} (f : β → α → Option β) (s : List α) : s.foldl (fun a c => a.bind fun n => f n c) none = none := by
  induction s with
  | nil => rfl
  | cons c s ih => exact ih

theorem hexDigits_cons {c : Char} {s : Str} {ds : List Nat} : HexDigits (c :: s) ds ↔ ∃ d es, ds = d :: es ∧ hexTable.lookup c = some d ∧ HexDigits s es := by
  constructor
  · intro h
    cases ds with
    | nil => cases h
    | cons d es => simp only [HexDigits, List.map_cons, List.cons.injEq] at h; exact ⟨d, es, rfl, h.1, h.2⟩
  · rintro ⟨d, es, rfl, h1, h2⟩
    simp only [HexDigits, List.map_cons, List.cons.injEq]; exact ⟨h1, h2⟩

theorem hexDigits_nil {ds : List Nat} : HexDigits [] ds ↔ ds = [] := by
  cases ds <;> simp [HexDigits]

theorem hexadecimal_iff {s : Str} {n : Nat} : hexadecimal s = some n ↔ s ≠ [] ∧ ∃ ds, HexDigits s ds ∧ number 16 ds = n := by
  have go : ∀ (s : Str) (a : Nat), s.foldl (fun a c => a.bind fun n => (hexDigit c).map (n * 16 + ·)) (some a) = some n ↔
      ∃ ds, HexDigits s ds ∧ ds.foldl (fun a d => a * 16 + d) a = n := by
    intro s
    induction s with
    | nil => intro a; simp [hexDigits_nil]
    | cons c s ih =>
      intro a
      rw [List.foldl_cons, Option.bind_some, hexDigit_table]
      cases hd : hexTable.lookup c with
      | none =>
        rw [Option.map_none, foldl_none]
        constructor
        · intro h; cases h
        · rintro ⟨ds, h, _⟩
          obtain ⟨d, es, _, h1, _⟩ := hexDigits_cons.1 h
          rw [hd] at h1; cases h1
      | some d =>
        rw [Option.map_some, ih]
        constructor
        · rintro ⟨ds, h1, h2⟩
          exact ⟨d :: ds, hexDigits_cons.2 ⟨d, ds, rfl, hd, h1⟩, h2⟩
        · rintro ⟨ds, h, h2⟩
          obtain ⟨d', es, rfl, h1, h3⟩ := hexDigits_cons.1 h
          rw [hd] at h1
          cases h1
          exact ⟨es, h3, h2⟩
  cases s with
  | nil => simp [hexadecimal]
  | cons c s =>
    rw [hexadecimal, go _ _]
    simp only [number_fold, ne_eq, reduceCtorEq, not_false_eq_true, true_and]
    simp

theorem decimal_iff {s : Str} {n : Nat} : decimal s = some n ↔ s ≠ [] ∧ ∃ ds, HexDigits s ds ∧ (∀ d ∈ ds, d < 10) ∧ number 10 ds = n := by
  have go : ∀ (s : Str) (a : Nat), s.foldl (fun a c => a.bind fun n => if asciiDigit c then some (n * 10 + (c.toNat - 48)) else none) (some a) = some n ↔
      ∃ ds, HexDigits s ds ∧ (∀ d ∈ ds, d < 10) ∧ ds.foldl (fun a d => a * 10 + d) a = n := by
    intro s
    induction s with
    | nil => intro a; simp [hexDigits_nil]
    | cons c s ih =>
      intro a
      rw [List.foldl_cons, Option.bind_some]
      split
      · rename_i hc
        obtain ⟨hd, hlt⟩ := (digit_table c _).1 ⟨hc, rfl⟩
        rw [ih]
        constructor
        · rintro ⟨ds, h1, h2, h3⟩
          refine ⟨(c.toNat - 48) :: ds, hexDigits_cons.2 ⟨_, ds, rfl, hd, h1⟩, ?_, h3⟩
          intro d hd
          rcases List.mem_cons.1 hd with rfl | hd
          · exact hlt
          · exact h2 d hd
        · rintro ⟨ds, h, h2, h3⟩
          obtain ⟨d', es, rfl, h1, h4⟩ := hexDigits_cons.1 h
          rw [hd] at h1
          cases h1
          exact ⟨es, h4, fun d hd => h2 d (by simp [hd]), h3⟩
      · rename_i hc
        rw [foldl_none]
        constructor
        · intro h; cases h
        · rintro ⟨ds, h, h2, _⟩
          obtain ⟨d, es, rfl, h1, _⟩ := hexDigits_cons.1 h
          exact absurd ((digit_table c d).2 ⟨h1, h2 d (by simp)⟩).1 hc
  cases s with
  | nil => simp [decimal]
  | cons c s =>
    rw [decimal, go _ _]
    simp only [number_fold, ne_eq, reduceCtorEq, not_false_eq_true, true_and]
    simp

theorem xmlChar_eq (c : Char) : XmlChar c ↔ xmlChar c = true := by
  constructor
  · exact xmlChar_iff c
  · intro h
    have key : ∀ a : Char, c.toNat = a.toNat → c = a := fun a e => by rw [← Char.ofNat_toNat c, e, Char.ofNat_toNat]
    simp only [xmlChar, Bool.or_eq_true, Bool.and_eq_true, decide_eq_true_eq, beq_iff_eq, bne_iff_ne] at h
    rcases h with ((h | h) | h) | h
    · exact .inl (key '\t' h)
    · exact .inr (.inl (key '\n' h))
    · exact .inr (.inr (.inl (key '\r' h)))
    · exact .inr (.inr (.inr ⟨h.1.1, h.1.2, h.2⟩))

theorem charOf_iff {n : Nat} {c : Char} : charOf n = some c ↔ n = c.toNat ∧ XmlChar c := by
  unfold charOf
  rw [xmlChar_eq]
  constructor
  · intro h
    split at h
    · rename_i hn
      cases h
      refine ⟨?_, hn.2⟩
      have := hn.1
      simp [Char.ofNat, Char.ofNatAux, Char.toNat, this]
    · cases h
  · rintro ⟨rfl, h⟩
    rw [if_pos ⟨c.valid, by rwa [Char.ofNat_toNat]⟩, Char.ofNat_toNat]

/-- what may be written between `&` and `;` -/
def Refers (e : Str) (c : Char) : Prop := (e, c) ∈ namedRefs ∨
  (∃ t ds, e = '#' :: t ∧ t ≠ [] ∧ HexDigits t ds ∧ (∀ d ∈ ds, d < 10) ∧ number 10 ds = c.toNat ∧ XmlChar c) ∨
  ∃ t ds, e = '#' :: 'x' :: t ∧ t ≠ [] ∧ HexDigits t ds ∧ number 16 ds = c.toNat ∧ XmlChar c

theorem entity_iff {e : Str} {c : Char} : entity e = some c ↔ Refers e c := by
  unfold entity Refers
  by_cases hm : e ∈ namedRefs.map Prod.fst
  · have ho : ∀ (e : Str) (t : Str), e ∈ namedRefs.map Prod.fst → e ≠ '#' :: t := by
      intro e t hm he
      subst he
      have : ∀ n ∈ namedRefs.map Prod.fst, n.head? ≠ some '#' := by decide +kernel
      exact this _ hm rfl
    have hin : ∀ p ∈ namedRefs, entity p.1 = some p.2 := by decide +kernel
    obtain ⟨⟨n, d⟩, hp, rfl⟩ := List.mem_map.1 hm
    have hd := hin _ hp
    unfold entity at hd
    rw [hd]
    constructor
    · intro h; cases h; exact .inl hp
    · rintro (h | ⟨t, ds, e, _⟩ | ⟨t, ds, e, _⟩)
      · rw [← hin _ h]; exact hd.symm
      · exact absurd e (ho _ _ hm)
      · exact absurd e (ho _ _ hm)
  have h1 : e ≠ "amp".toList := fun h => hm (h ▸ by decide +kernel)
  have h2 : e ≠ "lt".toList := fun h => hm (h ▸ by decide +kernel)
  have h3 : e ≠ "gt".toList := fun h => hm (h ▸ by decide +kernel)
  have h4 : e ≠ "quot".toList := fun h => hm (h ▸ by decide +kernel)
  have h5 : e ≠ "apos".toList := fun h => hm (h ▸ by decide +kernel)
  rw [if_neg h1, if_neg h2, if_neg h3, if_neg h4, if_neg h5]
  have hn : (e, c) ∉ namedRefs := fun h => hm (List.mem_map.2 ⟨_, h, rfl⟩)
  simp only [hn, false_or]
  have hx : hexTable.lookup 'x' = none := by decide +kernel
  split
  · rename_i s
    rw [Option.bind_eq_some_iff]
    constructor
    · rintro ⟨n, h, hc⟩
      obtain ⟨h1, ds, h2, h3⟩ := hexadecimal_iff.1 h
      obtain ⟨rfl, h4⟩ := charOf_iff.1 hc
      exact .inr ⟨s, ds, rfl, h1, h2, h3, h4⟩
    · rintro (⟨t, ds, e, _, h, _⟩ | ⟨t, ds, e, h1, h2, h3, h4⟩)
      · cases e
        obtain ⟨_, _, _, h, _⟩ := hexDigits_cons.1 h
        rw [hx] at h; cases h
      · cases e
        exact ⟨_, hexadecimal_iff.2 ⟨h1, ds, h2, rfl⟩, charOf_iff.2 ⟨h3, h4⟩⟩
  · rename_i s hs
    rw [Option.bind_eq_some_iff]
    constructor
    · rintro ⟨n, h, hc⟩
      obtain ⟨h1, ds, h2, h3, h4⟩ := decimal_iff.1 h
      obtain ⟨rfl, h5⟩ := charOf_iff.1 hc
      exact .inl ⟨s, ds, rfl, h1, h2, h3, h4, h5⟩
    · rintro (⟨t, ds, e, h1, h2, h3, h4, h5⟩ | ⟨t, ds, e, _⟩)
      · cases e
        exact ⟨_, decimal_iff.2 ⟨h1, ds, h2, h3, rfl⟩, charOf_iff.2 ⟨h4, h5⟩⟩
      · cases e
        exact absurd rfl (hs t)
  · rename_i ha hb
    constructor
    · intro h; cases h
    · rintro (⟨t, ds, e, _⟩ | ⟨t, ds, e, _⟩)
      · exact absurd e (hb t)
      · exact absurd e (ha t)

theorem digits_semi {t : Str} {ds : List Nat} (h : HexDigits t ds) : ';' ∉ t := by
  induction t generalizing ds with
  | nil => simp
  | cons c t ih =>
    obtain ⟨d, es, _, h1, h2⟩ := hexDigits_cons.1 h
    intro hm
    rcases List.mem_cons.1 hm with rfl | hm
    · have : hexTable.lookup ';' = none := by decide +kernel
      rw [this] at h1; cases h1
    · exact ih h2 hm

theorem decode_pending {lit : Char → Char} {s : Str} {e v : Str} : decodeGo lit (some e) s = some v ↔
    ∃ n r c w, s = n ++ ';' :: r ∧ ';' ∉ n ∧ Refers (e.reverse ++ n) c ∧ decodeGo lit none r = some w ∧ v = c :: w := by
  induction s generalizing e with
  | nil =>
    rw [decodeGo]
    constructor
    · intro h; cases h
    · rintro ⟨n, r, c, w, h, _⟩
      cases n <;> cases h
  | cons x s ih =>
    rw [decodeGo]
    split
    · rename_i hx
      subst hx
      simp only [Option.bind_eq_some_iff, Option.map_eq_some_iff, entity_iff]
      constructor
      · rintro ⟨c, h1, w, h2, rfl⟩
        exact ⟨[], s, c, w, rfl, by simp, by simpa using h1, h2, rfl⟩
      · rintro ⟨n, r, c, w, h, hn, h1, h2, rfl⟩
        cases n with
        | nil => cases h; exact ⟨c, by simpa using h1, w, h2, rfl⟩
        | cons y n => cases h; exact absurd (by simp) hn
    · rename_i hx
      rw [ih]
      constructor
      · rintro ⟨n, r, c, w, rfl, hn, h1, h2, rfl⟩
        refine ⟨x :: n, r, c, w, rfl, ?_, by simpa using h1, h2, rfl⟩
        intro hm
        rcases List.mem_cons.1 hm with h | h
        · exact hx h.symm
        · exact hn h
      · rintro ⟨n, r, c, w, h, hn, h1, h2, rfl⟩
        cases n with
        | nil => cases h; exact absurd rfl hx
        | cons y n => cases h; exact ⟨n, r, c, w, rfl, fun h => hn (by simp [h]), by simpa using h1, h2, rfl⟩

theorem spelled_ref {lit : Char → Char} {n s v : Str} {c : Char} (h : Refers n c) (hs : Spelled lit s v) : Spelled lit ('&' :: n ++ ';' :: s) (c :: v) := by
  rcases h with h | ⟨t, ds, rfl, h1, h2, h3, h4, h5⟩ | ⟨t, ds, rfl, h1, h2, h3, h4⟩
  · exact .named h hs
  · exact .decimal h1 h2 h3 h4 h5 hs
  · exact .hex h1 h2 h3 h4 hs

theorem named_semi {n : Str} {c : Char} (h : (n, c) ∈ namedRefs) : ';' ∉ n := by
  have : ∀ p ∈ namedRefs, ';' ∉ p.1 := by decide +kernel
  exact this _ h

theorem decode_spelled (lit : Char → Char) (raw v : Str) : decodeGo lit none raw = some v ↔ Spelled lit raw v := by
  constructor
  · induction hn : raw.length using Nat.strongRecOn generalizing raw v with
    | ind k ih =>
      intro h
      cases raw with
      | nil => rw [decodeGo] at h; cases h; exact .nil
      | cons c s =>
        rw [decodeGo] at h
        split at h
        · rename_i hc
          subst hc
          obtain ⟨n, r, c, w, rfl, _, h1, h2, rfl⟩ := decode_pending.1 h
          refine spelled_ref (by simpa using h1) (ih r.length ?_ r w rfl h2)
          rw [← hn]; simp; omega
        · rename_i hc
          obtain ⟨w, h1, rfl⟩ := Option.map_eq_some_iff.1 h
          exact .self hc (ih s.length (by rw [← hn]; simp) s w rfl h1)
  · intro h
    have amp : ∀ {n s v : Str} {c : Char}, Refers n c → ';' ∉ n → decodeGo lit none s = some v → decodeGo lit none ('&' :: n ++ ';' :: s) = some (c :: v) := by
      intro n s v c h1 h2 h3
      rw [List.cons_append, decodeGo, if_pos rfl]
      exact decode_pending.2 ⟨n, s, c, v, rfl, h2, by simpa using h1, h3, rfl⟩
    induction h with
    | nil => rfl
    | self hc _ ih => rw [decodeGo, if_neg hc, ih]; rfl
    | named h _ ih => exact amp (.inl h) (named_semi h) ih
    | decimal h1 h2 h3 h4 h5 _ ih => exact amp (.inr (.inl ⟨_, _, rfl, h1, h2, h3, h4, h5⟩)) (by simpa using digits_semi h2) ih
    | hex h1 h2 h3 h4 _ ih => exact amp (.inr (.inr ⟨_, _, rfl, h1, h2, h3, h4⟩)) (by simpa using digits_semi h2) ih

theorem hasCdataEnd_iff (s : Str) : hasCdataEnd s = true ↔ "]]>".toList <:+: s := by
  induction s with
  | nil => simp [hasCdataEnd]
  | cons c s ih =>
    rw [hasCdataEnd, Bool.or_eq_true, ih, List.infix_cons_iff, List.isPrefixOf_iff_prefix]

theorem toBlank_eq : toBlank = inValue := by
  funext c
  simp only [toBlank, inValue, xmlSpace, Bool.or_eq_true, beq_iff_eq]
  by_cases h : c = ' '
  · subst h; decide
  · simp [h, or_assoc]

/-- one element with an attribute and a text -/
theorem parse_one {nc : NameChars} {n a r1 r2 : Str} (hn : XmlName nc n) (ha : XmlName nc a) (h1 : '<' ∉ r1) (h2 : '"' ∉ r1) (h3 : '<' ∉ r2)
    (hc1 : ∀ c ∈ r1, xmlChar c = true ∧ c ≠ '\r') (hc2 : ∀ c ∈ r2, xmlChar c = true ∧ c ≠ '\r') :
    parseXml nc ('<' :: (n ++ (' ' :: (a ++ ('=' :: '"' :: (r1 ++ ('"' :: '>' :: (r2 ++ ('<' :: '/' :: n ++ ['>']))))))))) =
      (decodeAttr r1).bind fun v => (decodeText r2).map fun t => .mk n [(a, v)] t [] [] := by
  have hnm : ∀ {m : Str}, XmlName nc m → ∀ c ∈ m, xmlChar c = true ∧ c ≠ '\r' := by
    intro m hm c hc
    have := hm.chars c hc
    refine ⟨nc.char_xml c this, ?_⟩
    intro e
    subst e
    rw [char_special (by simp)] at this
    cases this
  generalize hs : '<' :: (n ++ (' ' :: (a ++ ('=' :: '"' :: (r1 ++ ('"' :: '>' :: (r2 ++ ('<' :: '/' :: n ++ ['>'])))))))) = s
  have hall : ∀ c ∈ s, xmlChar c = true ∧ c ≠ '\r' := by
    have hk : ∀ c ∈ ['<', ' ', '=', '"', '>', '/'], xmlChar c = true ∧ c ≠ '\r' := by decide
    intro c hc
    rw [← hs] at hc
    simp only [List.mem_cons, List.mem_append, List.not_mem_nil, or_false, List.cons_append] at hc
    rcases hc with h | h | h | h | h | h | h | h | h | h | h | h | h | h
    all_goals first
      | exact hnm hn c h
      | exact hnm ha c h
      | exact hc1 c h
      | exact hc2 c h
      | exact hk c (by simp [h])
  have hnl : newlines s = s := newlines_plain fun h => (hall _ h).2 rfl
  have hx : s.all xmlChar = true := List.all_eq_true.2 fun c hc => (hall c hc).1
  have hskip : skipDecl s = some s := by
    obtain ⟨c, r, rfl, hc, _⟩ := hn
    rw [← hs]
    have : c ≠ '?' := by
      intro e
      subst e
      rw [nc.start_ascii _ (by decide)] at hc
      revert hc; decide
    unfold skipDecl
    rw [if_neg]
    intro h
    rw [List.isPrefixOf_iff_prefix] at h
    obtain ⟨t, ht⟩ := h
    have := congrArg (fun l => l[1]?) ht
    simp at this
    exact absurd this.symm ‹c ≠ '?'›
  unfold parseXml
  simp only [hnl, hx, if_true, hskip, Option.bind_some]
  rw [← hs, run_cons]
  show (run nc ⟨[], none, .lt⟩ _).bind finish = _
  rw [run_name hn, run_cons]
  have hs1 : step nc ⟨[], none, .name n.reverse⟩ ' ' = some ⟨[], none, .tag n []⟩ := by
    simp only [step]
    rw [char_special (by simp), if_neg (by simp), if_pos (by decide)]
    simp
  rw [hs1]
  show (run nc ⟨[], none, .tag n []⟩ _).bind finish = _
  obtain ⟨c, r, rfl, hc, hr⟩ := ha
  have hs2 : step nc ⟨[], none, .tag n []⟩ c = some ⟨[], none, .attr n [] [c]⟩ := by
    have ne : ∀ x ∈ ['<', '>', '/', '=', '"', '\'', '&', ';', ' ', '\t', '\n', '\r'], c ≠ x := by
      intro x hx e; subst e; rw [start_special hx] at hc; cases hc
    simp only [step]
    rw [if_neg (by simp [xmlSpace, ne]), if_neg (ne _ (by simp)), if_neg (ne _ (by simp)), if_pos hc]
  rw [List.cons_append, run_cons, hs2]
  show (run nc ⟨[], none, .attr n [] [c]⟩ _).bind finish = _
  rw [run_attrName_go hr, run_cons]
  have hs3 : step nc ⟨[], none, .attr n [] (r.reverse ++ [c])⟩ '=' = some ⟨[], none, .quote n [] (c :: r)⟩ := by
    simp only [step]
    rw [char_special (by simp), if_neg (by simp), if_neg (by decide), if_pos trivial]
    simp
  rw [hs3]
  show (run nc ⟨[], none, .quote n [] (c :: r)⟩ _).bind finish = _
  have hs4 : step nc ⟨[], none, .quote n [] (c :: r)⟩ '"' = some ⟨[], none, .value n [] (c :: r) '"' []⟩ := by
    simp only [step]
    rw [if_neg (by decide), if_pos (.inl trivial)]
  rw [run_cons, hs4]
  show (run nc ⟨[], none, .value n [] (c :: r) '"' []⟩ _).bind finish = _
  rw [run_value_go h1 h2, run_cons]
  have hs5 : step nc ⟨[], none, .value n [] (c :: r) '"' (r1.reverse ++ [])⟩ '"' = (decodeAttr r1).map fun v => ⟨[], none, .closed n [(c :: r, v)]⟩ := by
    simp only [step]
    rw [if_neg (by decide), if_pos trivial, if_neg (by simp)]
    simp
  rw [hs5]
  cases decodeAttr r1 with
  | none => rfl
  | some v =>
    simp only [Option.map_some, Option.bind_some]
    rw [run_cons]
    show (run nc ⟨[⟨n, [(c :: r, v)], [], []⟩], none, .content []⟩ _).bind finish = _
    rw [run_content h3, List.cons_append, run_cons]
    have hs6 : step nc ⟨[⟨n, [(c :: r, v)], [], []⟩], none, .content (r2.reverse ++ [])⟩ '<' =
        (decodeText r2).map fun t => ⟨[⟨n, [(c :: r, v)], t, []⟩], none, .lt⟩ := by
      simp only [step, flush]
      simp [Frame.addText, Option.map_map]
      rfl
    rw [hs6]
    cases decodeText r2 with
    | none => rfl
    | some t =>
      simp only [Option.map_some, Option.bind_some]
      rw [run_close hn]
      exact finish_place (t := []) (by simp)

end Verif.Lemmas
