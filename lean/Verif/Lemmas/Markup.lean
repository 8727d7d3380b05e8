import Verif.Spec.Markup
import Verif.Lemmas.FileList
/-!
# Reading what was written

`flat` is the form both serializers have in common; reading it gives the tree back.
-/
namespace Verif.Lemmas
open Verif Verif.Model Verif.Spec

/-! ### Names -/

theorem char_special {nc : NameChars} {c : Char} (h : c ∈ ['<', '>', '/', '=', '"', '\'', '&', ';', ' ', '\t', '\n', '\r']) :
    nc.char c = false := by
  have h1 : ∀ c ∈ ['<', '>', '/', '=', '"', '\'', '&', ';', ' ', '\t', '\n', '\r'], c.toNat < 128 := by decide
  have h2 : ∀ c ∈ ['<', '>', '/', '=', '"', '\'', '&', ';', ' ', '\t', '\n', '\r'],
    (asciiWord c || c == '-' || c == '.' || c == ':') = false := by decide
  rw [nc.char_ascii c (h1 c h), h2 c h]

theorem start_special {nc : NameChars} {c : Char} (h : c ∈ ['<', '>', '/', '=', '"', '\'', '&', ';', ' ', '\t', '\n', '\r']) :
    nc.start c = false := by
  have := char_special (nc := nc) h
  cases hs : nc.start c with
  | false => rfl
  | true => rw [nc.start_char c hs] at this; cases this

theorem _root_.Verif.Spec.XmlName.chars {nc : NameChars} {n : Str} (h : XmlName nc n) : ∀ c ∈ n, nc.char c = true := by
  obtain ⟨c, r, rfl, hc, hr⟩ := h
  intro x hx
  rcases List.mem_cons.1 hx with rfl | hx
  · exact nc.start_char _ hc
  · exact hr x hx

theorem _root_.Verif.Spec.XmlName.not_mem {nc : NameChars} {n : Str} (h : XmlName nc n) {c : Char}
    (hc : c ∈ ['<', '>', '/', '=', '"', '\'', '&', ';', ' ', '\t', '\n', '\r']) : c ∉ n := by
  intro hm
  have := h.chars c hm
  rw [char_special hc] at this
  cases this

/-! ### The machine on pieces of text -/

theorem run_append (nc : NameChars) (st : PState) (a b : Str) : run nc st (a ++ b) = (run nc st a).bind fun st' => run nc st' b := by
  induction a generalizing st with
  | nil => rfl
  | cons c a ih =>
    show (step nc st c).bind _ = ((step nc st c).bind _).bind _
    cases step nc st c with
    | none => rfl
    | some st' => exact ih st'

theorem run_content {nc : NameChars} {u : Str} (hu : '<' ∉ u) (stk : List Frame) (root : Option El) (raw rest : Str) :
    run nc ⟨stk, root, .content raw⟩ (u ++ rest) = run nc ⟨stk, root, .content (u.reverse ++ raw)⟩ rest := by
  induction u generalizing raw with
  | nil => rfl
  | cons c u ih =>
    simp only [List.mem_cons, not_or] at hu
    have hs : step nc ⟨stk, root, .content raw⟩ c = some ⟨stk, root, .content (c :: raw)⟩ := by
      simp only [step]
      rw [if_neg (fun h => hu.1 h.symm)]
    show (step nc _ c).bind _ = _
    rw [hs]
    show run nc ⟨stk, root, .content (c :: raw)⟩ (u ++ rest) = _
    rw [ih hu.2]
    simp

theorem run_name_go {nc : NameChars} {r : Str} (hr : ∀ x ∈ r, nc.char x = true) (stk : List Frame) (root : Option El) (n rest : Str) :
    run nc ⟨stk, root, .name n⟩ (r ++ rest) = run nc ⟨stk, root, .name (r.reverse ++ n)⟩ rest := by
  induction r generalizing n with
  | nil => rfl
  | cons c r ih =>
    have hs : step nc ⟨stk, root, .name n⟩ c = some ⟨stk, root, .name (c :: n)⟩ := by
      simp only [step]
      rw [if_pos (hr c (by simp))]
    show (step nc _ c).bind _ = _
    rw [hs]
    show run nc ⟨stk, root, .name (c :: n)⟩ (r ++ rest) = _
    rw [ih (fun x hx => hr x (by simp [hx]))]
    simp

theorem run_name {nc : NameChars} {n : Str} (hn : XmlName nc n) (stk : List Frame) (root : Option El) (rest : Str) :
    run nc ⟨stk, root, .lt⟩ (n ++ rest) = run nc ⟨stk, root, .name n.reverse⟩ rest := by
  obtain ⟨c, r, rfl, hc, hr⟩ := hn
  have hs : step nc ⟨stk, root, .lt⟩ c = some ⟨stk, root, .name [c]⟩ := by
    simp only [step]
    rw [if_neg (fun h => by subst h; rw [start_special (by simp)] at hc; cases hc), if_pos hc]
  show (step nc _ c).bind _ = _
  rw [hs]
  show run nc ⟨stk, root, .name [c]⟩ (r ++ rest) = _
  rw [run_name_go hr]
  simp

theorem run_attrName_go {nc : NameChars} {r : Str} (hr : ∀ x ∈ r, nc.char x = true) (stk : List Frame) (root : Option El)
    (n : Str) (as : List (Str × Str)) (a rest : Str) :
    run nc ⟨stk, root, .attr n as a⟩ (r ++ rest) = run nc ⟨stk, root, .attr n as (r.reverse ++ a)⟩ rest := by
  induction r generalizing a with
  | nil => rfl
  | cons c r ih =>
    have hs : step nc ⟨stk, root, .attr n as a⟩ c = some ⟨stk, root, .attr n as (c :: a)⟩ := by
      simp only [step]
      rw [if_pos (hr c (by simp))]
    show (step nc _ c).bind _ = _
    rw [hs]
    show run nc ⟨stk, root, .attr n as (c :: a)⟩ (r ++ rest) = _
    rw [ih (fun x hx => hr x (by simp [hx]))]
    simp

theorem run_cname_go {nc : NameChars} {r : Str} (hr : ∀ x ∈ r, nc.char x = true) (stk : List Frame) (root : Option El) (n rest : Str) :
    run nc ⟨stk, root, .cname n⟩ (r ++ rest) = run nc ⟨stk, root, .cname (r.reverse ++ n)⟩ rest := by
  induction r generalizing n with
  | nil => rfl
  | cons c r ih =>
    have hs : step nc ⟨stk, root, .cname n⟩ c = some ⟨stk, root, .cname (c :: n)⟩ := by
      simp only [step]
      rw [if_pos (hr c (by simp))]
    show (step nc _ c).bind _ = _
    rw [hs]
    show run nc ⟨stk, root, .cname (c :: n)⟩ (r ++ rest) = _
    rw [ih (fun x hx => hr x (by simp [hx]))]
    simp

theorem run_value_go {nc : NameChars} {u : Str} {q : Char} (hl : '<' ∉ u) (hq : q ∉ u) (stk : List Frame) (root : Option El)
    (n : Str) (as : List (Str × Str)) (a raw rest : Str) :
    run nc ⟨stk, root, .value n as a q raw⟩ (u ++ rest) = run nc ⟨stk, root, .value n as a q (u.reverse ++ raw)⟩ rest := by
  induction u generalizing raw with
  | nil => rfl
  | cons c u ih =>
    simp only [List.mem_cons, not_or] at hl hq
    have hs : step nc ⟨stk, root, .value n as a q raw⟩ c = some ⟨stk, root, .value n as a q (c :: raw)⟩ := by
      simp only [step]
      rw [if_neg (fun h => hl.1 h.symm), if_neg (fun h => hq.1 h.symm)]
    show (step nc _ c).bind _ = _
    rw [hs]
    show run nc ⟨stk, root, .value n as a q (c :: raw)⟩ (u ++ rest) = _
    rw [ih hl.2 hq.2]
    simp

/-- the parser is at the end of the name of a start tag, or after an attribute value -/
def afterAttrs (n : Str) : List (Str × Str) → Mode
  | [] => .name n.reverse
  | a :: as => .closed n (a :: as)

theorem afterAttrs_snoc (n : Str) (as : List (Str × Str)) (a : Str × Str) : afterAttrs n (as ++ [a]) = .closed n (as ++ [a]) := by
  cases as <;> rfl

theorem step_attrs_space {nc : NameChars} (stk : List Frame) (root : Option El) (n : Str) (as : List (Str × Str)) :
    step nc ⟨stk, root, afterAttrs n as⟩ ' ' = some ⟨stk, root, .tag n as⟩ := by
  cases as with
  | nil =>
    simp only [afterAttrs, step]
    rw [char_special (by simp), if_neg (by simp), if_pos (by decide)]
    simp
  | cons a as =>
    simp only [afterAttrs, step]
    rw [if_pos (by decide)]

theorem step_attrs_gt {nc : NameChars} (stk : List Frame) (root : Option El) (n : Str) (as : List (Str × Str)) :
    step nc ⟨stk, root, afterAttrs n as⟩ '>' = openEl stk root n as := by
  cases as with
  | nil =>
    simp only [afterAttrs, step]
    rw [char_special (by simp), if_neg (by simp), if_neg (by decide), if_pos trivial]
    simp
  | cons a as =>
    simp only [afterAttrs, step]
    rw [if_neg (by decide), if_pos trivial]

theorem step_attrs_slash {nc : NameChars} (stk : List Frame) (root : Option El) (n : Str) (as : List (Str × Str)) :
    step nc ⟨stk, root, afterAttrs n as⟩ '/' = some ⟨stk, root, .slash n as⟩ := by
  cases as with
  | nil =>
    simp only [afterAttrs, step]
    rw [char_special (by simp), if_neg (by simp), if_neg (by decide), if_neg (by decide), if_pos trivial]
    simp
  | cons a as =>
    simp only [afterAttrs, step]
    rw [if_neg (by decide), if_neg (by decide), if_pos trivial]

theorem run_cons (nc : NameChars) (st : PState) (c : Char) (s : Str) : run nc st (c :: s) = (step nc st c).bind fun st' => run nc st' s := rfl

/-- how texts are written and what reading them gives -/
structure Coding (eT eA : Str → Str) (g : Str → Str) : Prop where
  text : ∀ s, '<' ∉ eT s ∧ decodeText (eT s) = some s
  attr : ∀ s, '<' ∉ eA s ∧ '"' ∉ eA s ∧ decodeAttr (eA s) = some (g s)

theorem run_attr {nc : NameChars} {eT eA : Str → Str} {g : Str → Str} (co : Coding eT eA g) {a v : Str} (ha : XmlName nc a)
    (stk : List Frame) (root : Option El) (n : Str) (as : List (Str × Str)) (hd : a ∉ as.map Prod.fst) (rest : Str) :
    run nc ⟨stk, root, afterAttrs n as⟩ (' ' :: a ++ '=' :: '"' :: eA v ++ '"' :: rest) =
      run nc ⟨stk, root, afterAttrs n (as ++ [(a, g v)])⟩ rest := by
  obtain ⟨h1, h2, h3⟩ := co.attr v
  have e : (' ' :: a ++ '=' :: '"' :: eA v ++ '"' :: rest) = ' ' :: (a ++ ('=' :: '"' :: (eA v ++ ('"' :: rest)))) := by simp
  rw [e, run_cons, step_attrs_space]
  show run nc ⟨stk, root, .tag n as⟩ _ = _
  have hch := ha.chars
  obtain ⟨c, r, rfl, hc, hr⟩ := ha
  have hs : step nc ⟨stk, root, .tag n as⟩ c = some ⟨stk, root, .attr n as [c]⟩ := by
    have ne : ∀ x ∈ ['<', '>', '/', '=', '"', '\'', '&', ';', ' ', '\t', '\n', '\r'], c ≠ x := by
      intro x hx e; subst e; rw [start_special hx] at hc; cases hc
    simp only [step]
    rw [if_neg (by simp [xmlSpace, ne]), if_neg (ne _ (by simp)), if_neg (ne _ (by simp)), if_pos hc]
  rw [List.cons_append, run_cons, hs]
  show run nc ⟨stk, root, .attr n as [c]⟩ _ = _
  rw [run_attrName_go hr, run_cons]
  have hs2 : step nc ⟨stk, root, .attr n as (r.reverse ++ [c])⟩ '=' = some ⟨stk, root, .quote n as (c :: r)⟩ := by
    simp only [step]
    rw [char_special (by simp), if_neg (by simp), if_neg (by decide), if_pos trivial]
    simp
  rw [hs2]
  show run nc ⟨stk, root, .quote n as (c :: r)⟩ _ = _
  have hs3 : step nc ⟨stk, root, .quote n as (c :: r)⟩ '"' = some ⟨stk, root, .value n as (c :: r) '"' []⟩ := by
    simp only [step]
    rw [if_neg (by decide), if_pos (.inl trivial)]
  rw [run_cons, hs3]
  show run nc ⟨stk, root, .value n as (c :: r) '"' []⟩ _ = _
  rw [run_value_go h1 h2, run_cons]
  have hs4 : step nc ⟨stk, root, .value n as (c :: r) '"' ((eA v).reverse ++ [])⟩ '"' =
      some ⟨stk, root, .closed n (as ++ [(c :: r, g v)])⟩ := by
    simp only [step]
    rw [if_neg (by decide), if_pos trivial, if_neg hd]
    simp [h3]
  rw [hs4, afterAttrs_snoc]
  rfl

theorem run_attrs {nc : NameChars} {eT eA : Str → Str} {g : Str → Str} (co : Coding eT eA g) (as : List (Str × Str)) (ha : ∀ a ∈ as, XmlName nc a.1)
    (stk : List Frame) (root : Option El) (n : Str) (bs : List (Str × Str)) (hd : (bs.map Prod.fst ++ as.map Prod.fst).Nodup) (rest : Str) :
    run nc ⟨stk, root, afterAttrs n bs⟩ (attrText eA as ++ rest) =
      run nc ⟨stk, root, afterAttrs n (bs ++ as.map fun a => (a.1, g a.2))⟩ rest := by
  induction as generalizing bs with
  | nil => simp [attrText]
  | cons a as ih =>
    have e : attrText eA (a :: as) ++ rest = ' ' :: a.1 ++ '=' :: '"' :: eA a.2 ++ '"' :: (attrText eA as ++ rest) := by
      simp [attrText]
    rw [e, run_attr co (ha a (by simp))]
    · rw [ih (fun b hb => ha b (by simp [hb]))]
      · simp
      · simpa using hd
    · intro hm
      rw [List.nodup_append] at hd
      exact hd.2.2 a.1 hm a.1 (by simp) rfl

/-! ### The common form -/

mutual
/-- an element without its tail; `sc` says when an empty element is written as one tag -/
def flat (eT eA : Str → Str) (sc : Str → Bool → Bool) : El → Str
  | .mk n as tx kids _ =>
    '<' :: n ++ attrText eA as ++
      (if sc n as.isEmpty && tx.isEmpty && kids.isEmpty then ['/', '>'] else '>' :: eT tx ++ flats eT eA sc kids ++ '<' :: '/' :: n ++ ['>'])
def flats (eT eA : Str → Str) (sc : Str → Bool → Bool) : List El → Str
  | [] => []
  | e :: l => flat eT eA sc e ++ eT e.tail ++ flats eT eA sc l
end

mutual
/-- the texts and the attribute values changed -/
def El.map (f g : Str → Str) : El → El
  | .mk n as tx kids tl => .mk n (as.map fun a => (a.1, g a.2)) (f tx) (El.maps f g kids) (f tl)
def El.maps (f g : Str → Str) : List El → List El
  | [] => []
  | e :: l => El.map f g e :: El.maps f g l
end

/-- names are names, no attribute is given twice, all characters are allowed -/
inductive Named (nc : NameChars) : El → Prop
  | mk (n : Str) (as : List (Str × Str)) (tx : Str) (kids : List El) (tl : Str) : XmlName nc n → (∀ a ∈ as, XmlName nc a.1) →
      (as.map Prod.fst).Nodup → (∀ k ∈ kids, Named nc k) →
      (∀ a ∈ as, ∀ c ∈ a.2, xmlChar c = true) → (∀ c ∈ tx, xmlChar c = true) → (∀ c ∈ tl, xmlChar c = true) → Named nc (.mk n as tx kids tl)

theorem named_plain {nc nc' : NameChars} (hs : nc.start = nc'.start) (hc : nc.char = nc'.char) {e : El} (h : Named nc e) : Named nc' e := by
  have hx : ∀ n, XmlName nc n → XmlName nc' n := by
    intro n hn
    obtain ⟨c, s, rfl, h1, h2⟩ := hn
    exact ⟨c, s, rfl, hs ▸ h1, hc ▸ h2⟩
  induction h with
  | mk n as tx kids tl h1 h2 h3 _ h5 h6 h7 ih => exact .mk n as tx kids tl (hx n h1) (fun a ha => hx _ (h2 a ha)) h3 ih h5 h6 h7

theorem named_of_plain {nc : NameChars} {e : El} (h : Named nc.plain e) : Named nc e := named_plain (nc := nc.plain) (nc' := nc) rfl rfl h

/-- an element was read -/
def place (e : El) : List Frame → Option El → PState
  | [], _ => ⟨[], some e, .content []⟩
  | f :: l, root => ⟨{ f with kids := e :: f.kids } :: l, root, .content []⟩

/-- a frame after a text and children -/
def fill (f : Frame) (t : Str) : List El → Frame
  | [] => f.addText t
  | e :: l => fill { f.addText t with kids := e.withTail [] :: (f.addText t).kids } e.tail l

theorem fill_kids (l : List El) (n : Str) (as : List (Str × Str)) (tx t : Str) (e : El) (r : List El) (he : e.tail = []) :
    fill ⟨n, as, tx, e :: r⟩ t l = ⟨n, as, tx, l.reverse ++ e.withTail t :: r⟩ := by
  induction l generalizing t e r with
  | nil => simp [fill, Frame.addText, he]
  | cons a l ih =>
    rw [fill]
    simp only [Frame.addText, he, List.nil_append]
    rw [ih]
    · cases a
      simp [El.withTail, El.tail]
    · cases a; rfl

theorem fill_new (l : List El) (n : Str) (as : List (Str × Str)) (t : Str) : fill ⟨n, as, [], []⟩ t l = ⟨n, as, t, l.reverse⟩ := by
  cases l with
  | nil => simp [fill, Frame.addText]
  | cons a l =>
    rw [fill]
    simp only [Frame.addText, List.nil_append]
    rw [fill_kids]
    · cases a
      simp [El.withTail, El.tail]
    · cases a; rfl

theorem run_close {nc : NameChars} {n : Str} (hn : XmlName nc n) (as : List (Str × Str)) (t : Str) (kids : List El) (stk : List Frame) (root : Option El) (rest : Str) :
    run nc ⟨⟨n, as, t, kids⟩ :: stk, root, .lt⟩ ('/' :: n ++ '>' :: rest) = run nc (place (.mk n as t kids.reverse []) stk root) rest := by
  have hs : ∀ st : List Frame, step nc ⟨st, root, .lt⟩ '/' = some ⟨st, root, .cname []⟩ := fun _ => rfl
  rw [List.cons_append, run_cons, hs]
  show run nc ⟨_, root, .cname []⟩ _ = _
  rw [run_cname_go hn.chars, run_cons]
  have hs2 : step nc ⟨⟨n, as, t, kids⟩ :: stk, root, .cname (n.reverse ++ [])⟩ '>' = some (place (.mk n as t kids.reverse []) stk root) := by
    simp only [step]
    rw [char_special (by simp), if_neg (by simp), if_neg (by decide), if_pos trivial]
    cases stk <;> simp [closeEl, place]
  rw [hs2]
  rfl

theorem run_slash {nc : NameChars} {n : Str} (as : List (Str × Str)) (stk : List Frame) (root : Option El) (hroot : stk = [] → root = none) (rest : Str) :
    run nc ⟨stk, root, .slash n as⟩ ('>' :: rest) = run nc (place (.mk n as [] [] []) stk root) rest := by
  have hs : step nc ⟨stk, root, .slash n as⟩ '>' = some (place (.mk n as [] [] []) stk root) := by
    simp only [step]
    rw [if_pos trivial]
    cases stk with
    | nil => rw [hroot rfl]; simp [openEl, closeEl, place]
    | cons f l => simp [openEl, closeEl, place]
  rw [run_cons, hs]
  rfl

theorem openEl_ok {stk : List Frame} {root : Option El} (hroot : stk = [] → root = none) (n : Str) (as : List (Str × Str)) :
    openEl stk root n as = some ⟨⟨n, as, [], []⟩ :: stk, root, .content []⟩ := by
  cases stk with
  | nil => rw [hroot rfl]; simp [openEl]
  | cons f l => simp [openEl]

theorem El.maps_id_reverse (g : Str → Str) (l : List El) : El.maps id g l = l.map (El.map id g) := by
  induction l with
  | nil => rfl
  | cons e l ih => simp [El.maps, ih]

theorem El.map_tail (f g : Str → Str) (e : El) : (El.map f g e).tail = f e.tail := by cases e; rfl

theorem flat_decompose {eT eA : Str → Str} {sc : Str → Bool → Bool} (n : Str) (as : List (Str × Str)) (tx : Str) (kids : List El) (tl rest : Str)
    (h : (sc n as.isEmpty && tx.isEmpty && kids.isEmpty) = false) :
    flat eT eA sc (.mk n as tx kids tl) ++ rest =
      '<' :: (n ++ (attrText eA as ++ ('>' :: (eT tx ++ (flats eT eA sc kids ++ ('<' :: ('/' :: n ++ '>' :: rest))))))) := by
  rw [flat, h]
  simp

mutual
theorem run_flat {nc : NameChars} {eT eA : Str → Str} {g : Str → Str} (co : Coding eT eA g) (sc : Str → Bool → Bool) : (e : El) → Named nc e →
    ∀ (stk stk' : List Frame) (root : Option El) (raw rest : Str), flush ⟨stk, root, .content raw⟩ raw = some stk' →
    (stk' = [] → root = none) →
    run nc ⟨stk, root, .content raw⟩ (flat eT eA sc e ++ rest) = run nc (place ((El.map id g e).withTail []) stk' root) rest
  | .mk n as tx kids tl, hN => by
    intro stk stk' root raw rest hf hroot
    cases hN with
    | mk _ _ _ _ _ hn ha hd hk _ _ _ =>
    have hlt : step nc ⟨stk, root, .content raw⟩ '<' = some ⟨stk', root, .lt⟩ := by
      simp only [step]
      rw [if_pos trivial, hf]
      rfl
    cases hsc : (sc n as.isEmpty && tx.isEmpty && kids.isEmpty) with
    | true =>
      rw [flat, if_pos hsc]
      simp only [Bool.and_eq_true, List.isEmpty_iff] at hsc
      obtain ⟨⟨_, rfl⟩, rfl⟩ := hsc
      have e : ('<' :: n ++ attrText eA as ++ ['/', '>']) ++ rest = '<' :: (n ++ (attrText eA as ++ ('/' :: '>' :: rest))) := by simp
      rw [e, run_cons, hlt]
      show run nc ⟨stk', root, .lt⟩ _ = _
      rw [run_name hn]
      show run nc ⟨stk', root, afterAttrs n []⟩ _ = _
      rw [run_attrs co as ha _ _ _ _ (by simpa using hd), run_cons, step_attrs_slash]
      show run nc ⟨stk', root, .slash n _⟩ _ = _
      rw [run_slash _ _ _ hroot]
      simp [El.map, El.maps, El.withTail]
    | false =>
      rw [flat_decompose _ _ _ _ _ _ hsc, run_cons, hlt]
      show run nc ⟨stk', root, .lt⟩ _ = _
      rw [run_name hn]
      show run nc ⟨stk', root, afterAttrs n []⟩ _ = _
      rw [run_attrs co as ha _ _ _ _ (by simpa using hd), run_cons, step_attrs_gt, openEl_ok hroot]
      show run nc ⟨⟨n, _, [], []⟩ :: stk', root, .content []⟩ _ = _
      rw [run_content (co.text tx).1, List.append_nil, run_flats co sc kids hk, fill_new, run_close hn]
      simp [El.map, El.withTail, El.maps_id_reverse]
theorem run_flats {nc : NameChars} {eT eA : Str → Str} {g : Str → Str} (co : Coding eT eA g) (sc : Str → Bool → Bool) : (l : List El) → (∀ e ∈ l, Named nc e) →
    ∀ (f : Frame) (stk : List Frame) (root : Option El) (t rest : Str),
    run nc ⟨f :: stk, root, .content (eT t).reverse⟩ (flats eT eA sc l ++ '<' :: rest) =
      run nc ⟨fill f t (El.maps id g l) :: stk, root, .lt⟩ rest
  | [], _ => by
    intro f stk root t rest
    rw [flats, List.nil_append, run_cons]
    have : step nc ⟨f :: stk, root, .content (eT t).reverse⟩ '<' = some ⟨f.addText t :: stk, root, .lt⟩ := by
      simp only [step]
      rw [if_pos trivial]
      simp [flush, (co.text t).2]
    rw [this]
    rfl
  | e :: l, h => by
    intro f stk root t rest
    have hfl : flush ⟨f :: stk, root, .content (eT t).reverse⟩ (eT t).reverse = some (f.addText t :: stk) := by
      simp [flush, (co.text t).2]
    have e1 : flats eT eA sc (e :: l) ++ '<' :: rest = flat eT eA sc e ++ (eT e.tail ++ (flats eT eA sc l ++ '<' :: rest)) := by
      rw [flats]; simp
    rw [e1, run_flat co sc e (h e (by simp)) _ _ _ _ _ hfl (by simp)]
    show run nc ⟨_ :: stk, root, .content []⟩ _ = _
    rw [run_content (co.text e.tail).1, List.append_nil, run_flats co sc l (fun x hx => h x (by simp [hx]))]
    simp [El.maps, fill, El.map_tail]
end

end Verif.Lemmas
