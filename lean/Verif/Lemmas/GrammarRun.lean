import Verif.Lemmas.Grammar
/-!
# Well-formed files are accepted, and nothing else is
-/
namespace Verif.Lemmas
open Verif Verif.Model Verif.Spec

theorem accepts_run {nc : NameChars} {st st' : PState} {s s' : Str} {e : El} (h : run nc st s = run nc st' s') : Accepts nc st s e ↔ Accepts nc st' s' e := by
  unfold Accepts
  rw [h]

theorem charData_iff (raw t : Str) : CharData raw t ↔ '<' ∉ raw ∧ decodeText raw = some t := by
  unfold CharData decodeText
  refine and_congr_right fun _ => ?_
  rw [← hasCdataEnd_iff, ← decode_spelled]
  by_cases h : hasCdataEnd raw = true
  · simp [h]
  · simp [h]

theorem chars_run {nc : NameChars} {raw t : Str} (h : CharData raw t) (f : Frame) (stk : List Frame) (root : Option El) (rest : Str) :
    run nc ⟨f :: stk, root, .content []⟩ (raw ++ '<' :: rest) = run nc ⟨f.addText t :: stk, root, .lt⟩ rest := by
  obtain ⟨h1, h2⟩ := (charData_iff _ _).1 h
  rw [run_content h1, run_cons]
  have : step nc ⟨f :: stk, root, .content (raw.reverse ++ [])⟩ '<' = some ⟨f.addText t :: stk, root, .lt⟩ := by
    simp [step, flush, h2]
  rw [this, Option.bind_some]

theorem aside_run {nc : NameChars} (hm : nc.marks = true) {m : Str} (h : Aside nc m) : ∃ m', m = '<' :: m' ∧
    ∀ stk root s, run nc ⟨stk, root, .lt⟩ (m' ++ s) = run nc ⟨stk, root, .content []⟩ s := by
  have hname : ∀ {c : Char} {n : Str}, nc.start c = true → (∀ x ∈ n, nc.char x = true) → ∀ stk root s,
      run nc ⟨stk, root, .lt⟩ ('?' :: c :: (n ++ s)) = run nc ⟨stk, root, .target (n.reverse ++ [c])⟩ s := by
    intro c n h1 h2 stk root s
    have e1 : step nc ⟨stk, root, .target []⟩ c = some ⟨stk, root, .target [c]⟩ := by simp [step, h1]
    rw [run_cons, step_question hm, Option.bind_some, run_cons, e1, Option.bind_some, run_name_target _ _ _ _ _ (by simp) h2]
  cases h with
  | comment b h1 h2 =>
    exact ⟨"!--".toList ++ b ++ "-->".toList, rfl, fun stk root s => run_whole_comment hm stk root s h1 h2⟩
  | inst n b w hn h3 hw h4 =>
    obtain ⟨c, n, rfl, h1, h2⟩ := hn
    have hw := (space_iff w).2 (hw w (by simp))
    refine ⟨'?' :: c :: (n ++ w :: (b ++ "?>".toList)), by simp, fun stk root s => ?_⟩
    have e2 : step nc ⟨stk, root, .target (n.reverse ++ [c])⟩ w = some ⟨stk, root, .inst false⟩ := by
      simp only [step]
      rw [if_neg (by rw [if_neg (by simp), (space_char hw).1]; decide), if_neg, if_pos hw]
      rintro (h | h)
      · simp at h
      · exact h3 (reserved_mem (by simpa using h))
    have := hname h1 h2 stk root (w :: (b ++ "?>".toList ++ s))
    simp only [List.cons_append, List.append_assoc] at this ⊢
    rw [this, run_cons, e2, Option.bind_some]
    have := run_inst nc stk root s b false h4
    simpa using this
  | short n hn h3 =>
    obtain ⟨c, n, rfl, h1, h2⟩ := hn
    refine ⟨'?' :: c :: (n ++ ['?', '>']), by simp, fun stk root s => ?_⟩
    have e2 : step nc ⟨stk, root, .target (n.reverse ++ [c])⟩ '?' = some ⟨stk, root, .instEnd⟩ := by
      have hq : nc.char '?' = false := by rw [nc.char_ascii _ (by decide)]; decide
      simp only [step]
      rw [if_neg (by rw [if_neg (by simp), hq]; decide), if_neg, if_neg (by decide), if_pos trivial]
      rintro (h | h)
      · simp at h
      · exact h3 (reserved_mem (by simpa using h))
    have := hname h1 h2 stk root ('?' :: '>' :: s)
    simp only [List.cons_append, List.append_assoc, List.nil_append] at this ⊢
    rw [this, run_cons, e2, Option.bind_some, run_cons]
    rfl

theorem close_run {nc : NameChars} {n w : Str} (hn : XmlName nc n) (hw : White w) (as : List (Str × Str)) (t : Str) (kids : List El) (stk : List Frame) (root : Option El) (rest : Str) :
    run nc ⟨⟨n, as, t, kids⟩ :: stk, root, .lt⟩ ('/' :: (n ++ (w ++ '>' :: rest))) = run nc (place (.mk n as t kids.reverse []) stk root) rest := by
  cases w with
  | nil =>
    have := run_close hn as t kids stk root rest
    simpa using this
  | cons c w =>
    have hc := (space_iff c).2 (hw c (by simp))
    have hs : step nc ⟨⟨n, as, t, kids⟩ :: stk, root, .lt⟩ '/' = some ⟨⟨n, as, t, kids⟩ :: stk, root, .cname []⟩ := rfl
    have hs1 : step nc ⟨⟨n, as, t, kids⟩ :: stk, root, .cname (n.reverse ++ [])⟩ c = some ⟨⟨n, as, t, kids⟩ :: stk, root, .cend n⟩ := by
      simp only [step]
      rw [(space_char hc).1, if_neg (by simp), if_pos hc]
      simp
    have hs2 : step nc ⟨⟨n, as, t, kids⟩ :: stk, root, .cend n⟩ '>' = some (place (.mk n as t kids.reverse []) stk root) := by
      simp only [step]
      rw [if_neg (by decide), if_pos trivial]
      cases stk <;> simp [closeEl, place]
    rw [run_cons, hs, Option.bind_some, run_cname_go hn.chars, List.cons_append, run_cons, hs1, Option.bind_some,
      run_blank (fun z hz => by simp [step, hz]) (fun z hz => hw z (by simp [hz])), run_cons, hs2, Option.bind_some]

theorem fill_addText (f : Frame) (t t' : Str) (kids : List El) : fill (f.addText t) t' kids = fill f (t ++ t') kids := by
  cases kids with
  | nil => simp [fill, addText_addText]
  | cons e l => rw [fill, fill, addText_addText]

theorem element_tail {nc : NameChars} {s : Str} {e : El} (h : Element nc s e) : e.tail = [] := by cases h <;> rfl

theorem withTail_nil {e : El} (h : e.tail = []) : e.withTail [] = e := by
  cases e; simp only [El.tail] at h; simp [El.withTail, h]

theorem fill_cons {nc : NameChars} {s : Str} {e : El} (h : Element nc s e) (f : Frame) (t t' : Str) (kids : List El) :
    fill f t (e.withTail t' :: kids) = fill { f.addText t with kids := e :: (f.addText t).kids } t' kids := by
  rw [fill]
  have h1 : (e.withTail t').withTail [] = e := by
    have := withTail_nil (element_tail h)
    cases e; simpa [El.withTail] using this
  have h2 : (e.withTail t').tail = t' := by cases e; rfl
  rw [h1, h2]

theorem element_length {nc : NameChars} {s : Str} {e : El} (h : Element nc s e) : 0 < s.length := by cases h <;> simp

theorem aside_length {nc : NameChars} {s : Str} (h : Aside nc s) : 0 < s.length := by cases h <;> simp

mutual
theorem content_run {nc : NameChars} {c t : Str} {kids : List El} (h : Content nc c t kids) (f : Frame) (stk : List Frame) (root : Option El) (rest : Str) (e : El)
    (ha : Accepts nc ⟨fill f t kids :: stk, root, .lt⟩ rest e) : Accepts nc ⟨f :: stk, root, .content []⟩ (c ++ '<' :: rest) e := by
  cases h with
  | chars hc => exact (accepts_run (chars_run hc f stk root rest)).2 ha
  | @element raw t s r t' e0 kids hc he hr =>
    rw [fill_cons he] at ha
    have := content_run hr _ stk root rest e ha
    obtain ⟨s', rfl, h2⟩ := element_run he (f.addText t :: stk) root (r ++ '<' :: rest) e (by simp) this
    have e1 : raw ++ '<' :: s' ++ r ++ '<' :: rest = raw ++ '<' :: (s' ++ (r ++ '<' :: rest)) := by simp
    rw [e1]
    exact (accepts_run (chars_run hc f stk root _)).2 h2
  | @aside raw t m r t' kids hm hc hs hr =>
    rw [← fill_addText] at ha
    have := content_run hr _ stk root rest e ha
    obtain ⟨m', rfl, h2⟩ := aside_run hm hs
    have e1 : raw ++ '<' :: m' ++ r ++ '<' :: rest = raw ++ '<' :: (m' ++ (r ++ '<' :: rest)) := by simp
    rw [e1]
    exact (accepts_run ((chars_run hc f stk root _).trans (h2 _ _ _))).2 this
  | @cdata raw t b r t' kids hm hc hb hr =>
    rw [← fill_addText, ← addText_addText] at ha
    have := content_run hr _ stk root rest e ha
    have e1 : raw ++ "<![CDATA[".toList ++ b ++ "]]>".toList ++ r ++ '<' :: rest = raw ++ '<' :: ("![CDATA[".toList ++ (b ++ "]]>".toList ++ (r ++ '<' :: rest))) := by simp
    rw [e1]
    refine (accepts_run ((chars_run hc f stk root _).trans ?_)).2 this
    rw [run_section hm, run_cdata _ _ _ _ _ _ (by simpa using hb)]
    rfl
termination_by 2 * c.length + 1
decreasing_by
  · have := element_length he
    subst_vars; simp only [List.length_append]; omega
  · subst_vars; simp only [List.length_append]; omega
  · have := aside_length hs
    subst_vars; simp only [List.length_append]; omega
  · subst_vars; simp; omega

theorem element_run {nc : NameChars} {s : Str} {e0 : El} (h : Element nc s e0) (stk : List Frame) (root : Option El) (rest : Str) (e : El) (hroot : stk = [] → root = none)
    (ha : Accepts nc (place e0 stk root) rest e) : ∃ s', s = '<' :: s' ∧ Accepts nc ⟨stk, root, .lt⟩ (s' ++ rest) e := by
  cases h with
  | @empty n a as hn has =>
    refine ⟨n ++ a ++ ['/', '>'], by simp, ?_⟩
    have := (start_run hn has stk root true rest e).2 ⟨place (.mk n as [] [] []) stk root, by
      cases stk with
      | nil => rw [hroot rfl]; simp [openEl, closeEl, place]
      | cons f l => simp [openEl, closeEl, place], ha⟩
    simpa using this
  | @full n a c t w as kids hn has hc hw =>
    refine ⟨n ++ a ++ '>' :: c ++ '<' :: '/' :: n ++ w ++ ['>'], by simp, ?_⟩
    have h1 : Accepts nc ⟨⟨n, as, t, kids.reverse⟩ :: stk, root, .lt⟩ ('/' :: (n ++ (w ++ '>' :: rest))) e :=
      (accepts_run (close_run hn hw as t kids.reverse stk root rest)).2 (by simpa using ha)
    have h2 := content_run hc ⟨n, as, [], []⟩ stk root ('/' :: (n ++ (w ++ '>' :: rest))) e (by rw [fill_new]; exact h1)
    have := (start_run hn has stk root false (c ++ '<' :: ('/' :: (n ++ (w ++ '>' :: rest)))) e).2 ⟨⟨⟨n, as, [], []⟩ :: stk, root, .content []⟩, by
      cases stk with
      | nil => rw [hroot rfl]; simp [openEl]
      | cons f l => simp [openEl], h2⟩
    simpa using this
termination_by 2 * s.length
decreasing_by
  subst_vars; simp; omega
end

theorem top_run {nc : NameChars} {m : Str} (h : Misc nc m) (root : Option El) (s : Str) (hs : ∃ s', s = '<' :: s') :
    run nc ⟨[], root, .content []⟩ (m ++ s) = run nc ⟨[], root, .content []⟩ s := by
  have hb : ∀ {w : Str}, White w → ∀ r, run nc ⟨[], root, .content []⟩ (w ++ '<' :: r) = run nc ⟨[], root, .lt⟩ r := by
    intro w hw r
    rw [run_content (blank_lt hw), run_cons]
    have hall : ∀ x ∈ w, xmlSpace x = true := List.all_eq_true.1 ((blank_iff w).1 hw)
    have : step nc ⟨[], root, .content (w.reverse ++ [])⟩ '<' = some ⟨[], root, .lt⟩ := by
      simp only [step, flush]
      rw [if_pos trivial, if_pos (by simpa using hall)]
      rfl
    rw [this, Option.bind_some]
  induction h with
  | blank hw =>
    obtain ⟨s', rfl⟩ := hs
    rw [hb hw, ← hb blank_nil s']
    rfl
  | @aside w m r hm hw ha _ ih =>
    obtain ⟨m', rfl, h2⟩ := aside_run hm ha
    have e1 : w ++ '<' :: m' ++ r ++ s = w ++ '<' :: (m' ++ (r ++ s)) := by simp
    rw [e1, hb hw, h2, ih]

theorem end_run {nc : NameChars} {m : Str} (h : Misc nc m) (e : El) : Accepts nc ⟨[], some e, .content []⟩ m e := by
  induction h with
  | @blank w hw =>
    have := run_content (nc := nc) (blank_lt hw) [] (some e) [] []
    rw [List.append_nil] at this
    rw [accepts_run this, accepts_nil]
    simp only [finish, List.append_nil, List.all_reverse]
    rw [if_pos ((blank_iff w).1 hw)]
  | @aside w m r hm hw ha _ ih =>
    obtain ⟨m', rfl, h2⟩ := aside_run hm ha
    have := top_run (nc := nc) (.blank hw) (some e) ('<' :: (m' ++ r)) ⟨_, rfl⟩
    have e1 : w ++ '<' :: m' ++ r = w ++ '<' :: (m' ++ r) := by simp
    rw [e1, accepts_run this]
    have e2 : run nc ⟨[], some e, .content []⟩ ('<' :: (m' ++ r)) = run nc ⟨[], some e, .lt⟩ (m' ++ r) := rfl
    rw [accepts_run e2, accepts_run (h2 _ _ _)]
    exact ih

/-- well-formed files are accepted -/
theorem grammar_complete {nc : NameChars} {m1 r m2 : Str} {e : El} (h1 : Misc nc m1) (h : Element nc r e) (h2 : Misc nc m2) :
    Accepts nc ⟨[], none, .content []⟩ (m1 ++ r ++ m2) e := by
  obtain ⟨r', rfl, h3⟩ := element_run h [] none m2 e (fun _ => rfl) (end_run h2 e)
  rw [List.append_assoc, accepts_run (top_run h1 none ('<' :: r' ++ m2) ⟨r' ++ m2, rfl⟩)]
  have e2 : run nc ⟨[], none, .content []⟩ ('<' :: r' ++ m2) = run nc ⟨[], none, .lt⟩ (r' ++ m2) := rfl
  rw [accepts_run e2]
  exact h3

/-! ### Nothing else is accepted -/

/-- the characters the parser collects in a mode, and the character that ends them -/
theorem scan {nc : NameChars} {stk : List Frame} {root : Option El} {mk : Str → Mode} {p : Char → Bool} {e : El}
    (hp : ∀ a c, p c = true → step nc ⟨stk, root, mk a⟩ c = some ⟨stk, root, mk (c :: a)⟩) : ∀ (s a : Str), Accepts nc ⟨stk, root, mk a⟩ s e →
    ∃ x, (∀ c ∈ x, p c = true) ∧ ((s = x ∧ finish ⟨stk, root, mk (x.reverse ++ a)⟩ = some e) ∨
      ∃ c r st', s = x ++ c :: r ∧ p c = false ∧ step nc ⟨stk, root, mk (x.reverse ++ a)⟩ c = some st' ∧ Accepts nc st' r e) := by
  intro s
  induction s with
  | nil => intro a h; exact ⟨[], by simp, .inl ⟨rfl, accepts_nil.1 h⟩⟩
  | cons c s ih =>
    intro a h
    by_cases hc : p c = true
    · obtain ⟨st', h1, h2⟩ := accepts_cons.1 h
      rw [hp a c hc] at h1
      cases h1
      obtain ⟨x, hx, h3⟩ := ih (c :: a) h2
      refine ⟨c :: x, by simpa [hc] using hx, ?_⟩
      simpa using h3
    · obtain ⟨st', h1, h2⟩ := accepts_cons.1 h
      exact ⟨[], by simp, .inr ⟨c, s, st', rfl, by simpa using hc, h1, h2⟩⟩

/-- a file does not end there -/
theorem scan' {nc : NameChars} {stk : List Frame} {root : Option El} {mk : Str → Mode} {p : Char → Bool} {e : El}
    (hp : ∀ a c, p c = true → step nc ⟨stk, root, mk a⟩ c = some ⟨stk, root, mk (c :: a)⟩) (hf : ∀ a r, mk a ≠ .content r) (s a : Str) (h : Accepts nc ⟨stk, root, mk a⟩ s e) :
    ∃ x c r st', (∀ c ∈ x, p c = true) ∧ s = x ++ c :: r ∧ p c = false ∧ step nc ⟨stk, root, mk (x.reverse ++ a)⟩ c = some st' ∧ Accepts nc st' r e := by
  obtain ⟨x, hx, h | ⟨c, r, st', h1, h2, h3, h4⟩⟩ := scan hp s a h
  · exfalso
    obtain ⟨_, h⟩ := h
    unfold finish at h
    split at h
    · next hm => exact hf _ _ hm
    · cases h
  · exact ⟨x, c, r, st', hx, h1, h2, h3, h4⟩

theorem white_of {x : Str} (h : ∀ c ∈ x, xmlSpace c = true) : White x := fun c hc => (space_iff c).1 (h c hc)

/-- an attribute, from inside its name on -/
theorem attr_sound {nc : NameChars} {stk : List Frame} {root : Option El} {e : El} {n : Str} {as : List (Str × Str)} {s a : Str} (h : Accepts nc ⟨stk, root, .attr n as a⟩ s e) :
    ∃ x w1 w2 q raw v rest, s = x ++ w1 ++ '=' :: w2 ++ q :: raw ++ q :: rest ∧ (∀ c ∈ x, nc.char c = true) ∧ White w1 ∧ White w2 ∧ (q = '"' ∨ q = '\'') ∧
      '<' ∉ raw ∧ q ∉ raw ∧ Spelled inValue raw v ∧ a.reverse ++ x ∉ as.map Prod.fst ∧ Accepts nc ⟨stk, root, .closed n (as ++ [(a.reverse ++ x, v)])⟩ rest e := by
  obtain ⟨x, c, r, st', hx, rfl, hc, h1, h2⟩ := scan' (mk := fun a => .attr n as a) (p := nc.char) (fun a c hc => by simp [step, hc]) (by simp) s a h
  -- to the equals sign
  have heq : ∃ w1 r', White w1 ∧ c :: r = w1 ++ '=' :: r' ∧ Accepts nc ⟨stk, root, .quote n as (a.reverse ++ x)⟩ r' e := by
    simp only [step, hc, Bool.false_eq_true, if_false, List.reverse_append, List.reverse_reverse] at h1
    by_cases hs : xmlSpace c = true
    · rw [if_pos hs] at h1
      cases h1
      obtain ⟨w, c', r', st', hw, rfl, hc', h3, h4⟩ := scan' (mk := fun _ => .eq n as (a.reverse ++ x)) (p := xmlSpace) (fun a c hc => by simp [step, hc]) (by simp) r [] h2
      simp only [step, hc', Bool.false_eq_true, if_false] at h3
      split at h3
      · next he =>
        cases h3
        subst he
        exact ⟨c :: w, r', white_cons hs (white_of hw), by simp, h4⟩
      · cases h3
    · rw [if_neg hs] at h1
      split at h1
      · next he =>
        cases h1
        subst he
        exact ⟨[], r, blank_nil, rfl, h2⟩
      · cases h1
  obtain ⟨w1, r1, hw1, e1, h3⟩ := heq
  obtain ⟨w2, q, r2, st2, hw2, rfl, hq, h4, h5⟩ := scan' (mk := fun _ => .quote n as (a.reverse ++ x)) (p := xmlSpace) (fun a c hc => by simp [step, hc]) (by simp) r1 [] h3
  simp only [step, hq, Bool.false_eq_true, if_false] at h4
  split at h4
  · next hq' =>
    cases h4
    obtain ⟨raw, c3, r3, st3, hr, rfl, hc3, h6, h7⟩ := scan' (mk := fun raw => .value n as (a.reverse ++ x) q raw) (p := fun c => c != '<' && c != q)
      (fun a c hc => by
        simp only [Bool.and_eq_true, bne_iff_ne] at hc
        simp [step, hc]) (by simp) r2 [] h5
    simp only [step, List.append_nil, List.reverse_reverse] at h6
    split at h6
    · cases h6
    · next hlt =>
      have hcq : c3 = q := by
        simp only [Bool.and_eq_false_iff, bne_eq_false_iff_eq] at hc3
        rcases hc3 with h | h
        · exact absurd h hlt
        · exact h
      rw [if_pos hcq] at h6
      subst hcq
      split at h6
      · cases h6
      · next hmem =>
        obtain ⟨v, hv, rfl⟩ := Option.map_eq_some_iff.1 h6
        refine ⟨x, w1, w2, c3, raw, v, r3, ?_, hx, hw1, white_of hw2, hq', ?_, ?_, ?_, hmem, h7⟩
        · rw [e1]; simp
        · intro h; have := hr _ h; simp at this
        · intro h; have := hr _ h; simp at this
        · rw [← decode_spelled, ← toBlank_eq]; exact hv
  · cases h4

theorem attrs_sound {nc : NameChars} {stk : List Frame} {root : Option El} {e : El} {n : Str} (k : Nat) : ∀ (s w : Str) (as : List (Str × Str)) (m : Mode), s.length ≤ k → White w →
    (m = .closed n as ∧ w = [] ∨ m = .tag n as ∧ w ≠ []) → Accepts nc ⟨stk, root, m⟩ s e →
    ∃ a bs sc rest, w ++ s = a ++ ((if sc then ['/', '>'] else ['>']) ++ rest) ∧ rest.length < s.length ∧ Attrs nc a bs ∧ (∀ b ∈ bs, b.1 ∉ as.map Prod.fst) ∧ opened nc stk root n (as ++ bs) sc rest e := by
  induction k with
  | zero =>
    intro s w as m hk _ hm h
    have : s = [] := List.length_eq_zero_iff.1 (Nat.le_zero.1 hk)
    subst this
    have h := accepts_nil.1 h
    unfold finish at h
    split at h
    · next h' => cases h'; rcases hm with ⟨h, _⟩ | ⟨h, _⟩ <;> cases h
    · cases h
  | succ k ih =>
    intro s w as m hk hw hm h
    cases s with
    | nil =>
      have h := accepts_nil.1 h
      unfold finish at h
      split at h
      · next h' => cases h'; rcases hm with ⟨h, _⟩ | ⟨h, _⟩ <;> cases h
      · cases h
    | cons c s =>
      have hk' : s.length ≤ k := by simpa using hk
      obtain ⟨st', h1, h2⟩ := accepts_cons.1 h
      by_cases hs : xmlSpace c = true
      · have hst : st' = ⟨stk, root, .tag n as⟩ := by
          rcases hm with ⟨rfl, _⟩ | ⟨rfl, _⟩ <;> (simp only [step, hs, if_true] at h1; exact (Option.some.inj h1).symm)
        subst hst
        obtain ⟨a, bs, sc, rest, g1, g2, g3⟩ := ih s (w ++ [c]) as _ hk' (white_append hw (white_cons hs blank_nil)) (.inr ⟨rfl, by simp⟩) h2
        exact ⟨a, bs, sc, rest, by rw [← g1]; simp, by simp; omega, g3⟩
      have hs : xmlSpace c = false := by simpa using hs
      by_cases hgt : c = '>'
      · subst hgt
        have hst : openEl stk root n as = some st' := by
          rcases hm with ⟨rfl, _⟩ | ⟨rfl, _⟩ <;> (simp only [step, hs, Bool.false_eq_true, if_false, if_true] at h1; exact h1)
        exact ⟨w, [], false, s, by simp, by simp, .nil hw, by simp, st', by simp [hst], h2⟩
      by_cases hsl : c = '/'
      · subst hsl
        have hst : st' = ⟨stk, root, .slash n as⟩ := by
          rcases hm with ⟨rfl, _⟩ | ⟨rfl, _⟩ <;> (simp only [step, hs, Bool.false_eq_true, if_false, if_true, if_neg hgt] at h1; exact (Option.some.inj h1).symm)
        subst hst
        cases s with
        | nil =>
          have h := accepts_nil.1 h2
          unfold finish at h
          split at h
          · next h' => cases h'
          · cases h
        | cons c s =>
          by_cases hc : c = '>'
          · subst hc
            refine ⟨w, [], true, s, by simp, by simp, .nil hw, by simp, ?_⟩
            rw [List.append_nil]
            exact accepts_slash.1 h2
          · obtain ⟨_, h3, _⟩ := accepts_cons.1 h2
            simp [step, hc] at h3
      · rcases hm with ⟨rfl, _⟩ | ⟨rfl, hw0⟩
        · simp [step, hs, hgt, hsl] at h1
        simp only [step, hs, Bool.false_eq_true, if_false, if_neg hgt, if_neg hsl] at h1
        split at h1
        · next hst =>
          cases h1
          obtain ⟨x, w1, w2, q, raw, v, rest, rfl, hx, hw1, hw2, hq, hlt, hqr, hsp, hmem, h3⟩ := attr_sound h2
          have hlen : rest.length ≤ k := by
            simp only [List.length_append, List.length_cons] at hk'
            omega
          obtain ⟨a, bs, sc, rest', g1, g2, g3, g4, g5⟩ := ih rest [] _ _ hlen blank_nil (.inl ⟨rfl, rfl⟩) h3
          rw [List.nil_append] at g1
          subst g1
          refine ⟨w ++ (c :: x) ++ w1 ++ '=' :: w2 ++ q :: raw ++ q :: a, (c :: x, v) :: bs, sc, rest', by simp, ?_, ?_, ?_, by simpa using g5⟩
          · simp only [List.length_append, List.length_cons] at g2 ⊢
            omega
          · refine .cons hw0 hw ⟨c, x, rfl, hst, hx⟩ hw1 hw2 hq hlt hqr hsp g3 ?_
            intro hm
            obtain ⟨b, hb, hb1⟩ := List.mem_map.1 hm
            refine g4 b hb ?_
            rw [hb1]
            simp
          · intro b hb
            rcases List.mem_cons.1 hb with rfl | hb
            · simpa using hmem
            · intro hm
              refine g4 b hb ?_
              rw [List.map_append]
              exact List.mem_append.2 (.inl hm)
        · cases h1

/-- a start tag, from inside its name on -/
theorem start_sound {nc : NameChars} {stk : List Frame} {root : Option El} {e : El} {c : Char} {s : Str} (hc : nc.start c = true) (h : Accepts nc ⟨stk, root, .name [c]⟩ s e) :
    ∃ x a bs sc rest, c :: s = x ++ (a ++ ((if sc then ['/', '>'] else ['>']) ++ rest)) ∧ rest.length < s.length ∧ XmlName nc x ∧ Attrs nc a bs ∧ opened nc stk root x bs sc rest e := by
  obtain ⟨x, d, r, st', hx, rfl, hd, h1, h2⟩ := scan' (mk := fun a => .name a) (p := nc.char) (fun a c hc => by simp [step, hc]) (by simp) s [c] h
  have hn : XmlName nc (c :: x) := ⟨c, x, rfl, hc, hx⟩
  simp only [step, hd, Bool.false_eq_true, if_false, List.reverse_append, List.reverse_reverse, List.reverse_cons, List.reverse_nil, List.nil_append, List.singleton_append] at h1
  by_cases hs : xmlSpace d = true
  · rw [if_pos hs] at h1
    cases h1
    obtain ⟨a, bs, sc, rest, g1, g2, g3, _, g5⟩ := attrs_sound r.length r [d] [] _ (Nat.le_refl _) (white_cons hs blank_nil) (.inr ⟨rfl, by simp⟩) h2
    exact ⟨c :: x, a, bs, sc, rest, by rw [← g1]; simp, by simp; omega, hn, g3, g5⟩
  rw [if_neg hs] at h1
  by_cases hgt : d = '>'
  · subst hgt
    rw [if_pos rfl] at h1
    exact ⟨c :: x, [], [], false, r, by simp, by simp; omega, hn, .nil blank_nil, st', by simp [h1], h2⟩
  rw [if_neg hgt] at h1
  split at h1
  · next hsl =>
    cases h1
    subst hsl
    obtain ⟨a, bs, sc, rest, g1, g2, g3, _, g5⟩ := attrs_sound (nc := nc) (stk := stk) (root := root) (e := e) (n := c :: x) ('/' :: r).length ('/' :: r) [] [] _ (Nat.le_refl _) blank_nil (.inl ⟨rfl, rfl⟩) (by
      rw [accepts_cons]
      exact ⟨_, by simp [step, xmlSpace], h2⟩)
    exact ⟨c :: x, a, bs, sc, rest, by rw [← g1]; simp, by simp at g2 ⊢; omega, hn, g3, g5⟩
  · cases h1

theorem aside_sound {nc : NameChars} {stk : List Frame} {root : Option El} {e : El} {c : Char} {s : Str} (hc : c = '!' ∧ (∃ s', s = '-' :: s') ∨ c = '?') (h : Accepts nc ⟨stk, root, .lt⟩ (c :: s) e) :
    ∃ m rest, '<' :: c :: s = m ++ rest ∧ rest.length < s.length ∧ nc.marks = true ∧ Aside nc m ∧ Accepts nc ⟨stk, root, .content []⟩ rest e := by
  obtain ⟨st', h1, h2⟩ := accepts_cons.1 h
  have hst : nc.start '!' = false := by rw [nc.start_ascii _ (by decide)]; decide
  have hst2 : nc.start '?' = false := by rw [nc.start_ascii _ (by decide)]; decide
  have hch2 : nc.char '?' = false := by rw [nc.char_ascii _ (by decide)]; decide
  rcases hc with ⟨rfl, s', rfl⟩ | rfl
  · have hm : nc.marks = true := by
      by_contra hm
      simp [step, hst, hm] at h1
    simp [step, hst, hm] at h1
    subst h1
    obtain ⟨_, h3, h4⟩ := accepts_cons.1 h2
    cases h3
    cases s' with
    | nil => have h := accepts_nil.1 h4; simp [finish] at h
    | cons c s' =>
      obtain ⟨_, h5, h6⟩ := accepts_cons.1 h4
      simp only [step] at h5
      split at h5
      · next hd =>
        subst hd
        cases h5
        obtain ⟨fin, h7, h8⟩ := h6
        obtain ⟨b, r, g1, g2, g3, g4⟩ := comment_end h8 s' 0 (by omega) h7
        have g1 : s' = b ++ "-->".toList ++ r := g1
        subst g1
        exact ⟨"<!--".toList ++ b ++ "-->".toList, r, by simp, by simp; omega, hm, .comment b g2 g3, fin, g4, h8⟩
      · cases h5
  · have hm : nc.marks = true := by
      by_contra hm
      simp [step, hst2, hm] at h1
    simp [step, hst2, hm] at h1
    subst h1
    cases s with
    | nil => have h := accepts_nil.1 h2; simp [finish] at h
    | cons c s =>
      obtain ⟨_, h3, h4⟩ := accepts_cons.1 h2
      simp only [step, if_true, true_or] at h3
      split at h3
      · next hcs =>
        cases h3
        obtain ⟨x, d, r, st', hx, rfl, hd, h5, h6⟩ := scan' (mk := fun a => .target (a ++ [c])) (p := nc.char) (fun a c hc => by simp [step, hc]) (by simp) s [] h4
        have hn : XmlName nc (c :: x) := ⟨c, x, rfl, hcs, hx⟩
        simp only [step, hd, List.append_nil] at h5
        rw [if_neg (by simp)] at h5
        split at h5
        · cases h5
        · next hno =>
          have hres : c :: x ∉ reservedTargets := by
            intro h
            refine hno (.inr ?_)
            have hall : ∀ n ∈ reservedTargets, reserved n = true := by decide
            simpa using hall _ h
          split at h5
          · next hsp =>
            cases h5
            obtain ⟨fin, h7, h8⟩ := h6
            obtain ⟨b, r', g1, g2, g3⟩ := inst_end h8 r false h7
            have g1 : r = b ++ "?>".toList ++ r' := g1
            subst g1
            exact ⟨"<?".toList ++ (c :: x) ++ d :: b ++ "?>".toList, r', by simp, by simp; omega, hm, .inst _ b d hn hres (white_cons hsp blank_nil) g2, fin, g3, h8⟩
          · split at h5
            · next hq =>
              cases h5
              subst hq
              cases r with
              | nil => have h := accepts_nil.1 h6; simp [finish] at h
              | cons y r =>
                obtain ⟨_, h7, h8⟩ := accepts_cons.1 h6
                simp only [step] at h7
                split at h7
                · next hy =>
                  cases h7
                  subst hy
                  exact ⟨"<?".toList ++ (c :: x) ++ "?>".toList, r, by simp, by simp; omega, hm, .short _ hn hres, h8⟩
                · cases h7
            · cases h5
      · cases h3

theorem cdata_sound {nc : NameChars} {stk : List Frame} {root : Option El} {e : El} {s : Str} (h : Accepts nc ⟨stk, root, .lt⟩ ('!' :: '[' :: s) e) :
    ∃ b rest f l, '[' :: s = "[CDATA[".toList ++ b ++ "]]>".toList ++ rest ∧ nc.marks = true ∧ ¬ "]]>".toList <:+: b ∧ stk = f :: l ∧ Accepts nc ⟨f.addText b :: l, root, .content []⟩ rest e := by
  obtain ⟨st', h1, h2⟩ := accepts_cons.1 h
  have hst : nc.start '!' = false := by rw [nc.start_ascii _ (by decide)]; decide
  have hm : nc.marks = true := by
    by_contra hm
    simp [step, hst, hm] at h1
  simp [step, hst, hm] at h1
  subst h1
  obtain ⟨_, h3, h4⟩ := accepts_cons.1 h2
  cases h3
  obtain ⟨fin, h5, h6⟩ := h4
  obtain ⟨r, rfl, h7⟩ := section_end h6 s _ (by decide) h5
  obtain ⟨b, r', f, l, g1, g2, g3, g4⟩ := cdata_end h6 r [] (by decide) h7
  have g1 : r = b ++ "]]>".toList ++ r' := g1
  subst g1
  exact ⟨b, r', f, l, by simp, hm, g2, g3, fin, g4, h6⟩

/-- what may follow `<` -/
theorem lt_sound {nc : NameChars} {stk : List Frame} {root : Option El} {e : El} {s : Str} (h : Accepts nc ⟨stk, root, .lt⟩ s e) :
    (∃ r, s = '/' :: r ∧ Accepts nc ⟨stk, root, .cname []⟩ r e) ∨ (∃ c r, s = c :: r ∧ nc.start c = true ∧ Accepts nc ⟨stk, root, .name [c]⟩ r e) ∨
      (∃ c r, s = c :: r ∧ (c = '!' ∧ (∃ s', r = '-' :: s') ∨ c = '?')) ∨ ∃ r, s = '!' :: '[' :: r := by
  cases s with
  | nil => have h := accepts_nil.1 h; simp [finish] at h
  | cons c s =>
    obtain ⟨st', h1, h2⟩ := accepts_cons.1 h
    simp only [step] at h1
    split at h1
    · next hc => subst hc; cases h1; exact .inl ⟨s, rfl, h2⟩
    split at h1
    · next hc => cases h1; exact .inr (.inl ⟨c, s, rfl, hc, h2⟩)
    split at h1
    · next hc =>
      cases h1
      simp only [Bool.and_eq_true, beq_iff_eq] at hc
      obtain ⟨_, rfl⟩ := hc
      cases s with
      | nil => have h := accepts_nil.1 h2; simp [finish] at h
      | cons d s =>
        obtain ⟨_, h3, _⟩ := accepts_cons.1 h2
        simp only [step] at h3
        split at h3
        · next hd => subst hd; exact .inr (.inr (.inl ⟨'!', _, rfl, .inl ⟨rfl, _, rfl⟩⟩))
        split at h3
        · next hd => subst hd; exact .inr (.inr (.inr ⟨_, rfl⟩))
        · cases h3
    split at h1
    · next hc =>
      simp only [Bool.and_eq_true, beq_iff_eq] at hc
      exact .inr (.inr (.inl ⟨c, s, rfl, .inr hc.2⟩))
    · cases h1

theorem close_sound {nc : NameChars} {f : Frame} {stk : List Frame} {root : Option El} {e : El} {s : Str} (h : Accepts nc ⟨f :: stk, root, .cname []⟩ s e) :
    ∃ w rest, s = f.name ++ (w ++ '>' :: rest) ∧ White w ∧ Accepts nc (place (.mk f.name f.attrs f.text f.kids.reverse []) stk root) rest e := by
  have hcl : ∀ {n st'}, closeEl (f :: stk) root n = some st' → f.name = n ∧ st' = place (.mk f.name f.attrs f.text f.kids.reverse []) stk root := by
    intro n st' h
    simp only [closeEl] at h
    split at h
    · next hn =>
      cases stk with
      | nil => exact ⟨hn, (Option.some.inj h).symm⟩
      | cons g l => exact ⟨hn, (Option.some.inj h).symm⟩
    · cases h
  obtain ⟨x, c, r, st', hx, rfl, hc, h1, h2⟩ := scan' (mk := fun a => .cname a) (p := nc.char) (fun a c hc => by simp [step, hc]) (by simp) s [] h
  simp only [step, hc, Bool.false_eq_true, if_false, List.append_nil, List.reverse_reverse] at h1
  by_cases hs : xmlSpace c = true
  · rw [if_pos hs] at h1
    cases h1
    obtain ⟨w, d, r', st', hw, rfl, hd, h3, h4⟩ := scan' (mk := fun _ => .cend x) (p := xmlSpace) (fun a c hc => by simp [step, hc]) (by simp) r [] h2
    simp only [step, hd, Bool.false_eq_true, if_false] at h3
    split at h3
    · next he =>
      subst he
      obtain ⟨g1, rfl⟩ := hcl h3
      exact ⟨c :: w, r', by simp [g1], white_cons hs (white_of hw), h4⟩
    · cases h3
  · rw [if_neg hs] at h1
    split at h1
    · next he =>
      subst he
      obtain ⟨g1, rfl⟩ := hcl h1
      exact ⟨[], r, by simp [g1], blank_nil, h2⟩
    · cases h1

/-- character data in an element -/
theorem chars_sound {nc : NameChars} {f : Frame} {stk : List Frame} {root : Option El} {e : El} {s : Str} (h : Accepts nc ⟨f :: stk, root, .content []⟩ s e) :
    ∃ raw t r, s = raw ++ '<' :: r ∧ CharData raw t ∧ Accepts nc ⟨f.addText t :: stk, root, .lt⟩ r e := by
  obtain ⟨x, hx, ⟨_, h⟩ | ⟨c, r, st', rfl, hc, h1, h2⟩⟩ := scan (mk := fun a => .content a) (p := fun c => c != '<') (fun a c hc => by
    simp only [bne_iff_ne] at hc
    simp [step, hc]) s [] h
  · simp [finish] at h
  · have hc : c = '<' := by simpa using hc
    subst hc
    simp only [step, if_true, flush, List.append_nil, List.reverse_reverse] at h1
    obtain ⟨l, hl, rfl⟩ := Option.map_eq_some_iff.1 h1
    obtain ⟨t, ht, rfl⟩ := Option.map_eq_some_iff.1 hl
    exact ⟨x, t, r, rfl, (charData_iff _ _).2 ⟨fun hm => by have := hx _ hm; simp at this, ht⟩, h2⟩

theorem content_sound {nc : NameChars} {e : El} (k : Nat) : ∀ (s : Str) (f : Frame) (stk : List Frame) (root : Option El), s.length ≤ k → Accepts nc ⟨f :: stk, root, .content []⟩ s e →
    ∃ c t kids w rest, s = c ++ '<' :: '/' :: (f.name ++ (w ++ '>' :: rest)) ∧ White w ∧ Content nc c t kids ∧
      Accepts nc (place (.mk f.name f.attrs (fill f t kids).text (fill f t kids).kids.reverse []) stk root) rest e := by
  have hname : ∀ (t : Str) (f : Frame), (f.addText t).name = f.name ∧ (f.addText t).attrs = f.attrs := by
    intro t f
    unfold Frame.addText
    split <;> exact ⟨rfl, rfl⟩
  induction k with
  | zero =>
    intro s f stk root hk h
    have : s = [] := List.length_eq_zero_iff.1 (Nat.le_zero.1 hk)
    subst this
    have h := accepts_nil.1 h
    simp [finish] at h
  | succ k ih =>
    intro s f stk root hk h
    obtain ⟨raw, t, r, rfl, hcd, h1⟩ := chars_sound h
    have hk1 : r.length ≤ k := by simp at hk; omega
    rcases lt_sound h1 with ⟨r1, rfl, h2⟩ | ⟨c, r1, rfl, hc, h2⟩ | ⟨c, r1, rfl, hc⟩ | ⟨r1, rfl⟩
    · obtain ⟨w, rest, rfl, hw, h3⟩ := close_sound h2
      rw [(hname t f).1, (hname t f).2] at h3
      exact ⟨raw, t, [], w, rest, by rw [(hname t f).1], hw, .chars hcd, h3⟩
    · obtain ⟨n, a, bs, sc, rest, g1, g2, g3, g4, st', g5, g6⟩ := start_sound hc h2
      have hlen : rest.length ≤ k := by simp at hk1; omega
      -- the element, and what is behind it
      have hel : ∃ s0 e0 rest', '<' :: c :: r1 = s0 ++ rest' ∧ rest'.length ≤ rest.length ∧ Element nc s0 e0 ∧ Accepts nc (place e0 (f.addText t :: stk) root) rest' e := by
        cases sc with
        | true =>
          simp only [openEl, List.isEmpty_cons, Bool.false_and, Bool.false_eq_true, if_false, Option.bind_some, closeEl, if_true, List.reverse_nil, Option.some.injEq] at g5
          subst g5
          exact ⟨'<' :: n ++ a ++ ['/', '>'], .mk n bs [] [] [], rest, by rw [g1]; simp, Nat.le_refl _, .empty g3 g4, g6⟩
        | false =>
          simp only [openEl, List.isEmpty_cons, Bool.false_and, Bool.false_eq_true, if_false, Option.bind_some, Option.some.injEq] at g5
          subst g5
          obtain ⟨c0, t0, kids0, w, rest', rfl, hw, hcont, h4⟩ := ih rest _ _ _ hlen g6
          rw [fill_new] at h4
          refine ⟨'<' :: n ++ a ++ '>' :: c0 ++ '<' :: '/' :: n ++ w ++ ['>'], .mk n bs t0 kids0 [], rest', by rw [g1]; simp, ?_, .full g3 g4 hcont hw, by simpa using h4⟩
          simp only [List.length_append, List.length_cons]
          omega
      obtain ⟨s0, e0, rest', q1, q2, q3, q4⟩ := hel
      obtain ⟨c1, t1, kids1, w1, rest1, q5, q6, q7, q8⟩ := ih rest' _ _ _ (Nat.le_trans q2 hlen) q4
      rw [← fill_cons q3] at q8
      simp only [(hname t f).1, (hname t f).2] at q5 q8
      refine ⟨raw ++ s0 ++ c1, t, e0.withTail t1 :: kids1, w1, rest1, ?_, q6, .element hcd q3 q7, q8⟩
      rw [q1, q5]; simp
    · obtain ⟨m, rest, g1, g2, g3, g4, g5⟩ := aside_sound hc h1
      obtain ⟨c1, t1, kids1, w1, rest1, q5, q6, q7, q8⟩ := ih rest _ _ _ (by simp at hk1; omega) g5
      rw [fill_addText] at q8
      simp only [(hname t f).1, (hname t f).2] at q5 q8
      refine ⟨raw ++ m ++ c1, t ++ t1, kids1, w1, rest1, ?_, q6, .aside g3 hcd g4 q7, q8⟩
      rw [g1, q5]; simp
    · obtain ⟨b, rest, f', l', g1, g2, g3, g4, g5⟩ := cdata_sound h1
      injection g4 with g6 g7
      subst g6 g7
      have hlen : rest.length ≤ k := by
        have := congrArg List.length g1
        simp at this hk1
        omega
      obtain ⟨c1, t1, kids1, w1, rest1, q5, q6, q7, q8⟩ := ih rest _ _ _ hlen g5
      rw [fill_addText, fill_addText, ← List.append_assoc] at q8
      simp only [(hname b _).1, (hname b _).2, (hname t f).1, (hname t f).2] at q5 q8
      refine ⟨raw ++ "<![CDATA[".toList ++ b ++ "]]>".toList ++ c1, t ++ b ++ t1, kids1, w1, rest1, ?_, q6, .cdata g2 hcd g3 q7, q8⟩
      rw [g1, q5]; simp

/-- after the root element -/
theorem end_sound {nc : NameChars} {e e0 : El} (k : Nat) : ∀ s : Str, s.length ≤ k → Accepts nc ⟨[], some e0, .content []⟩ s e → Misc nc s ∧ e0 = e := by
  induction k with
  | zero =>
    intro s hk h
    have : s = [] := List.length_eq_zero_iff.1 (Nat.le_zero.1 hk)
    subst this
    have h := accepts_nil.1 h
    simp [finish] at h
    exact ⟨.blank blank_nil, h⟩
  | succ k ih =>
    intro s hk h
    obtain ⟨x, hx, ⟨rfl, h⟩ | ⟨c, r, st', rfl, hc, h1, h2⟩⟩ := scan (mk := fun a => .content a) (p := fun c => c != '<') (fun a c hc => by
      simp only [bne_iff_ne] at hc
      simp [step, hc]) s [] h
    · simp only [finish, List.append_nil, List.all_reverse] at h
      split at h
      · next hw => exact ⟨.blank ((blank_iff _).2 hw), Option.some.inj h⟩
      · cases h
    · have hc : c = '<' := by simpa using hc
      subst hc
      simp only [step, if_true, flush, List.append_nil, List.all_reverse] at h1
      split at h1
      · next hw =>
        simp only [Option.map_some, Option.some.injEq] at h1
        subst h1
        have hk1 : r.length ≤ k := by simp at hk; omega
        rcases lt_sound h2 with ⟨r1, rfl, h3⟩ | ⟨c, r1, rfl, hc, h3⟩ | ⟨c, r1, rfl, hc⟩ | ⟨r1, rfl⟩
        · exfalso
          obtain ⟨x, c, r, st', hx, rfl, hc, h4, h5⟩ := scan' (mk := fun a => .cname a) (p := nc.char) (fun a c hc => by simp [step, hc]) (by simp) _ [] h3
          simp only [step, hc, Bool.false_eq_true, if_false, List.append_nil, List.reverse_reverse] at h4
          split at h4
          · cases h4
            obtain ⟨w, d, r', st', hw, rfl, hd, h6, h7⟩ := scan' (mk := fun _ => .cend x) (p := xmlSpace) (fun a c hc => by simp [step, hc]) (by simp) r [] h5
            simp [step, hd, closeEl] at h6
          · simp [closeEl] at h4
        · exfalso
          obtain ⟨n, a, bs, sc, rest, g1, g2, g3, g4, st', g5, g6⟩ := start_sound hc h3
          simp [openEl] at g5
        · obtain ⟨m, rest, g1, g2, g3, g4, g5⟩ := aside_sound hc h2
          obtain ⟨q1, q2⟩ := ih rest (by simp at hk1; omega) g5
          refine ⟨?_, q2⟩
          rw [g1, ← List.append_assoc]
          exact .aside g3 ((blank_iff _).2 hw) g4 q1
        · obtain ⟨b, rest, f', l', g1, g2, g3, g4, g5⟩ := cdata_sound h2
          cases g4
      · cases h1

/-- only well-formed files are accepted -/
theorem grammar_sound {nc : NameChars} {e : El} (k : Nat) : ∀ s : Str, s.length ≤ k → Accepts nc ⟨[], none, .content []⟩ s e →
    ∃ m1 r m2, s = m1 ++ r ++ m2 ∧ Misc nc m1 ∧ Element nc r e ∧ Misc nc m2 := by
  induction k with
  | zero =>
    intro s hk h
    have : s = [] := List.length_eq_zero_iff.1 (Nat.le_zero.1 hk)
    subst this
    have h := accepts_nil.1 h
    simp [finish] at h
  | succ k ih =>
    intro s hk h
    obtain ⟨x, hx, ⟨rfl, h⟩ | ⟨c, r, st', rfl, hc, h1, h2⟩⟩ := scan (mk := fun a => .content a) (p := fun c => c != '<') (fun a c hc => by
      simp only [bne_iff_ne] at hc
      simp [step, hc]) s [] h
    · simp [finish] at h
    · have hc : c = '<' := by simpa using hc
      subst hc
      simp only [step, if_true, flush, List.append_nil, List.all_reverse] at h1
      split at h1
      · next hw =>
        have hw := (blank_iff _).2 hw
        simp only [Option.map_some, Option.some.injEq] at h1
        subst h1
        have hk1 : r.length ≤ k := by simp at hk; omega
        rcases lt_sound h2 with ⟨r1, rfl, h3⟩ | ⟨c, r1, rfl, hc, h3⟩ | ⟨c, r1, rfl, hc⟩ | ⟨r1, rfl⟩
        · exfalso
          obtain ⟨x, c, r, st', hx, rfl, hc, h4, h5⟩ := scan' (mk := fun a => .cname a) (p := nc.char) (fun a c hc => by simp [step, hc]) (by simp) _ [] h3
          simp only [step, hc, Bool.false_eq_true, if_false, List.append_nil, List.reverse_reverse] at h4
          split at h4
          · cases h4
            obtain ⟨w, d, r', st', hw, rfl, hd, h6, h7⟩ := scan' (mk := fun _ => .cend x) (p := xmlSpace) (fun a c hc => by simp [step, hc]) (by simp) r [] h5
            simp [step, hd, closeEl] at h6
          · simp [closeEl] at h4
        · obtain ⟨n, a, bs, sc, rest, g1, g2, g3, g4, st', g5, g6⟩ := start_sound hc h3
          cases sc with
          | true =>
            simp [openEl, closeEl] at g5
            subst g5
            obtain ⟨q1, rfl⟩ := end_sound rest.length rest (Nat.le_refl _) g6
            exact ⟨x, '<' :: n ++ a ++ ['/', '>'], rest, by rw [g1]; simp, .blank hw, .empty g3 g4, q1⟩
          | false =>
            simp [openEl] at g5
            subst g5
            obtain ⟨c0, t0, kids0, w, rest', rfl, hw', hcont, h4⟩ := content_sound rest.length rest _ _ _ (Nat.le_refl _) g6
            rw [fill_new] at h4
            obtain ⟨q1, rfl⟩ := end_sound rest'.length rest' (Nat.le_refl _) h4
            refine ⟨x, '<' :: n ++ a ++ '>' :: c0 ++ '<' :: '/' :: n ++ w ++ ['>'], rest', by rw [g1]; simp, .blank hw, ?_, q1⟩
            have := Element.full g3 g4 hcont hw'
            simpa using this
        · obtain ⟨m, rest, g1, g2, g3, g4, g5⟩ := aside_sound hc h2
          obtain ⟨m1, r', m2, q1, q2, q3⟩ := ih rest (by simp at hk1; omega) g5
          refine ⟨x ++ m ++ m1, r', m2, ?_, .aside g3 hw g4 q2, q3⟩
          rw [g1, q1]; simp
        · obtain ⟨b, rest, f', l', g1, g2, g3, g4, g5⟩ := cdata_sound h2
          cases g4
      · cases h1

end Verif.Lemmas
