import Verif.Lemmas.Marks
import Verif.Lemmas.Names
/-!
# A file and the file without its comments, processing instructions and CDATA sections
-/
namespace Verif.Lemmas
open Verif Verif.Model Verif.Spec

theorem run_lt {nc : NameChars} {st fin : PState} {s : Str} (h : run nc st ('<' :: s) = some fin) (hs : TagMode st.mode ∨ ∃ raw, st.mode = .content raw) :
    ∃ raw l, st.mode = .content raw ∧ flush st raw = some l ∧ run nc ⟨l, st.root, .lt⟩ s = some fin := by
  rw [run_cons] at h
  rcases hs with hs | ⟨raw, hr⟩
  · rw [step_lt_tag hs] at h; cases h
  · obtain ⟨st1, h1, h2⟩ := Option.bind_eq_some_iff.1 h
    unfold step at h1
    simp only [hr] at h1
    rw [if_pos trivial] at h1
    obtain ⟨l, hl, rfl⟩ := Option.map_eq_some_iff.1 h1
    exact ⟨raw, l, hr, hl, h2⟩

theorem Sim.modes {st st' : PState} (h : Sim st st') : TagMode st.mode ∨ ∃ raw, st.mode = .content raw := by
  cases h with
  | same _ hm => exact .inl hm
  | inside => exact .inr ⟨_, rfl⟩
  | top => exact .inr ⟨_, rfl⟩

/-- the end of a text -/
theorem flush_sim {st st' : PState} {raw : Str} {l : List Frame} (hs : Sim st st') (hr : st.mode = .content raw) (hf : flush st raw = some l) :
    st'.root = st.root ∧ ∃ raw', st'.mode = .content raw' ∧ (¬ "]]>".toList <:+: raw'.reverse → flush st' raw' = some l) ∧
      Sim ⟨l, st.root, .content []⟩ st' ∧
      ∀ b : Str, ∀ f r, l = f :: r → Sim ⟨f.addText b :: r, st.root, .content []⟩ ⟨st'.stack, st'.root, .content ((b.flatMap outside).reverse ++ raw')⟩ := by
  cases hs with
  | same _ hm => rw [hr] at hm; exact hm.elim
  | inside f k root pre u raw0 hu =>
    cases hr
    obtain ⟨v, hv, rfl⟩ := Option.map_eq_some_iff.1 hf
    have hd : decodeGo id none (pre ++ raw.reverse) = some (u ++ v) := by
      rw [decodeGo_append none hu, decodeText_go hv]; rfl
    have he : (raw ++ pre.reverse).reverse = pre ++ raw.reverse := by simp
    have hb : ∀ b : Str, decodeGo id none (b.flatMap outside) = some b := by
      intro b
      have := decode_flatMap (v := id) decode_escEt b
      rw [List.map_id] at this
      exact this
    refine ⟨rfl, _, rfl, ?_, ?_, ?_⟩
    · intro hn
      rw [he] at hn
      show (decodeText (raw ++ pre.reverse).reverse).map _ = _
      rw [he, decodeText, if_neg (fun h => hn (hasCdataEnd_infix h)), hd, Option.map_some, addText_addText]
    · have := Sim.inside f k root (pre ++ raw.reverse) (u ++ v) [] hd
      rw [addText_addText]
      simpa using this
    · intro b f' r' hl
      cases hl
      have h3 : decodeGo id none ((pre ++ raw.reverse) ++ b.flatMap outside) = some ((u ++ v) ++ b) := by
        rw [decodeGo_append none hd, hb]; rfl
      have := Sim.inside f k root _ _ [] h3
      rw [addText_addText, addText_addText, ← List.append_assoc]
      simpa using this
  | top root pre raw0 hp =>
    cases hr
    have hw : raw.all xmlSpace = true ∧ l = [] := by
      unfold flush at hf
      simp only at hf
      split at hf
      · cases hf; exact ⟨‹_›, rfl⟩
      · cases hf
    obtain ⟨hw, rfl⟩ := hw
    refine ⟨rfl, _, rfl, ?_, ?_, ?_⟩
    · intro _
      unfold flush
      simp only [List.all_append, List.all_reverse, hw, hp, Bool.and_self, if_true]
    · have := Sim.top root (pre ++ raw.reverse) [] (by simp only [List.all_append, List.all_reverse, hw, hp, Bool.and_self])
      simpa using this
    · intro b f r hl; cases hl

theorem outside_lt (b : Str) : '<' ∉ b.flatMap outside := by
  intro h
  obtain ⟨c, _, hc⟩ := List.mem_flatMap.1 h
  unfold outside at hc
  split at hc
  · revert hc; decide
  · split at hc
    · revert hc; decide
    · split at hc
      · revert hc; decide
      · next h _ => simp only [List.mem_singleton] at hc; exact h hc.symm

theorem strip_run {nc : NameChars} (hm : nc.marks = true) {s t : Str} (h : Stripped s t) : ∀ (st st' fin : PState) (e : El), Sim st st' → st.mode ≠ .lt →
    ¬ "]]>".toList <:+: (pending st' ++ t) → run nc st s = some fin → finish fin = some e →
    ∃ fin', run nc.plain st' t = some fin' ∧ finish fin' = some e := by
  induction h with
  | nil =>
    intro st st' fin e hs _ _ h hf
    cases h
    refine ⟨st', rfl, ?_⟩
    cases hs with
    | same => exact hf
    | inside => cases hf
    | top root pre raw hp =>
      cases root with
      | none => cases hf
      | some r =>
        have hf' : (if raw.all xmlSpace then some r else none) = some e := hf
        split at hf'
        · next hr =>
          show (if (raw ++ pre.reverse).all xmlSpace then some r else none) = some e
          rw [if_pos (by simp only [List.all_append, List.all_reverse, hr, hp, Bool.and_self])]
          exact hf'
        · cases hf'
  | char c s t hc _ ih =>
    intro st st' fin e hs hl hn h hf
    rw [run_cons] at h
    obtain ⟨st1, h1, h2⟩ := Option.bind_eq_some_iff.1 h
    cases hs with
    | same _ htag =>
      obtain ⟨g1, g2, g3, g4⟩ := step_tag htag (fun h => absurd h hl) h1
      have hp : ¬ "]]>".toList <:+: (pending st1 ++ t) := by
        have : pending st1 = [] := by
          unfold pending
          rcases g4 with h | h
          · rw [h]; rfl
          · cases hm : st1.mode <;> rw [hm] at h <;> exact h.elim
        rw [this]
        intro hi
        exact hn (hi.trans ⟨pending st ++ [c], [], by simp⟩)
      obtain ⟨fin', r1, r2⟩ := ih st1 st1 fin e g2 g3 hp h2 hf
      exact ⟨fin', by rw [run_cons, g1]; exact r1, r2⟩
    | inside f l root pre u raw hu =>
      have e1 : st1 = ⟨f.addText u :: l, root, .content (c :: raw)⟩ := by
        simp only [step] at h1
        rw [if_neg hc] at h1
        exact (Option.some.inj h1).symm
      subst e1
      have hp : ¬ "]]>".toList <:+: (pending ⟨f :: l, root, .content (c :: raw ++ pre.reverse)⟩ ++ t) := by
        intro hi; refine hn ?_; simpa [pending] using hi
      obtain ⟨fin', r1, r2⟩ := ih _ _ fin e (.inside f l root pre u (c :: raw) hu) (fun h => by cases h) hp h2 hf
      refine ⟨fin', ?_, r2⟩
      rw [run_cons]
      have : step nc.plain ⟨f :: l, root, .content (raw ++ pre.reverse)⟩ c = some ⟨f :: l, root, .content (c :: (raw ++ pre.reverse))⟩ := by
        simp only [step]; rw [if_neg hc]
      rw [this]
      exact r1
    | top root pre raw hu =>
      have e1 : st1 = ⟨[], root, .content (c :: raw)⟩ := by
        simp only [step] at h1
        rw [if_neg hc] at h1
        exact (Option.some.inj h1).symm
      subst e1
      have hp : ¬ "]]>".toList <:+: (pending ⟨[], root, .content (c :: raw ++ pre.reverse)⟩ ++ t) := by
        intro hi; refine hn ?_; simpa [pending] using hi
      obtain ⟨fin', r1, r2⟩ := ih _ _ fin e (.top root pre (c :: raw) hu) (fun h => by cases h) hp h2 hf
      refine ⟨fin', ?_, r2⟩
      rw [run_cons]
      have : step nc.plain ⟨[], root, .content (raw ++ pre.reverse)⟩ c = some ⟨[], root, .content (c :: (raw ++ pre.reverse))⟩ := by
        simp only [step]; rw [if_neg hc]
      rw [this]
      exact r1
  | tag c s t h1 h2 h3 _ ih =>
    intro st st' fin e hs hl hn h hf
    obtain ⟨raw, l, hr, hfl, h⟩ := run_lt h hs.modes
    obtain ⟨hroot, raw', hr', hfl', _, _⟩ := flush_sim hs hr hfl
    have hpend : pending st' = raw'.reverse := by rw [pending, hr']
    have hn' : ¬ "]]>".toList <:+: raw'.reverse := by
      intro hi
      rw [hpend] at hn
      exact hn (hi.trans ⟨[], '<' :: c :: t, by simp⟩)
    have hfl' := hfl' hn'
    rw [run_cons] at h
    obtain ⟨st1, g, h⟩ := Option.bind_eq_some_iff.1 h
    obtain ⟨g1, g2, g3, g4⟩ := step_tag (st := ⟨l, st.root, .lt⟩) trivial (fun _ => ⟨h1, h2⟩) g
    have hp : ¬ "]]>".toList <:+: (pending st1 ++ t) := by
      have : pending st1 = [] := by
        unfold pending
        rcases g4 with h | h
        · rw [h]; rfl
        · cases hm : st1.mode <;> rw [hm] at h <;> exact h.elim
      rw [this]
      intro hi
      exact hn (hi.trans ⟨pending st' ++ ['<', c], [], by simp⟩)
    obtain ⟨fin', r1, r2⟩ := ih st1 st1 fin e g2 g3 hp h hf
    refine ⟨fin', ?_, r2⟩
    have e1 : step nc.plain st' '<' = some ⟨l, st.root, .lt⟩ := by
      unfold step
      simp only [hr']
      rw [if_pos trivial, hfl', hroot]
      rfl
    rw [run_cons, e1, Option.bind_some, run_cons, g1]
    exact r1
  | comment b s t h1 h2 _ ih =>
    intro st st' fin e hs hl hn h hf
    have e0 : "<!--".toList ++ b ++ "-->".toList ++ s = '<' :: ("!--".toList ++ b ++ "-->".toList ++ s) := rfl
    rw [e0] at h
    obtain ⟨raw, l, hr, hfl, h⟩ := run_lt h hs.modes
    rw [run_whole_comment hm _ _ _ h1 h2] at h
    obtain ⟨hroot, raw', hr', _, hsim, _⟩ := flush_sim hs hr hfl
    exact ih _ st' fin e hsim (fun h => by cases h) hn h hf
  | inst b s t h1 _ ih =>
    intro st st' fin e hs hl hn h hf
    have e0 : "<?".toList ++ b ++ "?>".toList ++ s = '<' :: '?' :: (b ++ "?>".toList ++ s) := rfl
    rw [e0] at h
    obtain ⟨raw, l, hr, hfl, h⟩ := run_lt h hs.modes
    rw [run_cons, step_question hm] at h
    have h := run_target l st.root s b [] h1 h
    obtain ⟨hroot, raw', hr', _, hsim, _⟩ := flush_sim hs hr hfl
    exact ih _ st' fin e hsim (fun h => by cases h) hn h hf
  | cdata b s t h1 _ ih =>
    intro st st' fin e hs hl hn h hf
    have e0 : "<![CDATA[".toList ++ b ++ "]]>".toList ++ s = '<' :: ("![CDATA[".toList ++ (b ++ "]]>".toList ++ s)) := by
      simp only [List.append_assoc]; rfl
    rw [e0] at h
    obtain ⟨raw, l, hr, hfl, h⟩ := run_lt h hs.modes
    rw [run_section hm, run_cdata _ _ _ _ _ _ (by simpa using h1)] at h
    obtain ⟨hroot, raw', hr', _, _, hsim⟩ := flush_sim hs hr hfl
    cases l with
    | nil => cases h
    | cons f r =>
      have h : run nc ⟨f.addText b :: r, st.root, .content []⟩ s = some fin := h
      have hpend : pending st' = raw'.reverse := by rw [pending, hr']
      obtain ⟨fin', r1, r2⟩ := ih _ _ fin e (hsim b f r rfl) (fun h => by cases h) (by
        intro hi
        refine hn ?_
        rw [hpend]
        simpa [pending] using hi) h hf
      refine ⟨fin', ?_, r2⟩
      obtain ⟨stk', root', mode'⟩ := st'
      cases hr'
      rw [run_content (outside_lt b)]
      exact r1

/-! ### Every file that is read has such a form -/

theorem infix_cons_iff' {p : Str} {c : Char} {b : Str} : p <:+: c :: b ↔ p <+: c :: b ∨ p <:+: b := List.infix_cons_iff

theorem not_infix_cons {x y c : Char} {b : Str} (h : ¬ [x, y] <:+: b) (hc : c = x → b.head? ≠ some y) : ¬ [x, y] <:+: c :: b := by
  rw [infix_cons_iff']
  rintro (h1 | h1)
  · obtain ⟨r, hr⟩ := h1
    cases hr
    exact hc rfl rfl
  · exact h h1

theorem comment_end {nc : NameChars} {stk : List Frame} {root : Option El} {fin : PState} {e : El} (hf : finish fin = some e) : ∀ (s : Str) (k : Nat), k ≤ 2 →
    run nc ⟨stk, root, .comment k⟩ s = some fin → ∃ b r, List.replicate k '-' ++ s = b ++ "-->".toList ++ r ∧ ¬ "--".toList <:+: b ∧
      b.getLast? ≠ some '-' ∧ run nc ⟨stk, root, .content []⟩ r = some fin := by
  intro s
  induction s with
  | nil =>
    intro k _ h
    cases h
    unfold finish at hf
    split at hf
    · next h => cases h
    · cases hf
  | cons c s ih =>
    intro k hk h
    rw [run_cons] at h
    simp only [step] at h
    by_cases h2 : k = 2
    · rw [if_pos h2] at h
      subst h2
      by_cases hc : c = '>'
      · rw [if_pos hc] at h
        subst hc
        exact ⟨[], s, rfl, by decide, by simp, h⟩
      · rw [if_neg hc] at h; cases h
    · rw [if_neg h2] at h
      by_cases hc : c = '-'
      · rw [if_pos hc] at h
        obtain ⟨b, r, g1, g2⟩ := ih (k + 1) (by omega) h
        refine ⟨b, r, ?_, g2⟩
        rw [← g1, hc, List.replicate_succ', List.append_assoc]
        rfl
      · rw [if_neg hc] at h
        obtain ⟨b, r, g1, g2, g3, g4⟩ := ih 0 (by omega) h
        have g1 : s = b ++ "-->".toList ++ r := g1
        have hcb : ¬ "--".toList <:+: c :: b := not_infix_cons (x := '-') (y := '-') g2 (fun h => absurd h hc)
        have hl : (c :: b).getLast? ≠ some '-' := by
          rw [List.getLast?_cons]
          cases hb : b.getLast? with
          | none => simpa using hc
          | some x =>
            intro h'
            rw [hb] at g3
            simp only [Option.getD_some] at h'
            exact g3 h'
        match k, hk, h2 with
        | 0, _, _ => exact ⟨c :: b, r, by rw [g1]; rfl, hcb, hl, g4⟩
        | 1, _, _ =>
          refine ⟨'-' :: c :: b, r, by rw [g1]; rfl, ?_, ?_, g4⟩
          · exact not_infix_cons (x := '-') (y := '-') hcb (fun _ h => hc (by simpa using h))
          · rw [List.getLast?_cons_cons]; exact hl
        | k + 2, hk, h2 => omega

theorem inst_end {nc : NameChars} {stk : List Frame} {root : Option El} {fin : PState} {e : El} (hf : finish fin = some e) : ∀ (s : Str) (q : Bool),
    run nc ⟨stk, root, .inst q⟩ s = some fin → ∃ b r, (if q then ['?'] else []) ++ s = b ++ "?>".toList ++ r ∧ ¬ "?>".toList <:+: b ∧
      run nc ⟨stk, root, .content []⟩ r = some fin := by
  intro s
  induction s with
  | nil =>
    intro q h
    cases h
    unfold finish at hf
    split at hf
    · next h => cases h
    · cases hf
  | cons c s ih =>
    intro q h
    rw [run_cons] at h
    simp only [step] at h
    by_cases hq : (q && c == '>') = true
    · rw [if_pos hq] at h
      simp only [Bool.and_eq_true, beq_iff_eq] at hq
      obtain ⟨rfl, rfl⟩ := hq
      exact ⟨[], s, rfl, by decide, h⟩
    · rw [if_neg hq] at h
      obtain ⟨b, r, g1, g2, g3⟩ := ih _ h
      by_cases hc : c = '?'
      · subst hc
        have g1 : '?' :: s = b ++ "?>".toList ++ r := g1
        cases q with
        | false => exact ⟨b, r, g1, g2, g3⟩
        | true =>
          refine ⟨'?' :: b, r, by rw [List.cons_append, List.cons_append, ← g1]; rfl, ?_, g3⟩
          refine not_infix_cons (x := '?') (y := '>') g2 fun _ hb => ?_
          cases b with
          | nil => cases hb
          | cons x b =>
            cases hb
            cases g1
      · have hcf : (c == '?') = false := by simpa using hc
        rw [hcf] at g1
        have g1 : s = b ++ "?>".toList ++ r := g1
        have hcb : ¬ "?>".toList <:+: c :: b := not_infix_cons (x := '?') (y := '>') g2 (fun h => absurd h hc)
        cases q with
        | false => exact ⟨c :: b, r, by rw [g1]; rfl, hcb, g3⟩
        | true =>
          refine ⟨'?' :: c :: b, r, by rw [g1]; rfl, ?_, g3⟩
          refine not_infix_cons (x := '?') (y := '>') hcb fun _ h => ?_
          cases h
          exact hq rfl

theorem target_end {nc : NameChars} {stk : List Frame} {root : Option El} {fin : PState} {e : El} (hf : finish fin = some e) : ∀ (s n : Str),
    run nc ⟨stk, root, .target n⟩ s = some fin → ∃ b r, s = b ++ "?>".toList ++ r ∧ ¬ "?>".toList <:+: b ∧
      run nc ⟨stk, root, .content []⟩ r = some fin := by
  intro s
  induction s with
  | nil =>
    intro q h
    cases h
    unfold finish at hf
    split at hf
    · next h => cases h
    · cases hf
  | cons c s ih =>
    intro n h
    have hq : nc.start '?' = false := by rw [nc.start_ascii _ (by decide)]; decide
    have hq2 : nc.char '?' = false := by rw [nc.char_ascii _ (by decide)]; decide
    rw [run_cons] at h
    simp only [step] at h
    by_cases h1 : (if n = [] then nc.start c else nc.char c) = true
    · rw [if_pos h1] at h
      obtain ⟨b, r, g1, g2, g3⟩ := ih _ h
      refine ⟨c :: b, r, by rw [g1]; rfl, ?_, g3⟩
      refine not_infix_cons (x := '?') (y := '>') g2 fun hc => ?_
      subst hc
      rw [hq, hq2, ite_self] at h1
      cases h1
    rw [if_neg h1] at h
    by_cases h2 : n = [] ∨ reserved n.reverse = true
    · rw [if_pos h2] at h; cases h
    rw [if_neg h2] at h
    by_cases h3 : xmlSpace c = true
    · rw [if_pos h3] at h
      obtain ⟨b, r, g1, g2, g3⟩ := inst_end hf s false h
      have g1 : s = b ++ "?>".toList ++ r := g1
      refine ⟨c :: b, r, by rw [g1]; rfl, ?_, g3⟩
      refine not_infix_cons (x := '?') (y := '>') g2 fun hc => ?_
      subst hc
      cases h3
    rw [if_neg h3] at h
    by_cases h4 : c = '?'
    · rw [if_pos h4] at h
      subst h4
      have h : run nc ⟨stk, root, .instEnd⟩ s = some fin := h
      cases s with
      | nil =>
        cases h
        unfold finish at hf
        split at hf
        · next h => cases h
        · cases hf
      | cons x s =>
        rw [run_cons] at h
        simp only [step] at h
        by_cases hx : x = '>'
        · rw [if_pos hx] at h
          subst hx
          exact ⟨[], s, rfl, by decide, h⟩
        · rw [if_neg hx] at h; cases h
    · rw [if_neg h4] at h; cases h

theorem cdata_end {nc : NameChars} {stk : List Frame} {root : Option El} {fin : PState} {e : El} (hf : finish fin = some e) : ∀ (s raw : Str),
    ¬ "]]>".toList <:+: raw.reverse → run nc ⟨stk, root, .cdata raw⟩ s = some fin →
    ∃ b r f l, raw.reverse ++ s = b ++ "]]>".toList ++ r ∧ ¬ "]]>".toList <:+: b ∧ stk = f :: l ∧
      run nc ⟨f.addText b :: l, root, .content []⟩ r = some fin := by
  intro s
  induction s with
  | nil =>
    intro q _ h
    cases h
    unfold finish at hf
    split at hf
    · next h => cases h
    · cases hf
  | cons c s ih =>
    intro raw hn h
    rw [run_cons] at h
    simp only [step] at h
    split at h
    · next t =>
      cases stk with
      | nil => cases h
      | cons f l =>
        refine ⟨t.reverse, s, f, l, by simp, ?_, rfl, h⟩
        intro hi
        exact hn (hi.trans ⟨[], [']', ']'], by simp⟩)
    · next hno =>
      obtain ⟨b, r, f, l, g1, g⟩ := ih (c :: raw) (by
        intro hi
        rw [List.reverse_cons, List.infix_concat_iff] at hi
        rcases hi with hi | hi
        · obtain ⟨x, hx⟩ := hi
          have hx' : (x ++ [']', ']']) ++ ['>'] = raw.reverse ++ [c] := by
            rw [← hx]; simp
          have := List.append_inj' hx' rfl
          obtain ⟨h1, h2⟩ := this
          cases h2
          have hr : raw = ']' :: ']' :: x.reverse := by
            have := congrArg List.reverse h1
            simpa using this.symm
          exact hno x.reverse rfl hr
        · exact hn hi) h
      exact ⟨b, r, f, l, by rw [← g1]; simp, g⟩

theorem section_end {nc : NameChars} {stk : List Frame} {root : Option El} {fin : PState} {e : El} (hf : finish fin = some e) : ∀ (s m : Str), m ≠ [] →
    run nc ⟨stk, root, .section m⟩ s = some fin → ∃ r, s = m ++ r ∧ run nc ⟨stk, root, .cdata []⟩ r = some fin := by
  intro s
  induction s with
  | nil =>
    intro q _ h
    cases h
    unfold finish at hf
    split at hf
    · next h => cases h
    · cases hf
  | cons c s ih =>
    intro m hm h
    rw [run_cons] at h
    simp only [step] at h
    split at h
    · cases h
    · split at h
      · next hc => subst hc; exact ⟨s, rfl, h⟩
      · cases h
    · next x y m =>
      split at h
      · next hc =>
        subst hc
        obtain ⟨r, g1, g2⟩ := ih _ (by simp) h
        exact ⟨r, by rw [g1]; rfl, g2⟩
      · cases h

theorem strip_exists {nc : NameChars} (n : Nat) : ∀ (s : Str), s.length ≤ n → ∀ (st fin : PState) (e : El), (TagMode st.mode ∨ ∃ raw, st.mode = .content raw) →
    st.mode ≠ .lt → run nc st s = some fin → finish fin = some e → ∃ t, Stripped s t := by
  induction n with
  | zero =>
    intro s hs
    rw [List.length_eq_zero_iff.1 (Nat.le_zero.1 hs)]
    intros; exact ⟨[], .nil⟩
  | succ n ih =>
    intro s hs st fin e hm hl h hf
    cases s with
    | nil => exact ⟨[], .nil⟩
    | cons c s =>
      have hs : s.length ≤ n := by simpa using hs
      by_cases hc : c = '<'
      · subst hc
        obtain ⟨raw, l, hr, hfl, h⟩ := run_lt h hm
        cases s with
        | nil =>
          cases h
          unfold finish at hf
          split at hf
          · next h => cases h
          · cases hf
        | cons c s =>
          have hs' : s.length ≤ n := by simp only [List.length_cons] at hs; omega
          have hc0 : ∀ r : Str, ∀ stk, r.length ≤ s.length → run nc ⟨stk, st.root, .content []⟩ r = some fin → ∃ t, Stripped r t :=
            fun r stk hr h => ih r (by omega) _ fin e (.inr ⟨[], rfl⟩) (fun h => by cases h) h hf
          rw [run_cons] at h
          by_cases h1 : c = '!'
          · subst h1
            have hb : run nc ⟨l, st.root, .bang⟩ s = some fin := by
              have h1 : nc.start '!' = false := by rw [nc.start_ascii _ (by decide)]; decide
              simp only [step, h1, Bool.false_eq_true, if_false, beq_self_eq_true, Bool.and_true] at h
              rw [if_neg (by decide)] at h
              cases hmk : nc.marks with
              | true => rw [hmk] at h; exact h
              | false =>
                rw [hmk] at h
                cases h
            cases s with
            | nil =>
              cases hb
              unfold finish at hf
              split at hf
              · next h => cases h
              · cases hf
            | cons c s =>
              rw [run_cons] at hb
              simp only [step] at hb
              by_cases h2 : c = '-'
              · rw [if_pos h2] at hb
                subst h2
                have hb : run nc ⟨l, st.root, .dash⟩ s = some fin := hb
                cases s with
                | nil =>
                  cases hb
                  unfold finish at hf
                  split at hf
                  · next h => cases h
                  · cases hf
                | cons c s =>
                  rw [run_cons] at hb
                  simp only [step] at hb
                  by_cases h3 : c = '-'
                  · rw [if_pos h3] at hb
                    subst h3
                    obtain ⟨b, r, g1, g2, g3, g4⟩ := comment_end hf s 0 (by omega) hb
                    have g1 : s = b ++ "-->".toList ++ r := g1
                    obtain ⟨t, ht⟩ := hc0 r _ (by rw [g1]; simp; omega) g4
                    exact ⟨t, by rw [g1]; exact .comment b r t g2 g3 ht⟩
                  · rw [if_neg h3] at hb; cases hb
              · rw [if_neg h2] at hb
                by_cases h3 : c = '['
                · rw [if_pos h3] at hb
                  subst h3
                  obtain ⟨r, g1, g2⟩ := section_end hf s _ (by decide) hb
                  obtain ⟨b, r', f, k, k1, k2, rfl, k4⟩ := cdata_end hf r [] (by decide) g2
                  have k1 : r = b ++ "]]>".toList ++ r' := k1
                  obtain ⟨t, ht⟩ := hc0 r' _ (by rw [g1, k1]; simp; omega) k4
                  refine ⟨b.flatMap outside ++ t, ?_⟩
                  have := Stripped.cdata b r' t k2 ht
                  rw [g1, k1]
                  simpa [List.append_assoc] using this
                · rw [if_neg h3] at hb; cases hb
          · by_cases h2 : c = '?'
            · subst h2
              have hb : run nc ⟨l, st.root, .target []⟩ s = some fin := by
                have h1 : nc.start '?' = false := by rw [nc.start_ascii _ (by decide)]; decide
                have h5 : ('?' == '!') = false := by decide
                simp only [step, h1, h5, Bool.false_eq_true, if_false, beq_self_eq_true, Bool.and_true, Bool.and_false] at h
                rw [if_neg (by decide)] at h
                cases hmk : nc.marks with
                | true => rw [hmk] at h; exact h
                | false =>
                  rw [hmk] at h
                  cases h
              obtain ⟨b, r, g1, g2, g3⟩ := target_end hf s [] hb
              obtain ⟨t, ht⟩ := hc0 r _ (by rw [g1]; simp; omega) g3
              exact ⟨t, by rw [g1]; exact .inst b r t g2 ht⟩
            · obtain ⟨st1, k1, k2⟩ := Option.bind_eq_some_iff.1 h
              have h3 : c ≠ '<' := by
                intro hc
                subst hc
                rw [step_lt_tag (st := ⟨l, st.root, .lt⟩) trivial] at k1
                cases k1
              obtain ⟨_, _, g3, g4⟩ := step_tag (st := ⟨l, st.root, .lt⟩) trivial (fun _ => ⟨h1, h2⟩) k1
              obtain ⟨t, ht⟩ := ih s hs' st1 fin e (g4.elim (fun h => .inr ⟨_, h⟩) .inl) g3 k2 hf
              exact ⟨_, .tag c s t h1 h2 h3 ht⟩
      · rw [run_cons] at h
        obtain ⟨st1, k1, k2⟩ := Option.bind_eq_some_iff.1 h
        have hst : (TagMode st1.mode ∨ ∃ raw, st1.mode = .content raw) ∧ st1.mode ≠ .lt := by
          rcases hm with hm | ⟨raw, hm⟩
          · obtain ⟨_, _, g3, g4⟩ := step_tag hm (fun h => absurd h hl) k1
            exact ⟨g4.elim (fun h => .inr ⟨_, h⟩) .inl, g3⟩
          · unfold step at k1
            simp only [hm] at k1
            rw [if_neg hc] at k1
            cases k1
            exact ⟨.inr ⟨_, rfl⟩, fun h => by cases h⟩
        obtain ⟨t, ht⟩ := ih s hs st1 fin e hst.1 hst.2 k2 hf
        exact ⟨_, .char c s t hc ht⟩

/-! ### Accepting more -/

theorem step_more {nc : NameChars} {st st' : PState} {c : Char} (h : step nc.plain st c = some st') : step nc st c = some st' := by
  obtain ⟨stk, root, mode⟩ := st
  cases mode with
  | lt =>
    simp only [step, NameChars.plain, Bool.false_and, Bool.false_eq_true, if_false] at h
    simp only [step]
    split at h
    · next h1 => rw [if_pos h1]; exact h
    · next h1 =>
      rw [if_neg h1]
      split at h
      · next h2 => rw [if_pos h2]; exact h
      · cases h
  | _ => exact h

theorem run_more {nc : NameChars} {st st' : PState} {s : Str} (h : run nc.plain st s = some st') : run nc st s = some st' := by
  induction s generalizing st with
  | nil => exact h
  | cons c s ih =>
    rw [run_cons] at h ⊢
    obtain ⟨st1, h1, h2⟩ := Option.bind_eq_some_iff.1 h
    rw [step_more h1]
    exact ih h2

/-- a file without comments, processing instructions and CDATA sections is read as before -/
theorem parse_more {nc : NameChars} {s : Str} {e : El} (h : parseXml nc.plain s = some e) : parseXml nc s = some e := by
  unfold parseXml at h ⊢
  simp only at h ⊢
  split at h
  · next hc =>
    rw [if_pos hc]
    obtain ⟨u, hu, h⟩ := Option.bind_eq_some_iff.1 h
    obtain ⟨st, hst, h⟩ := Option.bind_eq_some_iff.1 h
    rw [hu, Option.bind_some, run_more hst]
    exact h
  · cases h

/-! ### Adding a comment -/

theorem plain_modes {nc : NameChars} (hm : nc.marks = false) {s : Str} {st st' : PState} (hs : TagMode st.mode ∨ ∃ raw, st.mode = .content raw) (h : run nc st s = some st') :
    TagMode st'.mode ∨ ∃ raw, st'.mode = .content raw := by
  induction s generalizing st with
  | nil => cases h; exact hs
  | cons c s ih =>
    rw [run_cons] at h
    obtain ⟨st1, h1, h2⟩ := Option.bind_eq_some_iff.1 h
    refine ih ?_ h2
    rcases hs with hs | ⟨raw, hs⟩
    · by_cases hl : st.mode = .lt
      · obtain ⟨stk, root, mode⟩ := st
        cases hl
        simp only [step, hm, Bool.false_and, Bool.false_eq_true, if_false] at h1
        split at h1
        · cases h1; exact .inl trivial
        · split at h1
          · cases h1; exact .inl trivial
          · cases h1
      · exact (step_tag hs (fun h => absurd h hl) h1).2.2.2.elim (fun h => .inr ⟨_, h⟩) .inl
    · unfold step at h1
      simp only [hs] at h1
      split at h1
      · obtain ⟨l, _, rfl⟩ := Option.map_eq_some_iff.1 h1
        exact .inl trivial
      · cases h1; exact .inr ⟨_, rfl⟩

theorem lower_eq {c x : Char} (h : (if 65 ≤ c.toNat ∧ c.toNat ≤ 90 then Char.ofNat (c.toNat + 32) else c) = x) :
    c = x ∨ c.toNat + 32 = x.toNat := by
  split at h
  · next hc =>
    right
    rw [← h]
    exact (ofNat_toNat_lt (by omega)).symm
  · exact .inl h

theorem char_of_toNat {c x : Char} (h : c.toNat = x.toNat) : c = x := Char.ext (UInt32.toNat_inj.1 h)

theorem reserved_mem {n : Str} (h : reserved n = true) : n ∈ reservedTargets := by
  unfold reserved at h
  rw [beq_iff_eq] at h
  have hl : n.length = 3 := by rw [← List.length_map, h]; rfl
  match n, hl, h with
  | [a, b, c], _, h =>
    simp only [List.map_cons, List.map_nil] at h
    have h : _ = ['x', 'm', 'l'] := h
    injection h with h1 h
    injection h with h2 h
    injection h with h3 h
    have ha : a = 'x' ∨ a = 'X' := (lower_eq h1).imp id fun h => char_of_toNat (Nat.add_right_cancel (h.trans (by decide : 'x'.toNat = 'X'.toNat + 32)))
    have hb : b = 'm' ∨ b = 'M' := (lower_eq h2).imp id fun h => char_of_toNat (Nat.add_right_cancel (h.trans (by decide : 'm'.toNat = 'M'.toNat + 32)))
    have hc : c = 'l' ∨ c = 'L' := (lower_eq h3).imp id fun h => char_of_toNat (Nat.add_right_cancel (h.trans (by decide : 'l'.toNat = 'L'.toNat + 32)))
    rcases ha with rfl | rfl <;> rcases hb with rfl | rfl <;> rcases hc with rfl | rfl <;> decide

theorem run_name_target {nc : NameChars} (stk : List Frame) (root : Option El) (r : Str) : ∀ (n m : Str), m ≠ [] → (∀ x ∈ n, nc.char x = true) →
    run nc ⟨stk, root, .target m⟩ (n ++ r) = run nc ⟨stk, root, .target (n.reverse ++ m)⟩ r := by
  intro n
  induction n with
  | nil => intros; rfl
  | cons c n ih =>
    intro m hm hn
    rw [List.cons_append, run_cons]
    have : step nc ⟨stk, root, .target m⟩ c = some ⟨stk, root, .target (c :: m)⟩ := by
      simp only [step]
      rw [if_neg hm, if_pos (hn c (by simp))]
    rw [this, Option.bind_some, ih _ (by simp) (fun x hx => hn x (by simp [hx]))]
    simp

theorem run_remark {nc : NameChars} (hm : nc.marks = true) {m : Str} (h : Remark nc m) : ∃ m', m = '<' :: m' ∧
    ∀ stk root s, run nc ⟨stk, root, .lt⟩ (m' ++ s) = run nc ⟨stk, root, .content []⟩ s := by
  cases h with
  | comment b h1 h2 =>
    exact ⟨"!--".toList ++ b ++ "-->".toList, rfl, fun stk root s => run_whole_comment hm stk root s h1 h2⟩
  | inst c n b h1 h2 h3 h4 =>
    refine ⟨'?' :: c :: (n ++ ' ' :: (b ++ "?>".toList)), by simp, fun stk root s => ?_⟩
    have e1 : step nc ⟨stk, root, .target []⟩ c = some ⟨stk, root, .target [c]⟩ := by simp [step, h1]
    have e2 : step nc ⟨stk, root, .target (n.reverse ++ [c])⟩ ' ' = some ⟨stk, root, .inst false⟩ := by
      have hsp : nc.char ' ' = false := by rw [nc.char_ascii _ (by decide)]; decide
      simp only [step]
      rw [if_neg (by rw [if_neg (by simp), hsp]; decide), if_neg, if_pos (by decide)]
      rintro (h | h)
      · simp at h
      · exact h3 (reserved_mem (by simpa using h))
    rw [List.cons_append, run_cons, step_question hm, Option.bind_some, List.cons_append, run_cons, e1, Option.bind_some,
      List.append_assoc, run_name_target _ _ _ _ _ (by simp) h2, List.cons_append, run_cons, e2, Option.bind_some]
    exact run_inst nc stk root s b false h4

theorem flush_nil (l : List Frame) (root : Option El) : flush ⟨l, root, .content []⟩ [] = some l := by
  cases l with
  | nil => rfl
  | cons f l =>
    show some (f.addText [] :: l) = _
    rw [addText_nil]

theorem insert_run {nc : NameChars} (hm : nc.marks = true) {m : Str} (hr : Remark nc m) (a b : Str) (hb : b = [] ∨ ∃ b', b = '<' :: b') {st fin : PState} {e : El}
    (hst : TagMode st.mode ∨ ∃ raw, st.mode = .content raw) (h : run nc.plain st (a ++ b) = some fin) (hf : finish fin = some e) :
    ∃ fin', run nc st (a ++ m ++ b) = some fin' ∧ finish fin' = some e := by
  rw [run_append] at h
  obtain ⟨st1, h1, h2⟩ := Option.bind_eq_some_iff.1 h
  have hmode := plain_modes (nc := nc.plain) rfl hst h1
  obtain ⟨m', rfl, hm'⟩ := run_remark hm hr
  rw [List.append_assoc, run_append, run_more h1, Option.bind_some, List.cons_append, run_cons]
  rcases hb with rfl | ⟨b', rfl⟩
  · cases h2
    obtain ⟨stk, root, mode⟩ := fin
    unfold finish at hf
    split at hf
    · next r0 raw hs hr hmd =>
      simp only at hs hr hmd
      subst hs hr hmd
      have hraw : raw.all xmlSpace = true := by
        split at hf
        · assumption
        · cases hf
      have e1 : step nc ⟨[], some r0, .content raw⟩ '<' = some ⟨[], some r0, .lt⟩ := by
        simp only [step]
        rw [if_pos trivial]
        simp only [flush, hraw, if_true]
        rfl
      rw [e1, Option.bind_some, hm']
      refine ⟨_, rfl, ?_⟩
      rw [if_pos hraw] at hf
      exact hf
    · cases hf
  · obtain ⟨raw, l, hr, hfl, h2⟩ := run_lt h2 hmode
    have e1 : step nc st1 '<' = some ⟨l, st1.root, .lt⟩ := by
      unfold step
      simp only [hr]
      rw [if_pos trivial, hfl]
      rfl
    rw [e1, Option.bind_some, hm', run_cons]
    have e2 : step nc ⟨l, st1.root, .content []⟩ '<' = some ⟨l, st1.root, .lt⟩ := by
      simp only [step]
      rw [if_pos trivial, flush_nil]
      rfl
    rw [e2]
    exact ⟨fin, run_more h2, hf⟩

end Verif.Lemmas
