import Verif.Lemmas.MarkupAscii
/-!
# What is read from a file has only characters XML allows
-/
namespace Verif.Lemmas
open Verif Verif.Model Verif.Spec

def Ok (s : Str) : Prop := ∀ c ∈ s, xmlChar c = true

def OkAttrs (as : List (Str × Str)) : Prop := ∀ a ∈ as, Ok a.2

inductive OkEl : El → Prop
  | mk (n : Str) (as : List (Str × Str)) (s : Str) (kids : List El) (t : Str) : OkAttrs as → Ok s → (∀ k ∈ kids, OkEl k) → Ok t → OkEl (.mk n as s kids t)

structure OkFrame (f : Frame) : Prop where
  attrs : OkAttrs f.attrs
  text : Ok f.text
  kids : ∀ k ∈ f.kids, OkEl k

def OkMode : Mode → Prop
  | .content raw => Ok raw
  | .lt | .name _ | .cname _ | .cend _ => True
  | .tag _ as | .attr _ as _ | .eq _ as _ | .quote _ as _ | .closed _ as | .slash _ as => OkAttrs as
  | .value _ as _ _ raw => OkAttrs as ∧ Ok raw
  | .cdata raw => Ok raw
  | .bang | .dash | .comment _ | .target _ | .inst _ | .instEnd | .section _ => True

structure OkState (st : PState) : Prop where
  stack : ∀ f ∈ st.stack, OkFrame f
  root : ∀ e, st.root = some e → OkEl e
  mode : OkMode st.mode

theorem Ok.nil : Ok [] := fun _ h => by cases h

theorem Ok.cons {c : Char} {s : Str} (hc : xmlChar c = true) (hs : Ok s) : Ok (c :: s) := by
  intro x hx
  rcases List.mem_cons.1 hx with rfl | hx
  · exact hc
  · exact hs x hx

theorem Ok.append {a b : Str} (ha : Ok a) (hb : Ok b) : Ok (a ++ b) := by
  intro x hx
  rcases List.mem_append.1 hx with hx | hx
  · exact ha x hx
  · exact hb x hx

theorem Ok.reverse {a : Str} (ha : Ok a) : Ok a.reverse := fun x hx => ha x (List.mem_reverse.1 hx)

theorem charOf_ok {n : Nat} {c : Char} (h : charOf n = some c) : xmlChar c = true := by
  unfold charOf at h
  split at h
  · next h1 => cases h; exact h1.2
  · cases h

theorem entity_ok {e : Str} {c : Char} (h : entity e = some c) : xmlChar c = true := by
  unfold entity at h
  split at h; · cases h; decide
  split at h; · cases h; decide
  split at h; · cases h; decide
  split at h; · cases h; decide
  split at h; · cases h; decide
  split at h
  · obtain ⟨n, _, hn⟩ := Option.bind_eq_some_iff.1 h; exact charOf_ok hn
  · obtain ⟨n, _, hn⟩ := Option.bind_eq_some_iff.1 h; exact charOf_ok hn
  · cases h

theorem decodeGo_ok {lit : Char → Char} (hl : ∀ c, xmlChar c = true → xmlChar (lit c) = true) (s : Str) (hs : Ok s) (m : Option Str) (r : Str)
    (h : decodeGo lit m s = some r) : Ok r := by
  induction s generalizing m r with
  | nil => cases m <;> cases h; exact Ok.nil
  | cons c s ih =>
    have hs' : Ok s := fun x hx => hs x (by simp [hx])
    cases m with
    | none =>
      rw [decodeGo] at h
      split at h
      · exact ih hs' _ _ h
      · obtain ⟨t, ht, rfl⟩ := Option.map_eq_some_iff.1 h
        exact Ok.cons (hl c (hs c (by simp))) (ih hs' _ _ ht)
    | some e =>
      rw [decodeGo] at h
      split at h
      · obtain ⟨x, hx, h⟩ := Option.bind_eq_some_iff.1 h
        obtain ⟨t, ht, rfl⟩ := Option.map_eq_some_iff.1 h
        exact Ok.cons (entity_ok hx) (ih hs' _ _ ht)
      · exact ih hs' _ _ h

theorem decodeText_ok {s r : Str} (hs : Ok s) (h : decodeText s = some r) : Ok r := by
  unfold decodeText at h
  split at h
  · cases h
  · exact decodeGo_ok (fun _ h => h) s hs none r h

theorem decodeAttr_ok {s r : Str} (hs : Ok s) (h : decodeAttr s = some r) : Ok r := by
  refine decodeGo_ok (fun c h => ?_) s hs none r h
  unfold toBlank
  split
  · decide
  · exact h

theorem OkEl.withTail {e : El} (h : OkEl e) {t : Str} (ht : Ok t) : OkEl (e.withTail t) := by
  cases h with
  | mk n as s kids t0 h1 h2 h3 h4 => exact .mk _ _ _ _ _ h1 h2 h3 ht

theorem OkEl.tail {e : El} (h : OkEl e) : Ok e.tail := by
  cases h with
  | mk n as s kids t0 h1 h2 h3 h4 => exact h4

theorem addText_ok {f : Frame} (h : OkFrame f) {t : Str} (ht : Ok t) : OkFrame (f.addText t) := by
  unfold Frame.addText
  split
  · exact ⟨h.attrs, h.text.append ht, h.kids⟩
  · next e l hk =>
    have hk' := h.kids
    rw [hk] at hk'
    refine ⟨h.attrs, h.text, ?_⟩
    intro k hk2
    rcases List.mem_cons.1 hk2 with rfl | hk2
    · have := hk' e (by simp)
      exact this.withTail (this.tail.append ht)
    · exact hk' k (by simp [hk2])

theorem flush_ok {st : PState} (h : OkState st) {raw : Str} (hr : Ok raw) {l : List Frame} (hl : flush st raw = some l) : ∀ f ∈ l, OkFrame f := by
  unfold flush at hl
  split at hl
  · split at hl <;> cases hl
    simp
  · next f r hs =>
    obtain ⟨t, ht, rfl⟩ := Option.map_eq_some_iff.1 hl
    have hst := h.stack
    rw [hs] at hst
    intro g hg
    rcases List.mem_cons.1 hg with rfl | hg
    · exact addText_ok (hst f (by simp)) (decodeText_ok hr.reverse ht)
    · exact hst g (by simp [hg])

theorem openEl_okState {stack : List Frame} {root : Option El} {n : Str} {as : List (Str × Str)} (h1 : ∀ f ∈ stack, OkFrame f)
    (h2 : ∀ e, root = some e → OkEl e) (ha : OkAttrs as) {st : PState} (h : openEl stack root n as = some st) : OkState st := by
  unfold openEl at h
  split at h <;> cases h
  refine ⟨?_, h2, Ok.nil⟩
  intro f hf
  rcases List.mem_cons.1 hf with rfl | hf
  · exact ⟨ha, Ok.nil, by simp⟩
  · exact h1 f hf

theorem closeEl_okState {stack : List Frame} {root : Option El} {n : Str} (h1 : ∀ f ∈ stack, OkFrame f)
    (h2 : ∀ e, root = some e → OkEl e) {st : PState} (h : closeEl stack root n = some st) : OkState st := by
  unfold closeEl at h
  split at h
  · cases h
  · next f l =>
    have hf := h1 f (by simp)
    have he : OkEl (.mk f.name f.attrs f.text f.kids.reverse []) := .mk _ _ _ _ _ hf.attrs hf.text (fun k hk => hf.kids k (List.mem_reverse.1 hk)) Ok.nil
    split at h
    · simp only at h
      split at h
      · cases h
        exact ⟨by simp, fun e h => by cases h; exact he, Ok.nil⟩
      · next g r =>
        cases h
        refine ⟨?_, h2, Ok.nil⟩
        intro k hk
        rcases List.mem_cons.1 hk with rfl | hk
        · have hg := h1 g (by simp)
          refine ⟨hg.attrs, hg.text, ?_⟩
          intro z hz
          rcases List.mem_cons.1 hz with rfl | hz
          · exact he
          · exact hg.kids z hz
        · exact h1 k (by simp [hk])
    · cases h

theorem step_okState {nc : NameChars} {st st' : PState} {c : Char} (hc : xmlChar c = true) (h : OkState st) (hs : step nc st c = some st') : OkState st' := by
  have hm := h.mode
  have same : ∀ m, OkMode m → OkState { st with mode := m } := fun m hm => ⟨h.stack, h.root, hm⟩
  have nil : OkAttrs [] := fun _ h => by cases h
  unfold step at hs
  split at hs
  · next raw he =>
    rw [he] at hm
    split at hs
    · obtain ⟨l, hl, rfl⟩ := Option.map_eq_some_iff.1 hs
      exact ⟨flush_ok h hm hl, h.root, trivial⟩
    · cases hs; exact same _ (Ok.cons hc hm)
  · split at hs; · cases hs; exact same _ trivial
    split at hs; · cases hs; exact same _ trivial
    split at hs; · cases hs; exact same _ trivial
    split at hs
    · cases hs; exact same _ trivial
    · cases hs
  · split at hs; · cases hs; exact same _ trivial
    split at hs; · cases hs; exact same _ nil
    split at hs; · exact openEl_okState h.stack h.root nil hs
    split at hs
    · cases hs; exact same _ nil
    · cases hs
  · next he =>
    rw [he] at hm
    split at hs; · cases hs; exact h
    split at hs; · exact openEl_okState h.stack h.root hm hs
    split at hs; · cases hs; exact same _ hm
    split at hs
    · cases hs; exact same _ hm
    · cases hs
  · next he =>
    rw [he] at hm
    split at hs; · cases hs; exact same _ hm
    split at hs; · cases hs; exact same _ hm
    split at hs
    · cases hs; exact same _ hm
    · cases hs
  · next he =>
    rw [he] at hm
    split at hs; · cases hs; exact h
    split at hs
    · cases hs; exact same _ hm
    · cases hs
  · next he =>
    rw [he] at hm
    split at hs; · cases hs; exact h
    split at hs
    · cases hs; exact same _ ⟨hm, Ok.nil⟩
    · cases hs
  · next n as a q raw he =>
    rw [he] at hm
    split at hs; · cases hs
    split at hs
    · split at hs
      · cases hs
      · obtain ⟨v, hv, rfl⟩ := Option.map_eq_some_iff.1 hs
        refine same _ ?_
        intro x hx
        rcases List.mem_append.1 hx with hx | hx
        · exact hm.1 x hx
        · simp only [List.mem_singleton] at hx
          subst hx
          exact decodeAttr_ok hm.2.reverse hv
    · cases hs; exact same _ ⟨hm.1, Ok.cons hc hm.2⟩
  · next he =>
    rw [he] at hm
    split at hs; · cases hs; exact same _ hm
    split at hs; · exact openEl_okState h.stack h.root hm hs
    split at hs
    · cases hs; exact same _ hm
    · cases hs
  · next he =>
    rw [he] at hm
    split at hs
    · obtain ⟨s, ho, hcl⟩ := Option.bind_eq_some_iff.1 hs
      have := openEl_okState h.stack h.root hm ho
      exact closeEl_okState this.stack this.root hcl
    · cases hs
  · split at hs; · cases hs; exact same _ trivial
    split at hs; · cases hs; exact same _ trivial
    split at hs
    · exact closeEl_okState h.stack h.root hs
    · cases hs
  · split at hs; · cases hs; exact h
    split at hs
    · exact closeEl_okState h.stack h.root hs
    · cases hs
  · split at hs; · cases hs; exact same _ trivial
    split at hs
    · cases hs; exact same _ trivial
    · cases hs
  · split at hs
    · cases hs; exact same _ trivial
    · cases hs
  · split at hs
    · split at hs
      · cases hs; exact same _ Ok.nil
      · cases hs
    · split at hs <;> (cases hs; exact same _ trivial)
  · next n he =>
    by_cases h1 : (if n = [] then nc.start c else nc.char c) = true
    · rw [if_pos h1] at hs; cases hs; exact same _ trivial
    rw [if_neg h1] at hs
    split at hs; · cases hs
    split at hs; · cases hs; exact same _ trivial
    split at hs
    · cases hs; exact same _ trivial
    · cases hs
  · split at hs
    · cases hs; exact same _ Ok.nil
    · cases hs; exact same _ trivial
  · split at hs
    · cases hs; exact same _ Ok.nil
    · cases hs
  · split at hs
    · cases hs
    · split at hs
      · cases hs; exact same _ Ok.nil
      · cases hs
    · split at hs
      · cases hs; exact same _ trivial
      · cases hs
  · next raw he =>
    rw [he] at hm
    split at hs
    · next t =>
      have ht : Ok t.reverse := fun x hx => hm x (by simp only [List.mem_cons]; exact .inr (.inr (List.mem_reverse.1 hx)))
      unfold endCdata at hs
      split at hs
      · cases hs
      · next f l hl =>
        cases hs
        refine ⟨?_, h.root, Ok.nil⟩
        intro x hx
        rcases List.mem_cons.1 hx with rfl | hx
        · exact addText_ok (h.stack f (by rw [hl]; simp)) ht
        · exact h.stack x (by rw [hl]; simp [hx])
    · cases hs; exact same _ (Ok.cons hc hm)

theorem run_okState {nc : NameChars} {s : Str} (hs : Ok s) {st st' : PState} (h : OkState st) (hr : run nc st s = some st') : OkState st' := by
  induction s generalizing st with
  | nil => cases hr; exact h
  | cons c s ih =>
    rw [run] at hr
    obtain ⟨t, ht, hr⟩ := Option.bind_eq_some_iff.1 hr
    exact ih (fun x hx => hs x (by simp [hx])) (step_okState (hs c (by simp)) h ht) hr

theorem parseXml_ok {nc : NameChars} {s : Str} {e : El} (h : parseXml nc s = some e) : OkEl e := by
  unfold parseXml at h
  simp only at h
  split at h
  · next ha =>
    obtain ⟨u, hu, h⟩ := Option.bind_eq_some_iff.1 h
    obtain ⟨st, hst, h⟩ := Option.bind_eq_some_iff.1 h
    have hu' : Ok u := fun c hc => List.all_eq_true.1 ha c (skipDecl_mem hu c hc)
    have := run_okState hu' (st := ⟨[], none, .content []⟩) ⟨by simp, (fun e h => by cases h), Ok.nil⟩ hst
    unfold finish at h
    split at h
    · next e' _ _ hr _ =>
      split at h <;> cases h
      exact this.root _ (by assumption)
    · cases h
  · cases h

mutual
theorem toXml_good : (e : El) → OkEl e → Every GoodChars e.toXml
  | .mk n as s kids t, h => by
    cases h with
    | mk _ _ _ _ _ h1 h2 h3 h4 =>
    rw [El.toXml]
    refine .node _ _ _ _ ⟨?_, fun c hc => xmlChar_of (h2 c hc)⟩ (toXmls_good kids h3)
    intro a ha c hc
    obtain ⟨b, hb, rfl⟩ := List.mem_map.1 ha
    exact xmlChar_of (h1 b (List.mem_filter.1 hb).1 c hc)
theorem toXmls_good : (l : List El) → (∀ e ∈ l, OkEl e) → ∀ x ∈ El.toXmls l, Every GoodChars x
  | [], _ => by simp [El.toXmls]
  | e :: l, h => by
    rw [El.toXmls]
    intro x hx
    rcases List.mem_cons.1 hx with rfl | hx
    · exact toXml_good e (h e (by simp))
    · exact toXmls_good l (fun k hk => h k (by simp [hk])) x hx
end

/-- a tree read from a file -/
theorem parseFile_good {nc : NameChars} {s : Str} {x : Xml} (h : parseFile nc s = some x) : Every GoodChars x := by
  obtain ⟨e, he, rfl⟩ := Option.map_eq_some_iff.1 h
  exact toXml_good e (parseXml_ok he)

end Verif.Lemmas
