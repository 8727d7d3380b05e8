import Verif.Spec.Namespace
import Verif.Lemmas.GrammarRun
/-!
# What the names in a file stand for
-/
namespace Verif.Lemmas
open Verif Verif.Model Verif.Spec

theorem span_of_notMem {n : Str} (h : ':' ∉ n) : n.span (· != ':') = (n, []) := by
  rw [List.span_eq_takeWhile_dropWhile]
  have h1 : ∀ c ∈ n, (c != ':') = true := fun c hc => by
    rw [bne_iff_ne]; rintro rfl; exact h hc
  have h2 := List.takeWhile_append_of_pos (p := (· != ':')) (l₂ := []) h1
  have h3 := List.dropWhile_append_of_pos (p := (· != ':')) (l₂ := []) h1
  rw [List.append_nil] at h2 h3
  rw [h2, h3]; simp

theorem span_of_colon {p : Str} (h : ':' ∉ p) (l : Str) : (p ++ ':' :: l).span (· != ':') = (p, ':' :: l) := by
  rw [List.span_eq_takeWhile_dropWhile]
  have h1 : ∀ c ∈ p, (c != ':') = true := fun c hc => by
    rw [bne_iff_ne]; rintro rfl; exact h hc
  rw [List.takeWhile_append_of_pos h1, List.dropWhile_append_of_pos h1]
  simp

/-- the two forms of a name -/
theorem colon_cases (n : Str) : (':' ∉ n) ∨ ∃ p l, n = p ++ ':' :: l ∧ ':' ∉ p := by
  induction n with
  | nil => exact .inl (by simp)
  | cons c n ih =>
    by_cases hc : c = ':'
    · subst hc; exact .inr ⟨[], n, rfl, by simp⟩
    · rcases ih with h | ⟨p, l, rfl, h⟩
      · exact .inl (by simp [h, Ne.symm hc])
      · exact .inr ⟨c :: p, l, rfl, by simp [h, Ne.symm hc]⟩

theorem name_notMem {nc : NameChars} {n : Str} (h : XmlName nc n) : ∀ c ∈ n, nc.char c = true := by
  obtain ⟨c, r, rfl, h1, h2⟩ := h
  intro x hx
  rcases List.mem_cons.1 hx with rfl | hx
  · exact nc.start_char _ h1
  · exact h2 x hx

theorem split_iff {nc : NameChars} {n : Str} (hn : XmlName nc n) (p l : Str) : splitName nc n = some (p, l) ↔ QName nc n p l := by
  rcases colon_cases n with h | ⟨p', l', rfl, h⟩
  · have e : splitName nc n = some ([], n) := by unfold splitName; rw [span_of_notMem h]
    rw [e]
    constructor
    · intro h'
      cases h'
      exact .plain hn h
    · intro h'
      cases h' with
      | plain => rfl
      | prefixed => simp at h
  · unfold splitName
    rw [span_of_colon h]
    constructor
    · intro h'
      cases p' with
      | nil => cases h'
      | cons x p' =>
        cases l' with
        | nil => cases h'
        | cons c r =>
          simp only at h'
          split at h'
          · next hc =>
            cases h'
            simp only [Bool.and_eq_true, Bool.not_eq_true', List.contains_eq_mem, decide_eq_false_iff_not] at hc
            have hall := name_notMem hn
            obtain ⟨y, z, hyz, hy, hz⟩ := hn
            injection hyz with h1 h2
            subst h1
            refine .prefixed ⟨x, p', rfl, hy, ?_⟩ h ⟨c, r, rfl, hc.1, ?_⟩ hc.2
            · intro w hw; exact hall w (by simp [hw])
            · intro w hw; exact hall w (by simp [hw])
          · cases h'
    · intro h'
      generalize hgen : p' ++ ':' :: l' = n at h'
      cases h' with
      | plain _ h2 => rw [← hgen] at h2; simp at h2
      | prefixed h1 h2 h3 h4 =>
        have hs := span_of_colon h2 l
        rw [← hgen, span_of_colon h] at hs
        obtain ⟨rfl, h5⟩ := Prod.mk.inj hs
        injection h5 with _ h6
        subst h6
        obtain ⟨a, b, rfl, _, _⟩ := h1
        obtain ⟨c, r, rfl, hc, _⟩ := h3
        simp only
        rw [if_pos]
        simp only [Bool.and_eq_true, Bool.not_eq_true', List.contains_eq_mem, decide_eq_false_iff_not]
        exact ⟨hc, h4⟩

theorem declared_iff (a p : Str) : declared a = some p ↔ a = declOf p := by
  unfold declared declOf
  by_cases h1 : a = "xmlns".toList
  · rw [if_pos h1, Option.some.injEq]
    subst h1
    constructor
    · rintro rfl; simp
    · intro h
      by_cases hp : p = []
      · exact hp.symm
      · rw [if_neg hp] at h
        exact absurd (congrArg List.length h) (by simp)
  · rw [if_neg h1]
    by_cases h2 : ("xmlns:".toList.isPrefixOf a && !(a.drop 6).isEmpty) = true
    · rw [if_pos h2, Option.some.injEq]
      rw [Bool.and_eq_true, List.isPrefixOf_iff_prefix] at h2
      obtain ⟨⟨r, rfl⟩, h3⟩ := h2
      have e : ("xmlns:".toList ++ r).drop 6 = r := rfl
      rw [e] at h3 ⊢
      have hr : r ≠ [] := by simpa using h3
      constructor
      · rintro rfl; rw [if_neg hr]
      · intro h
        by_cases hp : p = []
        · rw [if_pos hp] at h
          exact absurd h h1
        · rw [if_neg hp] at h
          exact List.append_cancel_left h
    · rw [if_neg h2]
      constructor
      · intro h; cases h
      · intro h
        exfalso
        by_cases hp : p = []
        · rw [if_pos hp] at h; exact h1 h
        · rw [if_neg hp] at h
          refine h2 ?_
          rw [Bool.and_eq_true, List.isPrefixOf_iff_prefix]
          subst h
          refine ⟨⟨p, rfl⟩, ?_⟩
          have e : ("xmlns:".toList ++ p).drop 6 = p := rfl
          rw [e]
          simpa using hp

theorem declOf_inj {p q : Str} (h : declOf p = declOf q) : p = q := by
  have := (declared_iff (declOf p) p).2 rfl
  rw [h, (declared_iff (declOf q) q).2 rfl] at this
  exact (Option.some.inj this).symm

theorem bind_iff (sc : Scope) (p u : Str) (sc' : Scope) : bindPrefix sc p u = some sc' ↔ MayDeclare p u ∧ sc' = (p, u) :: sc := by
  have hx : ((decide (p = "xml".toList) != decide (u = xmlUri)) = true) ↔ ¬ (p = "xml".toList ↔ u = xmlUri) := by
    by_cases h1 : p = "xml".toList <;> by_cases h2 : u = xmlUri <;> simp [h1, h2]
  unfold bindPrefix MayDeclare
  constructor
  · intro h
    split at h
    · cases h
    · next hn =>
      cases h
      refine ⟨⟨?_, ?_, ?_, ?_, ?_⟩, rfl⟩
      · intro hp hu; exact hn (.inl ⟨hu, hp⟩)
      · intro h; exact hn (.inr (.inl h))
      · by_contra h; exact hn (.inr (.inr (.inl (hx.2 h))))
      · intro h; exact hn (.inr (.inr (.inr (.inl h))))
      · intro h; exact hn (.inr (.inr (.inr (.inr h))))
  · rintro ⟨⟨h1, h2, h3, h4, h5⟩, rfl⟩
    rw [if_neg]
    rintro (⟨h, h'⟩ | h | h | h | h)
    · exact h1 h' h
    · exact h2 h
    · exact hx.1 h h3
    · exact h4 h
    · exact h5 h

theorem uriOf_cons (q v : Str) (sc : Scope) (p : Str) : uriOf ((q, v) :: sc) p = if p = q then some v else uriOf sc p := by
  unfold uriOf
  rw [List.lookup_cons]
  by_cases h : p = q
  · simp [h]
  · have : (p == q) = false := by simpa using h
    simp [h, this]

/-- the declarations of an element -/
theorem bindAll_some (sc : Scope) (as : List (Str × Str)) : (∃ sc', bindAll sc as = some sc') ↔ ∀ p v, (declOf p, v) ∈ as → MayDeclare p v := by
  induction as generalizing sc with
  | nil => simp [bindAll]
  | cons a as ih =>
    obtain ⟨a, v⟩ := a
    rw [bindAll]
    cases hd : declared a with
    | none =>
      simp only
      rw [ih]
      constructor
      · intro h p w hm
        rcases List.mem_cons.1 hm with hm | hm
        · injection hm with h1 _
          rw [← h1, (declared_iff _ _).2 rfl] at hd
          cases hd
        · exact h p w hm
      · intro h p w hm; exact h p w (by simp [hm])
    | some q =>
      obtain rfl := (declared_iff _ _).1 hd
      simp only
      constructor
      · rintro ⟨sc', h⟩
        obtain ⟨sc1, h1, h2⟩ := Option.bind_eq_some_iff.1 h
        obtain ⟨h3, rfl⟩ := (bind_iff _ _ _ _).1 h1
        intro p w hm
        rcases List.mem_cons.1 hm with hm | hm
        · injection hm with h4 h5
          obtain rfl := declOf_inj h4
          rw [h5]; exact h3
        · exact (ih _).1 ⟨sc', h2⟩ p w hm
      · intro h
        rw [(bind_iff sc q v _).2 ⟨h q v (by simp), rfl⟩, Option.bind_some]
        exact (ih _).2 fun p w hm => h p w (by simp [hm])

theorem bindAll_uri {sc sc' : Scope} {as : List (Str × Str)} (h : bindAll sc as = some sc') (hn : (as.map Prod.fst).Nodup) (p u : Str) :
    uriOf sc' p = some u ↔ (declOf p, u) ∈ as ∨ declOf p ∉ as.map Prod.fst ∧ uriOf sc p = some u := by
  induction as generalizing sc with
  | nil => cases h; simp
  | cons a as ih =>
    obtain ⟨a, v⟩ := a
    rw [List.map_cons, List.nodup_cons] at hn
    rw [bindAll] at h
    cases hd : declared a with
    | none =>
      rw [hd] at h
      have hne : declOf p ≠ a := by
        rintro rfl
        rw [(declared_iff _ _).2 rfl] at hd; cases hd
      rw [ih h hn.2]
      simp [hne]
    | some q =>
      rw [hd] at h
      obtain rfl := (declared_iff _ _).1 hd
      obtain ⟨sc1, h1, h2⟩ := Option.bind_eq_some_iff.1 h
      obtain ⟨h3, rfl⟩ := (bind_iff _ _ _ _).1 h1
      rw [ih h2 hn.2, uriOf_cons]
      by_cases hpq : p = q
      · subst hpq
        rw [if_pos rfl]
        have hno : ∀ w, (declOf p, w) ∉ as := fun w hw => hn.1 (List.mem_map.2 ⟨_, hw, rfl⟩)
        constructor
        · rintro (h | ⟨_, h⟩)
          · exact absurd h (hno _)
          · cases h; exact .inl (by simp)
        · rintro (h | ⟨h, _⟩)
          · rcases List.mem_cons.1 h with h | h
            · injection h with _ h; exact .inr ⟨hn.1, by rw [h]⟩
            · exact absurd h (hno _)
          · exact absurd (by simp) h
      · rw [if_neg hpq]
        have hne : declOf p ≠ declOf q := fun h => hpq (declOf_inj h)
        simp [hne]

/-- a scope is right for nested elements with these attributes -/
def Right (sc : Scope) (ctx : List (List (Str × Str))) : Prop := ∀ p u, uriOf sc p = some u ↔ Stands ctx p u

theorem right_zero : Right scope₀ [] := by
  intro p u
  unfold uriOf scope₀
  rw [List.lookup_cons]
  by_cases h : p = "xml".toList
  · subst h
    simp only [beq_self_eq_true]
    constructor
    · intro h; cases h; exact .xml
    · intro h
      cases h with
      | xml => rfl
  · have hb : (p == "xml".toList) = false := by simpa using h
    simp only [hb, List.lookup_nil]
    constructor
    · intro h'
      split at h'
      · next hp => cases h'; subst hp; exact .default
      · cases h'
    · intro h'
      cases h' with
      | xml => exact absurd rfl h
      | default => rfl

theorem right_cons {sc sc' : Scope} {ctx : List (List (Str × Str))} {as : List (Str × Str)} (hr : Right sc ctx) (h : bindAll sc as = some sc') (hn : (as.map Prod.fst).Nodup) :
    Right sc' (as :: ctx) := by
  intro p u
  rw [bindAll_uri h hn, hr]
  constructor
  · rintro (h | ⟨h, h'⟩)
    · exact .here h
    · exact .outer h h'
  · intro h
    cases h with
    | here h => exact .inl h
    | outer h h' => exact .inr ⟨h, h'⟩

theorem resolveTag_iff {nc : NameChars} {sc : Scope} {ctx : List (List (Str × Str))} (hr : Right sc ctx) {n : Str} (hn : XmlName nc n) (u l : Str) :
    resolveTag nc sc n = some (u, l) ↔ ∃ p, QName nc n p l ∧ Stands ctx p u := by
  unfold resolveTag
  constructor
  · intro h
    obtain ⟨⟨p, l'⟩, h1, h2⟩ := Option.bind_eq_some_iff.1 h
    obtain ⟨u', h3, h4⟩ := Option.map_eq_some_iff.1 h2
    cases h4
    exact ⟨p, (split_iff hn _ _).1 h1, (hr _ _).1 h3⟩
  · rintro ⟨p, h1, h2⟩
    rw [(split_iff hn _ _).2 h1, Option.bind_some, (hr _ _).2 h2]
    rfl

theorem resolveAttr_iff {nc : NameChars} {sc : Scope} {ctx : List (List (Str × Str))} (hr : Right sc ctx) {n : Str} (hn : XmlName nc n) (ul : Str × Str) :
    resolveAttr nc sc n = some ul ↔ AttrMeans nc ctx n ul := by
  unfold resolveAttr
  constructor
  · intro h
    obtain ⟨⟨p, l'⟩, h1, h2⟩ := Option.bind_eq_some_iff.1 h
    have hq := (split_iff hn _ _).1 h1
    simp only at h2
    split at h2
    · next hp =>
      cases h2
      subst hp
      have : n = l' := by
        generalize hz : ([] : Str) = z at hq
        cases hq with
        | plain => rfl
        | prefixed h => subst hz; obtain ⟨_, _, h, _⟩ := h
      subst this
      exact .plain hq
    · next hp =>
      obtain ⟨u', h3, h4⟩ := Option.map_eq_some_iff.1 h2
      cases h4
      exact .prefixed hq hp ((hr _ _).1 h3)
  · intro h
    cases h with
    | plain h => rw [(split_iff hn _ _).2 h]; rfl
    | prefixed h1 h2 h3 =>
      rw [(split_iff hn _ _).2 h1, Option.bind_some]
      simp only
      rw [if_neg h2, (hr _ _).2 h3]
      rfl

theorem attrsMean_decl {nc : NameChars} {ctx : List (List (Str × Str))} {as : List (Str × Str)} {bs : List ((Str × Str) × Str)} (h : AttrsMean nc ctx as bs) :
    ∀ p v, (declOf p, v) ∈ as → MayDeclare p v := by
  induction h with
  | nil => intro p v h; cases h
  | @decl p v q l as bs h1 h2 _ ih =>
    intro p' v' h
    rcases List.mem_cons.1 h with h | h
    · injection h with h3 h4
      obtain rfl := declOf_inj h3
      rw [h4]; exact h2
    · exact ih p' v' h
  | attr h1 _ _ ih =>
    intro p' v' h
    rcases List.mem_cons.1 h with h | h
    · injection h with h3 _
      exact absurd h3.symm (h1 p')
    · exact ih p' v' h

theorem resolveAttrs_iff {nc : NameChars} {sc : Scope} {ctx : List (List (Str × Str))} (hr : Right sc ctx) {as : List (Str × Str)} (hn : ∀ a ∈ as, XmlName nc a.1)
    (hd : ∀ p v, (declOf p, v) ∈ as → MayDeclare p v) (bs : List ((Str × Str) × Str)) : resolveAttrs nc sc as = some bs ↔ AttrsMean nc ctx as bs := by
  induction as generalizing bs with
  | nil =>
    constructor
    · intro h; cases h; exact .nil
    · intro h; cases h; rfl
  | cons a as ih =>
    obtain ⟨a, v⟩ := a
    have ih := ih (fun a ha => hn a (by simp [ha])) (fun p v h => hd p v (by simp [h]))
    have hna : XmlName nc a := hn (a, v) (by simp)
    rw [resolveAttrs]
    cases hda : declared a with
    | none =>
      simp only
      have hne : ∀ p, a ≠ declOf p := by
        rintro p rfl
        rw [(declared_iff _ _).2 rfl] at hda; cases hda
      constructor
      · intro h
        obtain ⟨n, h1, h2⟩ := Option.bind_eq_some_iff.1 h
        obtain ⟨bs', h3, rfl⟩ := Option.map_eq_some_iff.1 h2
        exact .attr hne ((resolveAttr_iff hr hna _).1 h1) ((ih _).1 h3)
      · intro h
        cases h with
        | decl => exact absurd rfl (hne _)
        | attr h1 h2 h3 => rw [(resolveAttr_iff hr hna _).2 h2, Option.bind_some, (ih _).2 h3]; rfl
    | some q =>
      obtain rfl := (declared_iff _ _).1 hda
      simp only
      constructor
      · intro h
        obtain ⟨⟨p, l⟩, h1, h2⟩ := Option.bind_eq_some_iff.1 h
        exact .decl ((split_iff hna _ _).1 h1) (hd q v (by simp)) ((ih _).1 h2)
      · intro h
        generalize hz : declOf q = z at h hna
        cases h with
        | decl h1 h2 h3 => rw [(split_iff hna _ _).2 h1, Option.bind_some, (ih _).2 h3]
        | attr h1 => exact absurd hz.symm (h1 q)

mutual
theorem resolve_iff {nc : NameChars} : ∀ (e : El) (sc : Scope) (ctx : List (List (Str × Str))) (x : NsEl), Tidy nc e → Right sc ctx →
    (resolveEl nc sc e = some x ↔ ElMeans nc ctx e x)
  | .mk n as s kids tail, sc, ctx, x, ht, hr => by
    cases ht with
    | mk h1 h2 h3 h4 =>
      rw [resolveEl]
      constructor
      · intro h
        obtain ⟨sc', g1, h⟩ := Option.bind_eq_some_iff.1 h
        obtain ⟨⟨u, l⟩, g2, h⟩ := Option.bind_eq_some_iff.1 h
        obtain ⟨bs, g3, h⟩ := Option.bind_eq_some_iff.1 h
        have hr' := right_cons hr g1 h3
        split at h
        · next hnd =>
          obtain ⟨ks, g4, rfl⟩ := Option.map_eq_some_iff.1 h
          obtain ⟨p, g5, g6⟩ := (resolveTag_iff hr' h1 _ _).1 g2
          exact .mk g5 g6 ((resolveAttrs_iff hr' h2 ((bindAll_some _ _).1 ⟨_, g1⟩) _).1 g3) hnd ((resolves_iff kids sc' _ ks h4 hr').1 g4)
        · cases h
      · intro h
        cases h with
        | mk g1 g2 g3 g4 g5 =>
          have hd := attrsMean_decl g3
          obtain ⟨sc', q1⟩ := (bindAll_some sc as).2 hd
          have hr' := right_cons hr q1 h3
          rw [q1, Option.bind_some, (resolveTag_iff hr' h1 _ _).2 ⟨_, g1, g2⟩, Option.bind_some, (resolveAttrs_iff hr' h2 hd _).2 g3, Option.bind_some,
            if_pos g4, (resolves_iff kids sc' _ _ h4 hr').2 g5]
          rfl
theorem resolves_iff {nc : NameChars} : ∀ (l : List El) (sc : Scope) (ctx : List (List (Str × Str))) (xs : List NsEl), (∀ e ∈ l, Tidy nc e) → Right sc ctx →
    (resolveEls nc sc l = some xs ↔ ElsMean nc ctx l xs)
  | [], sc, ctx, xs, _, _ => by
    constructor
    · intro h; cases h; exact .nil
    · intro h; cases h; rfl
  | e :: l, sc, ctx, xs, ht, hr => by
    rw [resolveEls]
    constructor
    · intro h
      obtain ⟨x, h1, h⟩ := Option.bind_eq_some_iff.1 h
      obtain ⟨ys, h2, rfl⟩ := Option.map_eq_some_iff.1 h
      exact .cons ((resolve_iff e sc ctx x (ht e (by simp)) hr).1 h1) ((resolves_iff l sc ctx ys (fun y hy => ht y (by simp [hy])) hr).1 h2)
    · intro h
      cases h with
      | cons h1 h2 =>
        rw [(resolve_iff e sc ctx _ (ht e (by simp)) hr).2 h1, Option.bind_some, (resolves_iff l sc ctx _ (fun y hy => ht y (by simp [hy])) hr).2 h2]
        rfl
end

/-! ### Every file that is read is tidy -/

theorem attrs_tidy {nc : NameChars} {a : Str} {as : List (Str × Str)} (h : Attrs nc a as) : (∀ x ∈ as, XmlName nc x.1) ∧ (as.map Prod.fst).Nodup := by
  induction h with
  | nil => simp
  | cons _ _ ha _ _ _ _ _ _ _ hd ih => exact ⟨by simpa using ⟨ha, by simpa using ih.1⟩, List.nodup_cons.2 ⟨hd, ih.2⟩⟩

theorem tidy_withTail {nc : NameChars} {e : El} (h : Tidy nc e) (t : Str) : Tidy nc (e.withTail t) := by
  cases h with
  | mk h1 h2 h3 h4 => exact .mk h1 h2 h3 h4

mutual
theorem content_tidy {nc : NameChars} {c t : Str} {kids : List El} (h : Content nc c t kids) : ∀ k ∈ kids, Tidy nc k := by
  cases h with
  | chars => simp
  | element _ he hr =>
    intro k hk
    rcases List.mem_cons.1 hk with rfl | hk
    · exact tidy_withTail (element_tidy he) _
    · exact content_tidy hr k hk
  | aside _ _ hs hr => exact content_tidy hr
  | cdata _ _ _ hr => exact content_tidy hr
termination_by 2 * c.length + 1
decreasing_by
  · subst_vars; simp only [List.length_append]; omega
  · have := element_length he
    subst_vars; simp only [List.length_append]; omega
  · have := aside_length hs
    subst_vars; simp only [List.length_append]; omega
  · subst_vars; simp; omega
theorem element_tidy {nc : NameChars} {s : Str} {e : El} (h : Element nc s e) : Tidy nc e := by
  cases h with
  | empty hn ha => exact .mk hn (attrs_tidy ha).1 (attrs_tidy ha).2 (by simp)
  | full hn ha hc _ => exact .mk hn (attrs_tidy ha).1 (attrs_tidy ha).2 (content_tidy hc)
termination_by 2 * s.length
decreasing_by
  subst_vars; simp; omega
end

end Verif.Lemmas
