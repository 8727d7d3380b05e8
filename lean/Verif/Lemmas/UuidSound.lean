import Verif.Lemmas.UuidUpper
/-!
# Every element is registered at most once: the tables, and the places of the elements
-/
namespace Verif.Lemmas
open Verif Verif.Model Verif.Gen Verif.Spec

/-! ## the tables -/

/-- the classes that are read twice only for certain tags -/
def twiceAlts (slots : List RSlot) : Bool := slots.all fun s => match s.item with
  | .objs alts => alts.all fun a => (twice.lookup a.2).isNone || (a.1 != 0 && readTwice.contains a.1)
  | _ => true

theorem table_separate : Gen.readTable.all (fun k b => (twice.lookup k).isSome || separate (routesOf b.slots)) = true := by decide +kernel

theorem table_twice : Gen.readTable.all (fun _ b => twiceAlts b.slots) = true := by decide +kernel

theorem load_separate : separate (routesOf loadBody.slots) = true := by decide +kernel

theorem load_twice : twiceAlts loadBody.slots = true := by decide +kernel

theorem load_once : twice.lookup k!"load" = none := by decide +kernel

theorem once_slots {k : Key} {b : RBody} (h : allReaders k = some b) (ht : twice.lookup k = none) :
    separate (routesOf b.slots) = true ∧ twiceAlts b.slots = true := by
  rw [allReaders, ht] at h
  simp only [Option.map_eq_some_iff] at h
  obtain ⟨b', hb, rfl⟩ := h
  rw [readers] at hb
  split at hb
  · cases hb; exact ⟨load_separate, load_twice⟩
  · have h1 := (Bst.all_toList _ _).1 table_separate _ (Bst.find?_mem hb)
    have h2 := (Bst.all_toList _ _).1 table_twice _ (Bst.find?_mem hb)
    simp only [ht, Option.isSome_none, Bool.false_or] at h1
    exact ⟨h1, h2⟩

/-! ## places -/

theorem elemAt_append {p q : List Nat} {x y : Xml} (h : elemAt p x = some y) : elemAt (p ++ q) x = elemAt q y := by
  induction p generalizing x with
  | nil => simp only [elemAt, Option.some.injEq] at h; subst h; rfl
  | cons i p ih =>
    simp only [elemAt, List.cons_append] at h ⊢
    cases hk : x.kids[i]? with
    | none => rw [hk] at h; cases h
    | some z => rw [hk] at h; exact ih h

theorem kid_at {x y : Xml} (h : y ∈ x.kids) : ∃ p, elemAt p x = some y := by
  obtain ⟨i, hi⟩ := List.mem_iff_getElem?.1 h
  exact ⟨[i], by simp [elemAt, hi]⟩

theorem at_trans {x y z : Xml} (h1 : ∃ p, elemAt p x = some y) (h2 : ∃ p, elemAt p y = some z) : ∃ p, elemAt p x = some z := by
  obtain ⟨p, hp⟩ := h1
  obtain ⟨q, hq⟩ := h2
  exact ⟨p ++ q, by rw [elemAt_append hp, hq]⟩

theorem walk_at {ts : List Key} {x y : Xml} (h : y ∈ walk ts x) : ∃ p, elemAt p x = some y := by
  induction ts generalizing x with
  | nil => simp only [walk, List.mem_singleton] at h; subst h; exact ⟨[], rfl⟩
  | cons t ts ih =>
    simp only [walk, List.mem_flatMap, List.mem_filter] at h
    obtain ⟨z, hz, hy⟩ := h
    exact at_trans (kid_at hz.1) (ih hy)

theorem select_at {p : Path} {x y : Xml} (h : y ∈ select p x) : ∃ q, elemAt q x = some y := by
  induction p generalizing x with
  | nil => simp only [select, List.mem_singleton] at h; subst h; exact ⟨[], rfl⟩
  | all t r ih =>
    simp only [select, List.mem_flatMap, List.mem_filter] at h
    obtain ⟨z, hz, hy⟩ := h
    exact at_trans (kid_at hz.1) (ih hy)
  | first ts r ih =>
    simp only [select] at h
    split at h
    · cases h
    · rename_i z l hw
      exact at_trans (walk_at (show z ∈ walk ts x by rw [hw]; simp)) (ih h)
  | pick ts r ih =>
    simp only [select] at h
    split at h
    · cases h
    · rename_i z hz
      exact at_trans (kid_at (pickKid_mem hz)) (ih h)
  | need p r _ ih =>
    simp only [select] at h
    split at h
    · cases h
    · exact ih h
  | lack p r _ ih =>
    simp only [select] at h
    split at h
    · exact ih h
    · cases h
  | alt p q ihp ihq =>
    simp only [select] at h
    split at h
    · exact ihq h
    · exact ihp h

theorem uuids_at {u : Str} {p : List Nat} {x y : Xml} (h : elemAt p x = some y) : uuids u y ≤ uuids u x := by
  induction p generalizing x with
  | nil => simp only [elemAt, Option.some.injEq] at h; subst h; exact Nat.le_refl _
  | cons i p ih =>
    simp only [elemAt] at h
    cases hk : x.kids[i]? with
    | none => rw [hk] at h; cases h
    | some z =>
      rw [hk] at h
      have h1 := ih h
      have h2 := sumOf_mem (g := uuids u) (List.mem_of_getElem? hk)
      rw [uuids_eq (x := x)]; omega

theorem own_le {u : Str} {x : Xml} : ownUuid u x ≤ uuids u x := by rw [uuids_eq]; omega

theorem end_le {u : Str} {o : Bool} {x : Xml} : routeEnd u o x ≤ uuids u x := by
  cases o with
  | true => exact Nat.le_refl _
  | false => exact own_le

theorem sumOf_none {α : Type} {g : α → Nat} {l : List α} (H : ∀ a ∈ l, g a = 0) : sumOf g l = 0 := by
  have := sumOf_le (h := fun _ => 0) fun a ha => Nat.le_of_eq (H a ha)
  rw [sumOf_zero] at this; omega

theorem total_none {u : Str} {L : List Route} {x : Xml} (h : uuids u x = 0) : total u L x = 0 := by
  refine sumOf_none fun e _ => sumOf_none fun y hy => ?_
  obtain ⟨p, hp⟩ := walk_at hy
  have h1 := uuids_at (u := u) hp
  have h2 := end_le (u := u) (o := e.2) (x := y)
  omega

theorem sumOf_pos {α : Type} {g : α → Nat} {l : List α} (h : 1 ≤ sumOf g l) : ∃ (i : Nat) (a : α), l[i]? = some a ∧ 1 ≤ g a := by
  induction l with
  | nil => simp [sumOf] at h
  | cons b l ih =>
    simp only [sumOf] at h
    by_cases hb : 1 ≤ g b
    · exact ⟨0, b, rfl, hb⟩
    · obtain ⟨i, a, h1, h2⟩ := ih (by omega)
      exact ⟨i + 1, a, h1, h2⟩

theorem sumOf_two {α : Type} {g : α → Nat} {l : List α} (h : 2 ≤ sumOf g l) :
    (∃ (i : Nat) (a : α), l[i]? = some a ∧ 2 ≤ g a) ∨ ∃ (i j : Nat) (a b : α), i ≠ j ∧ l[i]? = some a ∧ l[j]? = some b ∧ 1 ≤ g a ∧ 1 ≤ g b := by
  induction l with
  | nil => simp [sumOf] at h
  | cons c l ih =>
    simp only [sumOf] at h
    by_cases h2 : 2 ≤ g c
    · exact .inl ⟨0, c, rfl, h2⟩
    · by_cases h1 : 1 ≤ g c
      · obtain ⟨i, a, h3, h4⟩ := sumOf_pos (g := g) (l := l) (by omega)
        exact .inr ⟨0, i + 1, c, a, by omega, rfl, h3, h1, h4⟩
      · rcases ih (by omega) with ⟨i, a, h3, h4⟩ | ⟨i, j, a, b, hij, h3, h4, h5, h6⟩
        · exact .inl ⟨i + 1, a, h3, h4⟩
        · exact .inr ⟨i + 1, j + 1, a, b, by omega, h3, h4, h5, h6⟩

theorem elemAt_cons {i : Nat} {p : List Nat} {x y : Xml} (h : x.kids[i]? = some y) : elemAt (i :: p) x = elemAt p y := by
  simp only [elemAt, h, Option.bind_some]

theorem uuids_pos {u : Str} {n : Nat} {x : Xml} (hn : x.depth ≤ n) (h : 1 ≤ uuids u x) :
    ∃ p y, elemAt p x = some y ∧ y.attr k!"UUID" = some u := by
  induction n generalizing x with
  | zero => have := depth_pos x; omega
  | succ n ih =>
    rw [uuids_eq] at h
    by_cases ho : x.attr k!"UUID" = some u
    · exact ⟨[], x, rfl, ho⟩
    · have : ownUuid u x = 0 := by rw [ownUuid, if_neg ho]
      obtain ⟨i, y, h1, h2⟩ := sumOf_pos (g := uuids u) (l := x.kids) (by omega)
      obtain ⟨p, z, hp, hz⟩ := ih (x := y) (by have := depth_kid (List.mem_of_getElem? h1); omega) h2
      exact ⟨i :: p, z, by rw [elemAt_cons h1, hp], hz⟩

theorem uuids_two {u : Str} {n : Nat} {x : Xml} (hn : x.depth ≤ n) (h : 2 ≤ uuids u x) :
    ∃ p q y z, p ≠ q ∧ elemAt p x = some y ∧ elemAt q x = some z ∧ y.attr k!"UUID" = some u ∧ z.attr k!"UUID" = some u := by
  induction n generalizing x with
  | zero => have := depth_pos x; omega
  | succ n ih =>
    rw [uuids_eq] at h
    by_cases ho : x.attr k!"UUID" = some u
    · have : ownUuid u x = 1 := by rw [ownUuid, if_pos ho]
      obtain ⟨i, y, h1, h2⟩ := sumOf_pos (g := uuids u) (l := x.kids) (by omega)
      obtain ⟨p, z, hp, hz⟩ := uuids_pos (Nat.le_refl _) h2
      exact ⟨[], i :: p, x, z, by simp, rfl, by rw [elemAt_cons h1, hp], ho, hz⟩
    · have : ownUuid u x = 0 := by rw [ownUuid, if_neg ho]
      rcases sumOf_two (g := uuids u) (l := x.kids) (by omega) with ⟨i, y, h1, h2⟩ | ⟨i, j, y, z, hij, h1, h2, h3, h4⟩
      · obtain ⟨p, q, a, b, hpq, hp, hq, ha, hb⟩ := ih (x := y) (by have := depth_kid (List.mem_of_getElem? h1); omega) h2
        exact ⟨i :: p, i :: q, a, b, by simpa using hpq, by rw [elemAt_cons h1, hp], by rw [elemAt_cons h1, hq], ha, hb⟩
      · obtain ⟨p, a, hp, ha⟩ := uuids_pos (Nat.le_refl _) h3
        obtain ⟨q, b, hq, hb⟩ := uuids_pos (Nat.le_refl _) h4
        exact ⟨i :: p, j :: q, a, b, by simp [hij], by rw [elemAt_cons h1, hp], by rw [elemAt_cons h2, hq], ha, hb⟩

theorem places_two {u : Str} {xs : List Xml} (h : 2 ≤ sumOf (uuids u) xs) : ∃ a b : Place, a ≠ b ∧ Carries xs u a ∧ Carries xs u b := by
  rcases sumOf_two h with ⟨i, x, h1, h2⟩ | ⟨i, j, x, y, hij, h1, h2, h3, h4⟩
  · obtain ⟨p, q, a, b, hpq, hp, hq, ha, hb⟩ := uuids_two (Nat.le_refl _) h2
    exact ⟨(i, p), (i, q), by simpa using hpq, ⟨x, a, h1, hp, ha⟩, ⟨x, b, h1, hq, hb⟩⟩
  · obtain ⟨p, a, hp, ha⟩ := uuids_pos (Nat.le_refl _) h3
    obtain ⟨q, b, hq, hb⟩ := uuids_pos (Nat.le_refl _) h4
    exact ⟨(i, p), (j, q), by simp [hij], ⟨x, a, h1, hp, ha⟩, ⟨y, b, h2, hq, hb⟩⟩

theorem sumOf_index {α : Type} {g : α → Nat} {l : List α} {i j : Nat} {a b : α} (hij : i ≠ j) (hi : l[i]? = some a) (hj : l[j]? = some b) :
    g a + g b ≤ sumOf g l := by
  induction l generalizing i j with
  | nil => simp at hi
  | cons c l ih =>
    simp only [sumOf]
    cases i with
    | zero =>
      cases j with
      | zero => exact absurd rfl hij
      | succ j =>
        simp only [List.getElem?_cons_zero, Option.some.injEq, List.getElem?_cons_succ] at hi hj
        have := sumOf_mem (g := g) (List.mem_of_getElem? hj)
        subst hi; omega
    | succ i =>
      cases j with
      | zero =>
        simp only [List.getElem?_cons_zero, Option.some.injEq, List.getElem?_cons_succ] at hi hj
        have := sumOf_mem (g := g) (List.mem_of_getElem? hi)
        subst hj; omega
      | succ j =>
        simp only [List.getElem?_cons_succ] at hi hj
        have := ih (by omega) hi hj
        omega

theorem at_two {u : Str} {p q : List Nat} {x y z : Xml} (hpq : p ≠ q) (hp : elemAt p x = some y) (hq : elemAt q x = some z)
    (hy : y.attr k!"UUID" = some u) (hz : z.attr k!"UUID" = some u) : 2 ≤ uuids u x := by
  have pos : ∀ {x : Xml}, x.attr k!"UUID" = some u → 1 ≤ uuids u x := by
    intro x hx
    have : ownUuid u x = 1 := by rw [ownUuid, if_pos hx]
    have := own_le (u := u) (x := x)
    omega
  induction p generalizing q x with
  | nil =>
    simp only [elemAt, Option.some.injEq] at hp
    subst hp
    cases q with
    | nil => exact absurd rfl hpq
    | cons j q =>
      simp only [elemAt] at hq
      cases hk : x.kids[j]? with
      | none => rw [hk] at hq; cases hq
      | some w =>
        rw [hk] at hq
        have h1 := uuids_at (u := u) (p := q) (x := w) hq
        have h2 := sumOf_mem (g := uuids u) (List.mem_of_getElem? hk)
        have h3 := pos hz
        have : ownUuid u x = 1 := by rw [ownUuid, if_pos hy]
        rw [uuids_eq]; omega
  | cons i p ih =>
    simp only [elemAt] at hp
    cases hi : x.kids[i]? with
    | none => rw [hi] at hp; cases hp
    | some v =>
      rw [hi] at hp
      have h1 := uuids_at (u := u) (p := p) (x := v) hp
      have h2 := pos hy
      cases q with
      | nil =>
        simp only [elemAt, Option.some.injEq] at hq
        subst hq
        have h3 := sumOf_mem (g := uuids u) (List.mem_of_getElem? hi)
        have : ownUuid u x = 1 := by rw [ownUuid, if_pos hz]
        rw [uuids_eq]; omega
      | cons j q =>
        simp only [elemAt] at hq
        cases hj : x.kids[j]? with
        | none => rw [hj] at hq; cases hq
        | some w =>
          rw [hj] at hq
          have h3 := uuids_at (u := u) (p := q) (x := w) hq
          have h4 := pos hz
          by_cases hij : i = j
          · subst hij
            rw [hi] at hj
            cases hj
            have h5 := ih (x := v) (q := q) (fun e => hpq (by rw [e])) hp hq
            have h6 := sumOf_mem (g := uuids u) (List.mem_of_getElem? hi)
            rw [uuids_eq]; omega
          · have h5 := sumOf_index (g := uuids u) hij hi hj
            rw [uuids_eq]; omega

theorem places_only {u : Str} {xs : List Xml} {a b : Place} (hab : a ≠ b) (ha : Carries xs u a) (hb : Carries xs u b) : 2 ≤ sumOf (uuids u) xs := by
  obtain ⟨x, y, h1, h2, h3⟩ := ha
  obtain ⟨x', y', h1', h2', h3'⟩ := hb
  obtain ⟨i, p⟩ := a
  obtain ⟨j, q⟩ := b
  simp only at h1 h1' h2 h2'
  by_cases hij : i = j
  · subst hij
    rw [h1] at h1'
    cases h1'
    exact Nat.le_trans (at_two (fun e => hab (by rw [e])) h2 h2' h3 h3') (sumOf_mem (List.mem_of_getElem? h1))
  · have e1 : ownUuid u y = 1 := by rw [ownUuid, if_pos h3]
    have e2 : ownUuid u y' = 1 := by rw [ownUuid, if_pos h3']
    have := own_le (u := u) (x := y)
    have := own_le (u := u) (x := y')
    have := uuids_at (u := u) h2
    have := uuids_at (u := u) h2'
    have := sumOf_index (g := uuids u) hij h1 h1'
    omega

/-! ## the calls -/

theorem altOf_via {alts : List (Key × Key)} {t k : Key} (h : altOf alts t = some k) : ∃ t', (t', k) ∈ alts ∧ (t' = 0 ∨ t' = t) := by
  induction alts with
  | nil => cases h
  | cons e l ih =>
    obtain ⟨t', k'⟩ := e
    simp only [altOf] at h
    split at h
    · rename_i hc; cases h; exact ⟨t', by simp, .inr hc⟩
    · obtain ⟨t', h1, h2⟩ := ih h
      exact ⟨t', by simp [h1], h2⟩

section
variable {sc : RKind → Xml → Bool} {u : Str}

theorem calls_none {n : Nat} {k : Key} {ns : List Str} {x : Xml} (h : uuids u x = 0) : regs u (objCalls sc n k ns x) = 0 := by
  induction n generalizing k ns x with
  | zero => rfl
  | succ n ih =>
    rw [objCalls]
    split
    · rfl
    · rename_i b hb
      have := body_total (sc := sc) (rd := objCalls sc n) (b := b) (names := ns) (x := x) (u := u) (by
        intro s hs alts ha y hy k hk ns
        obtain ⟨p, hp⟩ := select_at hy
        have h1 := uuids_at (u := u) hp
        rw [ih (by omega)]; omega)
      rw [total_none h] at this
      omega

theorem calls_le {n : Nat} {k : Key} {ns : List Str} {x : Xml} (hk : twice.lookup k = none)
    (hx : ∀ p y, elemAt p x = some y → y.tag ∈ readTwice → uuids u y = 0) : regs u (objCalls sc n k ns x) ≤ uuids u x := by
  induction n generalizing k ns x with
  | zero => exact Nat.zero_le _
  | succ n ih =>
    rw [objCalls]
    split
    · exact Nat.zero_le _
    · rename_i b hb
      obtain ⟨h1, h2⟩ := once_slots hb hk
      refine Nat.le_trans (body_total ?_) (separate_total (Nat.le_refl _) h1)
      intro s hs alts ha y hy k' hk' ns
      obtain ⟨p, hp⟩ := select_at hy
      cases ht : twice.lookup k' with
      | none =>
        refine ih ht fun q z hq hz => ?_
        exact hx (p ++ q) z (by rw [elemAt_append hp, hq]) hz
      | some l =>
        have h3 := List.all_eq_true.1 h2 s hs
        rw [ha] at h3
        obtain ⟨t', h4, h5⟩ := altOf_via hk'
        have h6 := List.all_eq_true.1 h3 _ h4
        simp only [ht, Option.isNone_some, Bool.false_or, Bool.and_eq_true, bne_iff_ne, ne_eq] at h6
        rcases h5 with h5 | h5
        · exact absurd h5 h6.1
        · subst h5
          rw [calls_none (hx p y hp (by simpa using h6.2))]
          exact Nat.zero_le _

theorem files_le {xs : List Xml}
    (hx : ∀ x ∈ xs, ∀ p y, elemAt p x = some y → y.tag ∈ readTwice → uuids u y = 0) : regs u (filesCalls sc xs) ≤ sumOf (uuids u) xs := by
  rw [filesCalls, regs_keep, regs_flatMap]
  exact sumOf_le fun x hm => calls_le load_once (hx x hm)

end

end Verif.Lemmas
