import Verif.Lemmas.SavingMain
import Verif.Lemmas.Readable
import Verif.Spec.Writable
/-!
# Which documents can be saved: lemmas
-/
namespace Verif.Lemmas
open Verif Verif.Model Verif.Spec

section
variable {py : Py} {repr : py.F → Str} {strict : Bool} {wr : Key → MObj py.F → Except PyErr Out} {o : MObj py.F}

theorem seqE_fine {a b : Except PyErr Out} : (∃ r, seqE a b = .ok r) ↔ (∃ r, a = .ok r) ∧ ∃ r, b = .ok r := by
  cases a <;> cases b <;> simp [seqE]

theorem map_fine {α β ε : Type} {a : Except ε α} {f : α → β} : (∃ r, a.map f = .ok r) ↔ ∃ r, a = .ok r := by
  cases a <;> simp [Except.map]

theorem kind_answers {k : WKind} {t : Key} {s : Scalar py.F} : (∃ y, writeKind py repr k t s = .ok y) ↔ Answers k s := by
  cases k <;> cases s <;> simp [writeKind, Answers]

theorem prim_answers {k : WKind} {t : Key} {v : MObj py.F} : (∃ y, writePrim py repr t k v = .ok y) ↔ ∃ s, v = .scal s ∧ Answers k s := by
  cases v with
  | mk c fs => simp [writePrim]
  | scal s => simp [writePrim, kind_answers]

theorem lookup_absent {m : List (Str × Str)} {v : Str} : m.lookup v = none ↔ ¬ ∃ e ∈ m, e.1 = v := by
  induction m with
  | nil => simp
  | cons e m ih =>
    obtain ⟨a, b⟩ := e
    by_cases h : v = a
    · simp [List.lookup, h]
    · have : (v == a) = false := by simpa using h
      simp only [List.lookup, this, ih, List.mem_cons, exists_eq_or_imp, not_or]
      exact ⟨fun h' => ⟨fun h'' => h h''.symm, h'⟩, fun h' => h'.2⟩

theorem attr_answers {k : WAKind} {s : Scalar py.F} : (∃ y, writeAttr py strict k s = .ok y) ↔ AttrAnswers strict k s := by
  cases k with
  | raw => cases s <;> simp [writeAttr, AttrAnswers]
  | getValue => cases s <;> simp [writeAttr, AttrAnswers]
  | mapped m =>
    cases s with
    | lit t u v =>
      simp only [writeAttr, AttrAnswers]
      have := lookup_absent (m := m.map) (v := v)
      cases hl : m.map.lookup v with
      | some e =>
        rw [hl] at this
        have h : ∃ e ∈ m.map, e.1 = v := by
          by_contra hn; cases this.2 hn
        simp only [Except.ok.injEq, exists_eq', true_iff]
        exact fun _ => h
      | none =>
        have h := this.1 hl
        cases strict
        · simp
        · simpa using h
    | _ => simp [writeAttr, AttrAnswers]

theorem head_not {α : Type} {P : α → Prop} {a : α} {l : List α} : ¬ (∃ v vs, a :: l = v :: vs ∧ ¬ P v) ↔ P a := by
  constructor
  · intro h
    by_contra hn
    exact h ⟨a, l, rfl, hn⟩
  · rintro h ⟨v, vs, e, hn⟩
    cases e; exact hn h

theorem none_not {α : Type} {P : α → Prop} {l : List α} : ¬ (∃ v ∈ l, ¬ P v) ↔ ∀ v ∈ l, P v := by
  simp only [not_exists, not_and, not_not]

theorem attrOf_answers {n : Key} {k : WAKind} {l : List (MObj py.F)} :
    (∃ r, writeAttrOf py strict n k l = .ok r) ↔ ¬ ∃ v vs, l = v :: vs ∧ ¬ ∃ s, v = .scal s ∧ AttrAnswers strict k s := by
  cases l with
  | nil => simp [writeAttrOf]
  | cons v vs =>
    cases v with
    | mk c fs => simp [writeAttrOf]
    | scal s =>
      have := attr_answers (py := py) (strict := strict) (k := k) (s := s)
      rw [head_not (P := fun v => ∃ s, v = MObj.scal s ∧ AttrAnswers strict k s)]
      simp only [writeAttrOf, MObj.scal.injEq, exists_eq_left', ← this]
      cases writeAttr py strict k s with
      | error e => simp
      | ok y => cases y <;> simp

theorem textOf_answers {k : WAKind} {l : List (MObj py.F)} :
    (∃ r, writeTextOf py strict k l = .ok r) ↔ ¬ ∃ v vs, l = v :: vs ∧ ¬ ∃ s, v = .scal s ∧ AttrAnswers strict k s := by
  cases l with
  | nil => simp [writeTextOf]
  | cons v vs =>
    cases v with
    | mk c fs => simp [writeTextOf]
    | scal s =>
      have := attr_answers (py := py) (strict := strict) (k := k) (s := s)
      rw [head_not (P := fun v => ∃ s, v = MObj.scal s ∧ AttrAnswers strict k s)]
      simp only [writeTextOf, MObj.scal.injEq, exists_eq_left', ← this]
      cases writeAttr py strict k s with
      | error e => simp
      | ok y => cases y <;> simp

theorem case_fine {cases : List Case} {other : Other} {v : MObj py.F} : (∃ r, writeCase py strict wr cases other v = .ok r) ↔
    ¬ (strict = true ∧ other ≠ .skip ∧ ∀ c ∈ cases, c.takes v.cls = false) ∧
    ∀ c, cases.find? (fun c => c.takes v.cls) = some c → ∃ r, wr c.body v = .ok r := by
  unfold writeCase
  cases hf : cases.find? (fun c => c.takes v.cls) with
  | some c =>
    have h1 := List.find?_some hf
    have h2 := List.mem_of_find?_eq_some hf
    simp only [Option.some.injEq, forall_eq', iff_and_self]
    rintro - ⟨-, -, hn⟩
    have := hn c h2
    exact absurd h1 (by simp [this])
  | none =>
    have hn : ∀ c ∈ cases, c.takes v.cls = false := by simpa using hf
    simp only [reduceCtorEq, false_implies, implies_true, and_true]
    cases other <;> cases strict <;> simp [hn] <;> exact hn

/-- writing an object succeeds if nothing is wrong with it and the objects it contains are written -/
theorem writeB_fine' (W : WB) : (∃ r, writeB py repr strict wr o W = .ok r) ↔
    ¬ Fault strict o W ∧ ∀ k v, Calls o k v W → ∃ r, wr k v = .ok r := by
  induction W with
  | nil => simp [writeB, Fault, Calls]
  | attr n k f r ih =>
    simp only [writeB, seqE_fine, ih, attrOf_answers, Fault, Calls, not_or, and_assoc]
  | text k f r ih =>
    simp only [writeB, seqE_fine, ih, textOf_answers, Fault, Calls, not_or, and_assoc]
  | prim t k f r ih =>
    simp only [writeB, seqE_fine, ih, map_fine, mapE_oks, prim_answers, Fault, Calls, not_or, none_not (P := fun v => ∃ s, v = MObj.scal s ∧ Answers k s), and_assoc]
  | oprim u t k f r ih =>
    simp only [writeB, seqE_fine, ih, map_fine, mapE_oks, prim_answers, Fault, Calls, not_or, none_not (P := fun v => ∃ s, v = MObj.scal s ∧ Answers k s), and_assoc]
  | each f w a cases other r ih =>
    have hm : ∀ v, v ∈ (if a.sort then byName (o.view f w) else o.view f w) ↔ v ∈ o.view f w := fun v => by
      split
      · exact mem_byName
      · rfl
    simp only [writeB, seqE_fine, ih, map_fine, mapE_oks, case_fine, Fault, Calls, not_or, hm]
    constructor
    · rintro ⟨h1, h2, h3⟩
      refine ⟨⟨?_, h2⟩, ?_⟩
      · rintro ⟨hs, ho, v, hv, hc⟩
        exact (h1 v hv).1 ⟨hs, ho, hc⟩
      · rintro k v (⟨hv, c, hc, rfl⟩ | h)
        · exact (h1 v hv).2 c hc
        · exact h3 k v h
    · rintro ⟨⟨h1, h2⟩, h3⟩
      refine ⟨fun v hv => ⟨?_, fun c hc => h3 c.body v (.inl ⟨hv, c, hc, rfl⟩)⟩, h2, fun k v h => h3 k v (.inr h)⟩
      rintro ⟨hs, ho, hc⟩
      exact h1 ⟨hs, ho, v, hv, hc⟩
  | wrap c t b r ihb ihr =>
    simp only [writeB, seqE_fine, ihr, Fault, Calls, not_or]
    by_cases hc : c.holds o = true
    · simp only [hc, if_true, map_fine, ihb, true_and]
      constructor
      · rintro ⟨⟨h1, h2⟩, h3, h4⟩
        exact ⟨⟨h1, h3⟩, fun k v h => h.elim (h2 k v) (h4 k v)⟩
      · rintro ⟨⟨h1, h2⟩, h3⟩
        exact ⟨⟨h1, fun k v h => h3 k v (.inl h)⟩, h2, fun k v h => h3 k v (.inr h)⟩
    · simp [hc]
  | when c b r ihb ihr =>
    simp only [writeB, seqE_fine, ihr, Fault, Calls, not_or]
    by_cases hc : c.holds o = true
    · simp only [hc, if_true, ihb, true_and]
      constructor
      · rintro ⟨⟨h1, h2⟩, h3, h4⟩
        exact ⟨⟨h1, h3⟩, fun k v h => h.elim (h2 k v) (h4 k v)⟩
      · rintro ⟨⟨h1, h2⟩, h3⟩
        exact ⟨⟨h1, fun k v h => h3 k v (.inl h)⟩, h2, fun k v h => h3 k v (.inr h)⟩
    · simp [hc]
  | fail e a r ih =>
    simp only [writeB, seqE_fine, ih, Fault, Calls, not_or, and_assoc]
    cases a <;> cases strict <;> simp

/-! ### The recursion -/

/-- every method a writer method calls exists -/
def closedW : WB → Bool
  | .nil => true
  | .attr _ _ _ r | .text _ _ r | .prim _ _ _ r | .oprim _ _ _ _ r | .fail _ _ r => closedW r
  | .each _ _ _ cases _ r => (cases.all fun c => (writers c.body).isSome) && closedW r
  | .wrap _ _ b r | .when _ b r => closedW b && closedW r

theorem closedW_table : closedW saveBody = true ∧ Gen.writeTable.all (fun _ b => closedW b) = true := by
  constructor <;> decide +kernel

theorem closedW_calls {k : Key} {v : MObj py.F} (W : WB) (h : closedW W = true) (hc : Calls o k v W) : (writers k).isSome = true := by
  induction W with
  | nil => cases hc
  | attr _ _ _ r ih => exact ih h hc
  | text _ _ r ih => exact ih h hc
  | prim _ _ _ r ih => exact ih h hc
  | oprim _ _ _ _ r ih => exact ih h hc
  | fail _ _ r ih => exact ih h hc
  | each f w a cases other r ih =>
    simp only [closedW, Bool.and_eq_true, List.all_eq_true] at h
    rcases hc with ⟨-, c, hc, rfl⟩ | hc
    · exact h.1 c (List.mem_of_find?_eq_some hc)
    · exact ih h.2 hc
  | wrap c t b r ihb ihr =>
    simp only [closedW, Bool.and_eq_true] at h
    rcases hc with ⟨-, hc⟩ | hc
    · exact ihb h.1 hc
    · exact ihr h.2 hc
  | when c b r ihb ihr =>
    simp only [closedW, Bool.and_eq_true] at h
    rcases hc with ⟨-, hc⟩ | hc
    · exact ihb h.1 hc
    · exact ihr h.2 hc

theorem writers_calls {k j : Key} {b : WB} {v : MObj py.F} (hb : writers k = some b) (hc : Calls o j v b) : (writers j).isSome = true := by
  refine closedW_calls b ?_ hc
  unfold writers at hb
  split at hb
  · cases hb; exact closedW_table.1
  · exact (Bst.all_toList _ _).1 closedW_table.2 _ (Bst.find?_mem hb)

theorem view_mem {v : MObj py.F} {f : Key} {w : List Key} (h : v ∈ o.view f w) : v ∈ o.get f := by
  unfold MObj.view at h
  split at h
  · exact h
  · exact (List.mem_filter.1 h).1

theorem calls_depth {k : Key} {v : MObj py.F} (W : WB) (hc : Calls o k v W) : v.depth < o.depth := by
  induction W with
  | nil => cases hc
  | attr _ _ _ r ih => exact ih hc
  | text _ _ r ih => exact ih hc
  | prim _ _ _ r ih => exact ih hc
  | oprim _ _ _ _ r ih => exact ih hc
  | fail _ _ r ih => exact ih hc
  | each f w a cases other r ih =>
    rcases hc with ⟨hv, -⟩ | hc
    · exact depth_get (view_mem hv)
    · exact ih hc
  | wrap c t b r ihb ihr =>
    rcases hc with ⟨-, hc⟩ | hc
    · exact ihb hc
    · exact ihr hc
  | when c b r ihb ihr =>
    rcases hc with ⟨-, hc⟩ | hc
    · exact ihb hc
    · exact ihr hc

theorem write_visited {k k' : Key} {v : MObj py.F} (hv : Writes writers k o k' v) {n : Nat} {r : Out}
    (h : writeObj py repr strict writers n k o = .ok r) : ∃ m r', writeObj py repr strict writers m k' v = .ok r' := by
  induction hv generalizing n r with
  | self => exact ⟨n, r, h⟩
  | step k o b j v k' w hb hc _ ih =>
    cases n with
    | zero => cases h
    | succ n =>
      simp only [writeObj, hb] at h
      obtain ⟨r', hr'⟩ := ((writeB_fine' b).1 ⟨r, h⟩).2 j v hc
      exact ih hr'

theorem no_fault {n : Nat} {k : Key} {b : WB} {r : Out} (hb : writers k = some b) (h : writeObj py repr strict writers n k o = .ok r) : ¬ Fault strict o b := by
  cases n with
  | zero => cases h
  | succ n =>
    simp only [writeObj, hb] at h
    exact ((writeB_fine' b).1 ⟨r, h⟩).1

theorem write_of_fine {n : Nat} {k : Key} {o : MObj py.F} (hn : o.depth ≤ n) (hk : (writers k).isSome = true)
    (h : ∀ k' v b, Writes writers k o k' v → writers k' = some b → ¬ Fault strict v b) : ∃ r, writeObj py repr strict writers n k o = .ok r := by
  induction n generalizing k o with
  | zero => exact absurd (mdepth_pos o) (by omega)
  | succ n ih =>
    obtain ⟨b, hb⟩ := Option.isSome_iff_exists.1 hk
    simp only [writeObj, hb]
    refine (writeB_fine' b).2 ⟨h k o b (.self k o) hb, fun j v hc => ?_⟩
    have := calls_depth b hc
    exact ih (by omega) (writers_calls hb hc) fun k' w b' hw hb' => h k' w b' (.step k o b j v k' w hb hc hw) hb'

end
end Verif.Lemmas
