import Verif.Spec.Heap
/-!
# Property C75: objects do not depend on each other
-/
namespace Verif.Props
open Verif Verif.Model Verif.Spec

/-- what is true of the heap of a program that shares no lists -/
structure SoleHolders (h : Heap) : Prop where
  one : ∀ l o f o' f', h.attrs o f = some (.list l) → h.attrs o' f' = some (.list l) → o = o' ∧ f = f'
  known : ∀ l, ListHeld h l → ListExists h l
  absent : ∀ o, h.cls o = none → ∀ f, h.attrs o f = none

theorem initial_list {o : Nat} {f : Key} {x : InitVal} {l : ListId} (h : Heap.initial o f x = .list l) : l = .initial o f := by
  cases x <;> simp [Heap.initial] at h
  exact h.symm

theorem new_attrs_list {h : Heap} {o : Nat} {c : Key} {i : Nat} {f : Key} {l : ListId} (hl : (h.new o c).attrs i f = some (.list l)) :
    (i = o ∧ l = .initial o f) ∨ (i ≠ o ∧ h.attrs i f = some (.list l)) := by
  simp only [Heap.new] at hl
  split at hl
  · rename_i hi
    left
    rw [Option.map_eq_some_iff] at hl
    obtain ⟨x, _, hx⟩ := hl
    exact ⟨hi, initial_list hx⟩
  · rename_i hi
    exact .inr ⟨hi, hl⟩

theorem new_sole {h : Heap} {o : Nat} {c : Key} (hs : SoleHolders h) (ho : h.cls o = none) : SoleHolders (h.new o c) := by
  have hno : ∀ i f, h.attrs i f ≠ some (.list (.initial o f)) := fun i f hf => hs.known _ ⟨i, f, hf⟩ ho
  have hno' : ∀ i f g, h.attrs i f ≠ some (.list (.initial o g)) := fun i f g hf => hs.known _ ⟨i, f, hf⟩ ho
  refine ⟨fun l i f i' f' h1 h2 => ?_, fun l hl => ?_, fun i hi f => ?_⟩
  · rcases new_attrs_list h1 with ⟨rfl, rfl⟩ | ⟨_, h1'⟩
    · rcases new_attrs_list h2 with ⟨rfl, h2'⟩ | ⟨_, h2'⟩
      · exact ⟨rfl, by cases h2'; rfl⟩
      · exact absurd h2' (hno' _ _ _)
    · rcases new_attrs_list h2 with ⟨rfl, rfl⟩ | ⟨_, h2'⟩
      · exact absurd h1' (hno' _ _ _)
      · exact hs.one l _ _ _ _ h1' h2'
  · obtain ⟨i, f, hf⟩ := hl
    rcases new_attrs_list hf with ⟨rfl, rfl⟩ | ⟨_, hf'⟩
    · show (if i = i then some c else _) ≠ none
      rw [if_pos rfl]; simp
    · have := hs.known l ⟨i, f, hf'⟩
      cases l with
      | made k => trivial
      | initial j g =>
        show (if j = o then some c else h.cls j) ≠ none
        split
        · simp
        · exact this
  · have hio : i ≠ o := by
      rintro rfl
      simp [Heap.new] at hi
    simp only [Heap.new, if_neg hio] at hi ⊢
    exact hs.absent i hi f

theorem assign_sole {h : Heap} {o : Nat} {f : Key} {v : HV} (hs : SoleHolders h) (ho : h.cls o ≠ none)
    (hv : ∀ l, v = .list l → ListExists h l ∧ ¬ ListHeld h l) : SoleHolders (h.assign o f v) := by
  have split : ∀ i g l, (h.assign o f v).attrs i g = some (.list l) → ((i = o ∧ g = f) ∧ v = .list l) ∨ h.attrs i g = some (.list l) := by
    intro i g l hl
    simp only [Heap.assign] at hl
    split at hl
    · rename_i hi
      exact .inl ⟨hi, Option.some.inj hl⟩
    · exact .inr hl
  refine ⟨fun l i g i' g' h1 h2 => ?_, fun l hl => ?_, fun i hi g => ?_⟩
  · rcases split _ _ _ h1 with ⟨⟨rfl, rfl⟩, hv1⟩ | h1'
    · rcases split _ _ _ h2 with ⟨⟨rfl, rfl⟩, _⟩ | h2'
      · exact ⟨rfl, rfl⟩
      · exact absurd ⟨_, _, h2'⟩ (hv l hv1).2
    · rcases split _ _ _ h2 with ⟨⟨rfl, rfl⟩, hv2⟩ | h2'
      · exact absurd ⟨_, _, h1'⟩ (hv l hv2).2
      · exact hs.one l _ _ _ _ h1' h2'
  · obtain ⟨i, g, hg⟩ := hl
    have : ListExists h l := by
      rcases split _ _ _ hg with ⟨_, hv1⟩ | h1'
      · exact (hv l hv1).1
      · exact hs.known l ⟨i, g, h1'⟩
    cases l <;> exact this
  · have hio : i ≠ o := by
      rintro rfl
      exact ho hi
    simp only [Heap.assign, hio, false_and, if_false]
    exact hs.absent i hi g

theorem store_sole {h : Heap} {l : ListId} {xs : List (Option Nat)} (hs : SoleHolders h) : SoleHolders (h.store l xs) :=
  ⟨hs.one, fun k hk => by have := hs.known k hk; cases k <;> exact this, hs.absent⟩

/-- a list that is held by no other attribute can change without others seeing it -/
theorem store_view {h : Heap} {l : ListId} {xs : List (Option Nat)} {i : Nat} {g : Key} (hl : h.attrs i g ≠ some (.list l)) :
    (h.store l xs).view i g = h.view i g := by
  show ((h.attrs i g).map (h.store l xs).shown) = (h.attrs i g).map h.shown
  cases hv : h.attrs i g with
  | none => rfl
  | some v =>
    cases v with
    | list k =>
      have hk : k ≠ l := fun hkl => hl (by rw [hv, hkl])
      simp [Heap.shown, Heap.store, hk]
    | _ => rfl

theorem shown_none {h : Heap} {v : HV} : h.shown v = .none ↔ v = .none := by cases v <;> simp [Heap.shown]

/-- **C75** A setter changes what the getters of this object show as described for a single object, and nothing of any other object, whatever
was shared before. -/
theorem C75_set (h h' : Heap) (o : Nat) (m : Key) (v : HV) (hr : h.set o m v = .ok h') :
    (∃ c, h.cls o = some c ∧ (Call.set m (h.shown v)).run c (h.view o) = .ok (h'.view o)) ∧ ∀ i, i ≠ o → h'.view i = h.view i := by
  unfold Heap.set at hr
  cases hc : h.cls o with
  | none => rw [hc] at hr; cases hr
  | some c =>
    rw [hc, Option.bind_some] at hr
    cases hm : resolve c m with
    | none => rw [hm] at hr; cases hr
    | some a =>
      rw [hm] at hr
      cases a with
      | set f ign =>
        simp only at hr
        split at hr
        · rename_i hn
          obtain rfl := Except.ok.inj hr
          refine ⟨⟨c, rfl, ?_⟩, fun i _ => rfl⟩
          simp only [Call.run, Call.method, hm, Acc.runSet]
          rw [if_pos ⟨hn.1, shown_none.2 hn.2⟩]
        · rename_i hn
          obtain rfl := Except.ok.inj hr
          refine ⟨⟨c, rfl, ?_⟩, fun i hi => ?_⟩
          · simp only [Call.run, Call.method, hm, Acc.runSet]
            rw [if_neg fun hx => hn ⟨hx.1, shown_none.1 hx.2⟩]
            congr 1
            funext g
            show (if g = f then some (h.shown v) else h.view o g) = ((if o = o ∧ g = f then some v else h.attrs o g).map _)
            by_cases hg : g = f
            · rw [if_pos hg, if_pos ⟨rfl, hg⟩]
              cases v <;> rfl
            · rw [if_neg hg, if_neg fun hx => hg hx.2]
              show (h.attrs o g).map h.shown = (h.attrs o g).map (h.assign o f v).shown
              cases h.attrs o g with
              | none => rfl
              | some w => cases w <;> rfl
          · funext g
            show ((if i = o ∧ g = f then some v else h.attrs i g).map _) = (h.attrs i g).map h.shown
            rw [if_neg fun hx => hi hx.1]
            cases h.attrs i g with
            | none => rfl
            | some w => cases w <;> rfl
      | get f => cases hr
      | add f i d => cases hr
      | other => cases hr

/-- the cases of a successful call of an adder -/
theorem add_cases {h h' : Heap} {o : Nat} {m : Key} {v : Option Nat} (hr : h.add o m v = .ok h') :
    ∃ c f ign dedup, h.cls o = some c ∧ resolve c m = some (.add f ign dedup) ∧
      ((ign = true ∧ v = none ∧ h' = h) ∨ ¬ (ign = true ∧ v = none) ∧ ∃ l, h.attrs o f = some (.list l) ∧
        ((dedup = true ∧ v ∈ h.lists l ∧ h' = h) ∨ (¬ (dedup = true ∧ v ∈ h.lists l) ∧ h' = h.store l (h.lists l ++ [v])))) := by
  unfold Heap.add at hr
  cases hc : h.cls o with
  | none => rw [hc] at hr; cases hr
  | some c =>
    rw [hc, Option.bind_some] at hr
    cases hm : resolve c m with
    | none => rw [hm] at hr; cases hr
    | some a =>
      rw [hm] at hr
      cases a with
      | add f ign dedup =>
        refine ⟨c, f, ign, dedup, rfl, hm, ?_⟩
        simp only at hr
        split at hr
        · rename_i hn
          exact .inl ⟨hn.1, hn.2, (Except.ok.inj hr).symm⟩
        · rename_i hn
          refine .inr ⟨hn, ?_⟩
          cases ha : h.attrs o f with
          | none => rw [ha] at hr; cases hr
          | some w =>
            cases w with
            | list l =>
              rw [ha] at hr
              simp only at hr
              split at hr
              · rename_i hd
                exact ⟨l, rfl, .inl ⟨hd.1, hd.2, (Except.ok.inj hr).symm⟩⟩
              · rename_i hd
                exact ⟨l, rfl, .inr ⟨hd, (Except.ok.inj hr).symm⟩⟩
            | none => rw [ha] at hr; cases hr
            | val i => rw [ha] at hr; cases hr
            | other => rw [ha] at hr; cases hr
      | get f => cases hr
      | set f i => cases hr
      | other => cases hr

/-- **C75** Exactly what an adder changes, whatever is shared: it changes the list `l` its attribute holds, or nothing; another attribute, of this or of
any other object, shows something else afterwards if and only if it holds the same list and the list has grown. -/
theorem C75_add_exact (h h' : Heap) (o : Nat) (m : Key) (v : Option Nat) (hr : h.add o m v = .ok h') :
    h' = h ∨ ∃ c f ign dedup l, h.cls o = some c ∧ resolve c m = some (.add f ign dedup) ∧ h.attrs o f = some (.list l) ∧
      ∀ i g, (h.attrs i g = some (.list l) → h.view i g = some (.list (h.lists l)) ∧ h'.view i g = some (.list (h.lists l ++ [v]))) ∧
        (h.attrs i g ≠ some (.list l) → h'.view i g = h.view i g) := by
  obtain ⟨c, f, ign, dedup, hc, hm, hx | ⟨_, l, hl, hx | ⟨_, rfl⟩⟩⟩ := add_cases hr
  · exact .inl hx.2.2
  · exact .inl hx.2.2
  · refine .inr ⟨c, f, ign, dedup, l, hc, hm, hl, fun i g => ⟨fun hi => ?_, store_view⟩⟩
    constructor
    · show (h.attrs i g).map h.shown = _
      rw [hi]; rfl
    · show (h.attrs i g).map (h.store l _).shown = _
      rw [hi]
      simp [Heap.shown, Heap.store]

theorem add_view {h h' : Heap} (hs : SoleHolders h) {o : Nat} {m : Key} {v : Option Nat} (hr : h.add o m v = .ok h') :
    (∃ c, h.cls o = some c ∧ (Call.add m v).run c (h.view o) = .ok (h'.view o)) ∧ ∀ i, i ≠ o → h'.view i = h.view i := by
  obtain ⟨c, f, ign, dedup, hc, hm, ⟨h1, h2, rfl⟩ | ⟨h1, l, hl, hx⟩⟩ := add_cases hr
  · refine ⟨⟨c, hc, ?_⟩, fun i _ => rfl⟩
    simp only [Call.run, Call.method, hm, Acc.runAdd]
    rw [if_pos ⟨h1, h2⟩]
  · have hvl : h.view o f = some (.list (h.lists l)) := by
      show (h.attrs o f).map h.shown = _
      rw [hl]; rfl
    have hrun : (Call.add m v).run c (h.view o) =
        if dedup = true ∧ v ∈ h.lists l then .ok (h.view o) else .ok ((h.view o).assign f (.list (h.lists l ++ [v]))) := by
      simp only [Call.run, Call.method, hm, Acc.runAdd, hvl]
      rw [if_neg h1]
    rcases hx with ⟨h2, h3, rfl⟩ | ⟨h2, rfl⟩
    · exact ⟨⟨c, hc, hrun.trans (if_pos ⟨h2, h3⟩)⟩, fun i _ => rfl⟩
    · refine ⟨⟨c, hc, ?_⟩, fun i hi => ?_⟩
      · rw [hrun, if_neg h2]
        congr 1
        funext g
        by_cases hg : g = f
        · subst hg
          show (if g = g then _ else _) = (h.attrs o g).map (h.store l _).shown
          rw [if_pos rfl, hl]
          simp [Heap.shown, Heap.store]
        · show (if g = f then _ else h.view o g) = _
          rw [if_neg hg, store_view fun hx => hg (hs.one l _ _ _ _ hx hl).2]
      · funext g
        exact store_view fun hx => hi (hs.one l _ _ _ _ hx hl).1

theorem set_sole {h h' : Heap} (hs : SoleHolders h) {o : Nat} {m : Key} {v : HV} (hr : h.set o m v = .ok h')
    (hv : ∀ l, v = .list l → ListExists h l ∧ ¬ ListHeld h l) : SoleHolders h' ∧ h'.cls = h.cls := by
  unfold Heap.set at hr
  cases hc : h.cls o with
  | none => rw [hc] at hr; cases hr
  | some c =>
    rw [hc, Option.bind_some] at hr
    cases hm : resolve c m with
    | none => rw [hm] at hr; cases hr
    | some a =>
      rw [hm] at hr
      cases a with
      | set f ign =>
        simp only at hr
        split at hr
        · rw [← Except.ok.inj hr]; exact ⟨hs, rfl⟩
        · rw [← Except.ok.inj hr]
          exact ⟨assign_sole hs (by rw [hc]; simp) hv, rfl⟩
      | get f => cases hr
      | add f i d => cases hr
      | other => cases hr

theorem add_sole {h h' : Heap} (hs : SoleHolders h) {o : Nat} {m : Key} {v : Option Nat} (hr : h.add o m v = .ok h') :
    SoleHolders h' ∧ h'.cls = h.cls := by
  obtain ⟨_, _, _, _, _, _, ⟨_, _, rfl⟩ | ⟨_, _, _, ⟨_, _, rfl⟩ | ⟨_, rfl⟩⟩⟩ := add_cases hr
  · exact ⟨hs, rfl⟩
  · exact ⟨hs, rfl⟩
  · exact ⟨store_sole hs, rfl⟩

theorem unshared_sole {h : Heap} {r : List (Nat × Call Nat)} (hu : Unshared h r) : SoleHolders h := by
  induction hu with
  | start lists => exact ⟨fun l o f o' f' h1 => (nomatch h1), fun l ⟨o, f, hf⟩ => (nomatch hf), fun o _ f => rfl⟩
  | new o c _ ho ih => exact new_sole ih ho
  | set o m v _ hr hv ih => exact (set_sole ih hr hv).1
  | add o m v _ hr ih => exact (add_sole ih hr).1
  | store l xs _ _ ih => exact store_sole ih

/-- **C75** A new object has the attributes its constructors assign, with lists of its own, and no other object changes. -/
theorem C75_new (h : Heap) (r : List (Nat × Call Nat)) (hu : Unshared h r) (o : Nat) (c : Key) (ho : h.cls o = none) :
    (h.new o c).view o = fresh Nat c ∧ ∀ i, i ≠ o → (h.new o c).view i = h.view i := by
  have hs := unshared_sole hu
  refine ⟨?_, fun i hi => ?_⟩
  · funext f
    show ((if o = o then (inits c f).map (Heap.initial o f) else _).map _) = (inits c f).map InitVal.toPV
    rw [if_pos rfl]
    cases inits c f with
    | none => rfl
    | some x =>
      cases x <;> simp [Heap.initial, Heap.shown, InitVal.toPV, Heap.new]
  · funext f
    show ((if i = o then _ else h.attrs i f).map (h.new o c).shown) = (h.attrs i f).map h.shown
    rw [if_neg hi]
    cases hv : h.attrs i f with
    | none => rfl
    | some v =>
      cases v with
      | list l =>
        have hk := hs.known l ⟨i, f, hv⟩
        cases l with
        | made k => rfl
        | initial j g =>
          have hj : j ≠ o := by
            rintro rfl
            exact hk ho
          simp [Heap.shown, Heap.new, hj]
      | _ => rfl

theorem runCalls_snoc {c : Key} (ks : List (Call Nat)) (k : Call Nat) (x y z : Attrs Nat) (h1 : runCalls c ks x = .ok y) (h2 : k.run c y = .ok z) :
    runCalls c (ks ++ [k]) x = .ok z := by
  induction ks generalizing x with
  | nil =>
    obtain rfl := Except.ok.inj h1
    rw [List.nil_append, runCalls, h2]; rfl
  | cons a ks ih =>
    simp only [runCalls, List.cons_append] at h1 ⊢
    cases ha : a.run c x with
    | error e => rw [ha] at h1; cases h1
    | ok x' => rw [ha] at h1; exact ih x' h1

theorem callsOn_snoc_self (o : Nat) (r : List (Nat × Call Nat)) (k : Call Nat) : callsOn o (r ++ [(o, k)]) = callsOn o r ++ [k] := by
  simp [callsOn]

theorem callsOn_snoc_other {o i : Nat} (hi : i ≠ o) (r : List (Nat × Call Nat)) (k : Call Nat) : callsOn i (r ++ [(o, k)]) = callsOn i r := by
  simp [callsOn, Ne.symm hi]

/-- objects that do not exist have had no calls -/
theorem unshared_calls {h : Heap} {r : List (Nat × Call Nat)} (hu : Unshared h r) (o : Nat) (ho : h.cls o = none) : callsOn o r = [] := by
  induction hu with
  | start lists => rfl
  | @new h r i c _ hi ih =>
    refine ih ?_
    simp only [Heap.new] at ho
    split at ho
    · cases ho
    · exact ho
  | @set h h' r i m v hu' hr hv ih =>
    have hcls := (set_sole (unshared_sole hu') hr hv).2
    rw [hcls] at ho
    have : o ≠ i := by
      rintro rfl
      obtain ⟨⟨c, hc, _⟩, _⟩ := C75_set _ _ _ _ _ hr
      rw [hc] at ho; cases ho
    rw [callsOn_snoc_other this]; exact ih ho
  | @add h h' r i m v hu' hr ih =>
    have hcls := (add_sole (unshared_sole hu') hr).2
    rw [hcls] at ho
    have : o ≠ i := by
      rintro rfl
      obtain ⟨c, _, _, _, hc, _⟩ := add_cases hr
      rw [hc] at ho; cases ho
    rw [callsOn_snoc_other this]; exact ih ho
  | store l xs _ _ ih => exact ih ho

/-- **C75** What the getters of an object show after any program that shares no lists is determined by its class and by the calls made on this
object, in their order: it is what these calls make of a new object that is alone in the world.  (Missing: lists that are shared, see `C75_shared_broken`.) -/
theorem C75_independent_partial (h : Heap) (r : List (Nat × Call Nat)) (hu : Unshared h r) (o : Nat) (c : Key) (ho : h.cls o = some c) :
    runCalls c (callsOn o r) (fresh Nat c) = .ok (h.view o) := by
  induction hu generalizing c with
  | start lists => cases ho
  | @new h r i d hu' hi ih =>
    obtain ⟨h1, h2⟩ := C75_new h r hu' i d hi
    by_cases hio : o = i
    · subst hio
      have : c = d := by
        simp only [Heap.new, if_true] at ho
        exact (Option.some.inj ho).symm
      subst this
      rw [unshared_calls hu' o hi, h1]; rfl
    · rw [h2 o hio]
      refine ih c ?_
      simpa only [Heap.new, if_neg hio] using ho
  | @set h h' r i m v hu' hr hv ih =>
    have hcls := (set_sole (unshared_sole hu') hr hv).2
    rw [hcls] at ho
    obtain ⟨⟨d, hd, h1⟩, h2⟩ := C75_set _ _ _ _ _ hr
    by_cases hio : o = i
    · subst hio
      rw [ho] at hd
      obtain rfl := Option.some.inj hd
      rw [callsOn_snoc_self]
      exact runCalls_snoc _ _ _ _ _ (ih c ho) h1
    · rw [callsOn_snoc_other hio, h2 o hio]; exact ih c ho
  | @add h h' r i m v hu' hr ih =>
    have hcls := (add_sole (unshared_sole hu') hr).2
    rw [hcls] at ho
    obtain ⟨⟨d, hd, h1⟩, h2⟩ := add_view (unshared_sole hu') hr
    by_cases hio : o = i
    · subst hio
      rw [ho] at hd
      obtain rfl := Option.some.inj hd
      rw [callsOn_snoc_self]
      exact runCalls_snoc _ _ _ _ _ (ih c ho) h1
    · rw [callsOn_snoc_other hio, h2 o hio]; exact ih c ho
  | @store h r l xs hu' hl ih =>
    rw [ih c ho]
    congr 1
    funext g
    exact (store_view fun hx => hl ⟨o, g, hx⟩).symm

/-! ## sharing -/

/-- **C75 is refuted** for lists that are shared.  Of any two objects `p` and `q`: if the list that a getter of `p` returns is given to `q`, by a setter whose
attribute has an adder, then adding to `q` changes what `p` shows. -/
theorem C75_shared_broken (h : Heap) (p q : Nat) (l : ListId) (x : Nat) (b c g st ad f f' : Key) (ign ign' dedup : Bool)
    (hp : h.cls p = some b) (hq : h.cls q = some c) (hpq : p ≠ q)
    (hg : resolve b g = some (.get f')) (hs : resolve c st = some (.set f ign)) (ha : resolve c ad = some (.add f ign' dedup))
    (hl : h.get p g = .ok (.list l)) (hx : some x ∉ h.lists l) :
    ∃ h1 h2, h.set q st (.list l) = .ok h1 ∧ h1.add q ad (some x) = .ok h2 ∧
      h1.view p = h.view p ∧ callGet b g (h1.view p) = .ok (.list (h.lists l)) ∧ callGet b g (h2.view p) = .ok (.list (h.lists l ++ [some x])) := by
  have hpl : h.attrs p f' = some (.list l) := by
    unfold Heap.get at hl
    rw [hp, Option.bind_some, hg] at hl
    simp only at hl
    cases ha : h.attrs p f' with
    | none => rw [ha] at hl; cases hl
    | some v => rw [ha] at hl; exact congrArg some (Except.ok.inj hl)
  have h1 : h.set q st (.list l) = .ok (h.assign q f (.list l)) := by
    unfold Heap.set
    rw [hq, Option.bind_some, hs]
    simp only
    rw [if_neg fun hx => (nomatch hx.2)]
  have hql : (h.assign q f (.list l)).attrs q f = some (.list l) := if_pos ⟨rfl, rfl⟩
  have hpl1 : (h.assign q f (.list l)).attrs p f' = some (.list l) := by
    show (if p = q ∧ _ then _ else _) = _
    rw [if_neg fun hx => hpq hx.1]; exact hpl
  have h2 : (h.assign q f (.list l)).add q ad (some x) = .ok ((h.assign q f (.list l)).store l (h.lists l ++ [some x])) := by
    unfold Heap.add
    rw [show (h.assign q f (.list l)).cls q = some c from hq, Option.bind_some, ha]
    simp only
    rw [if_neg (by simp), hql]
    simp only
    rw [if_neg fun hd => hx hd.2]
    rfl
  refine ⟨_, _, h1, h2, (C75_set _ _ _ _ _ h1).2 p hpq, ?_, ?_⟩
  · have : (h.assign q f (.list l)).view p f' = some (.list (h.lists l)) := by
      show ((h.assign q f (.list l)).attrs p f').map _ = _
      rw [hpl1]; rfl
    simp only [callGet, hg, Acc.read, this]
  · have : ((h.assign q f (.list l)).store l (h.lists l ++ [some x])).view p f' = some (.list (h.lists l ++ [some x])) := by
      show ((h.assign q f (.list l)).attrs p f').map _ = _
      rw [hpl1]
      simp [Heap.shown, Heap.store]
    simp only [callGet, hg, Acc.read, this]

/-! ## concrete cases -/

theorem pin_set : resolve k!"HwPin" k!"setFunctionNames" = some (.set k!"functionNames" true) := by decide +kernel
theorem pin_add : resolve k!"HwPin" k!"addFunctionName" = some (.add k!"functionNames" false true) := by decide +kernel
theorem pin_get : resolve k!"HwPin" k!"getFunctionNames" = some (.get k!"functionNames") := by decide +kernel
theorem pin_init : inits k!"HwPin" k!"functionNames" = some .nil := by decide +kernel

/-- two pins are constructed -/
def demoPins : Heap := ((Heap.empty fun _ => []).new 0 k!"HwPin").new 1 k!"HwPin"

theorem demoPins_unshared : Unshared demoPins [] := .new _ _ (.new _ _ (.start _) rfl) rfl

theorem demoPins_list (o : Nat) (ho : o = 0 ∨ o = 1) : demoPins.attrs o k!"functionNames" = some (.list (.initial o k!"functionNames")) := by
  rcases ho with rfl | rfl
  · simp [demoPins, Heap.new, pin_init, Heap.initial]
  · simp [demoPins, Heap.new, pin_init, Heap.initial]

/-- a name is added to the first pin: the hypotheses of `C75_independent_partial` hold, for both pins -/
example : ∃ h, Unshared h [(0, .add k!"addFunctionName" (some 7))] ∧ h.cls 0 = some k!"HwPin" ∧ h.cls 1 = some k!"HwPin" := by
  have ha : demoPins.add 0 k!"addFunctionName" (some 7) = .ok (demoPins.store (.initial 0 k!"functionNames") [some 7]) := by
    unfold Heap.add
    rw [show demoPins.cls 0 = some k!"HwPin" from rfl, Option.bind_some, pin_add]
    simp only
    rw [if_neg (by simp), demoPins_list 0 (.inl rfl)]
    rfl
  exact ⟨_, .add (r := []) 0 _ _ demoPins_unshared ha, rfl, rfl⟩

/-- the hypotheses of `C75_shared_broken` hold for the two pins (`pin_get`, `pin_set`, `pin_add`) -/
example : demoPins.cls 0 = some k!"HwPin" ∧ demoPins.cls 1 = some k!"HwPin" ∧
    demoPins.get 0 k!"getFunctionNames" = .ok (.list (.initial 0 k!"functionNames")) ∧ some 7 ∉ demoPins.lists (.initial 0 k!"functionNames") := by
  refine ⟨rfl, rfl, ?_, by simp [demoPins, Heap.new]⟩
  unfold Heap.get
  rw [show demoPins.cls 0 = some k!"HwPin" from rfl, Option.bind_some, pin_get]
  simp only
  rw [demoPins_list 0 (.inl rfl)]

end Verif.Props
