import Verif.Lemmas.Create
import Verif.Model.Tree
namespace Verif.Lemmas
open Verif.Model Verif.Model.World

/-- the fields of an object that never change -/
def static (o : Obj) : Kind × String × Nat × Nat := (o.kind, o.name, o.cls, o.parent)

/-- `w'` has the objects of `w`, perhaps with other members, and possibly more objects -/
def Ext (w w' : World) : Prop := ∀ i o, w.get i = some o → ∃ o', w'.get i = some o' ∧ static o' = static o

/-- the invariant of reachable stores -/
structure WF (w : World) : Prop where
  fresh : ∀ i, w.next ≤ i → w.get i = none
  root : ∃ o, w.get singleton = some o ∧ o.kind = .doc
  inv : ∀ i o, w.get i = some o → Inv o.own.coll
  parent : ∀ i o, w.get i = some o → o.kind ≠ .doc → o.parent < i
  mem : ∀ i o, w.get i = some o → ∀ e ∈ o.own.coll.elements, ∃ o', w.get e.id = some o' ∧
    (o'.kind = .ident ∨ o'.kind = .plain) ∧ o'.name = e.name ∧ o'.cls = e.cls ∧ o'.parent = i
  pk : ∀ i o, w.get i = some o → ∀ q ∈ o.pkgs, ∃ o', w.get q.2 = some o' ∧
    o'.kind = .pkg ∧ o'.name = q.1 ∧ o'.parent = i
  keys : ∀ i o, w.get i = some o → (o.pkgs.map (·.1)).Nodup
  leaf : ∀ i o, w.get i = some o → (o.kind = .ident ∨ o.kind = .plain) → o.pkgs = []
  nocoll : ∀ i o, w.get i = some o → o.kind = .plain → o.own.coll.elements = []
  docs : ∀ i o, w.get i = some o → o.kind = .doc → static o = static freshDoc

theorem Ext.refl (w : World) : Ext w w := fun _ o h => ⟨o, h, rfl⟩
theorem Ext.trans {a b c : World} (h : Ext a b) (h' : Ext b c) : Ext a c := by
  intro i o ho
  obtain ⟨o1, h1, s1⟩ := h i o ho
  obtain ⟨o2, h2, s2⟩ := h' i o1 h1
  exact ⟨o2, h2, s2.trans s1⟩

theorem WF.lt {w : World} (h : WF w) {i : Nat} {o : Obj} (ho : w.get i = some o) : i < w.next := by
  rcases Nat.lt_or_ge i w.next with hl | hl
  · exact hl
  · rw [h.fresh i hl] at ho; cases ho

theorem ext_upd {w : World} {i : Nat} {o o' : Obj} (hi : w.get i = some o) (hs : static o' = static o) :
    Ext w (w.upd i o') := by
  intro j p hj
  by_cases e : j = i
  · subst e
    rw [hi] at hj; cases hj
    exact ⟨o', by simp [upd], hs⟩
  · exact ⟨p, by simp [upd, e, hj], rfl⟩

theorem ext_alloc {w : World} (h : WF w) (o : Obj) : Ext w (w.alloc o) := by
  intro j p hj
  have := h.lt hj
  exact ⟨p, by simp [alloc, Nat.ne_of_lt this, hj], rfl⟩

theorem alloc_get_old {w : World} {o : Obj} {j : Nat} (h : j ≠ w.next) : (w.alloc o).get j = w.get j := by
  simp [alloc, h]

/-- adding an object that has no members keeps the invariant -/
theorem wf_alloc {w : World} (h : WF w) (o : Obj) (hown : o.own = Owner.empty) (hpk : o.pkgs = [])
    (hpar : o.kind ≠ .doc → o.parent < w.next) (hdoc : o.kind = .doc → static o = static freshDoc) :
    WF (w.alloc o) := by
  have hext := ext_alloc h o
  have hcase : ∀ {i p}, (w.alloc o).get i = some p → (i = w.next ∧ p = o) ∨ w.get i = some p := by
    intro i p hp
    by_cases e : i = w.next
    · left; refine ⟨e, ?_⟩; simpa [alloc, e] using hp.symm
    · right; simpa [alloc, e] using hp
  have hown' : o.own.coll.elements = [] := by rw [hown]; rfl
  refine ⟨?_, ?_, ?_, ?_, ?_, ?_, ?_, ?_, ?_, ?_⟩
  · intro i hi
    have hi : w.next + 1 ≤ i := hi
    rw [alloc_get_old (by omega)]
    exact h.fresh i (by omega)
  · obtain ⟨r, hr, hk⟩ := h.root
    obtain ⟨r', hr', hs⟩ := hext _ _ hr
    exact ⟨r', hr', by rw [show r'.kind = r.kind from congrArg (·.1) hs, hk]⟩
  · intro i p hp
    rcases hcase hp with ⟨-, rfl⟩ | hp
    · rw [hown]; exact inv_empty
    · exact h.inv i p hp
  · intro i p hp hk
    rcases hcase hp with ⟨rfl, rfl⟩ | hp
    · exact hpar hk
    · exact h.parent i p hp hk
  · intro i p hp e he
    rcases hcase hp with ⟨-, rfl⟩ | hp
    · rw [hown'] at he; cases he
    · obtain ⟨o', ho', hk, hn, hc, hpa⟩ := h.mem i p hp e he
      obtain ⟨o'', ho'', hs⟩ := hext _ _ ho'
      simp only [static, Prod.mk.injEq] at hs
      exact ⟨o'', ho'', by rw [hs.1]; exact hk, by rw [hs.2.1, hn], by rw [hs.2.2.1, hc], by rw [hs.2.2.2, hpa]⟩
  · intro i p hp q hq
    rcases hcase hp with ⟨-, rfl⟩ | hp
    · rw [hpk] at hq; cases hq
    · obtain ⟨o', ho', hk, hn, hpa⟩ := h.pk i p hp q hq
      obtain ⟨o'', ho'', hs⟩ := hext _ _ ho'
      simp only [static, Prod.mk.injEq] at hs
      exact ⟨o'', ho'', by rw [hs.1]; exact hk, by rw [hs.2.1, hn], by rw [hs.2.2.2, hpa]⟩
  · intro i p hp
    rcases hcase hp with ⟨-, rfl⟩ | hp
    · rw [hpk]; simp
    · exact h.keys i p hp
  · intro i p hp hk
    rcases hcase hp with ⟨-, rfl⟩ | hp
    · exact hpk
    · exact h.leaf i p hp hk
  · intro i p hp hk
    rcases hcase hp with ⟨-, rfl⟩ | hp
    · exact hown'
    · exact h.nocoll i p hp hk
  · intro i p hp hk
    rcases hcase hp with ⟨-, rfl⟩ | hp
    · exact hdoc hk
    · exact h.docs i p hp hk

/-- changing the members of one object keeps the invariant if the new members are proper children -/
theorem wf_upd {w : World} (h : WF w) {i : Nat} {o o' : Obj} (hi : w.get i = some o) (hs : static o' = static o)
    (hinv : Inv o'.own.coll)
    (hmem : ∀ e ∈ o'.own.coll.elements, ∃ c, w.get e.id = some c ∧
      (c.kind = .ident ∨ c.kind = .plain) ∧ c.name = e.name ∧ c.cls = e.cls ∧ c.parent = i)
    (hpk : ∀ q ∈ o'.pkgs, ∃ c, w.get q.2 = some c ∧ c.kind = .pkg ∧ c.name = q.1 ∧ c.parent = i)
    (hkeys : (o'.pkgs.map (·.1)).Nodup)
    (hleaf : (o.kind = .ident ∨ o.kind = .plain) → o'.pkgs = [])
    (hnc : o.kind = .plain → o'.own.coll.elements = []) : WF (w.upd i o') := by
  have hext : Ext w (w.upd i o') := ext_upd hi hs
  have hcase : ∀ {j p}, (w.upd i o').get j = some p → (j = i ∧ p = o') ∨ (j ≠ i ∧ w.get j = some p) := by
    intro j p hp
    by_cases e : j = i
    · left; refine ⟨e, ?_⟩; simpa [upd, e] using hp.symm
    · right; refine ⟨e, ?_⟩; simpa [upd, e] using hp
  have hs' := hs
  simp only [static, Prod.mk.injEq] at hs'
  have tr : ∀ {j c}, w.get j = some c → ∃ c', (w.upd i o').get j = some c' ∧ c'.kind = c.kind ∧ c'.name = c.name
      ∧ c'.cls = c.cls ∧ c'.parent = c.parent := by
    intro j c hc
    obtain ⟨c', hc', hs⟩ := hext _ _ hc
    simp only [static, Prod.mk.injEq] at hs
    exact ⟨c', hc', hs⟩
  refine ⟨?_, ?_, ?_, ?_, ?_, ?_, ?_, ?_, ?_, ?_⟩
  · intro j hj
    have hj : w.next ≤ j := hj
    have : j ≠ i := by rintro rfl; rw [h.fresh _ hj] at hi; cases hi
    simpa [upd, this] using h.fresh j hj
  · obtain ⟨r, hr, hk⟩ := h.root
    obtain ⟨r', hr', hk', -⟩ := tr hr
    exact ⟨r', hr', by rw [hk', hk]⟩
  · intro j p hp
    rcases hcase hp with ⟨-, rfl⟩ | ⟨-, hp⟩
    · exact hinv
    · exact h.inv j p hp
  · intro j p hp hk
    rcases hcase hp with ⟨rfl, rfl⟩ | ⟨-, hp⟩
    · rw [hs'.2.2.2]; exact h.parent _ o hi (by rw [← hs'.1]; exact hk)
    · exact h.parent j p hp hk
  · intro j p hp e he
    have : ∃ c, w.get e.id = some c ∧ (c.kind = .ident ∨ c.kind = .plain) ∧ c.name = e.name ∧ c.cls = e.cls ∧ c.parent = j := by
      rcases hcase hp with ⟨rfl, rfl⟩ | ⟨-, hp⟩
      · exact hmem e he
      · exact h.mem j p hp e he
    obtain ⟨c, hc, h1, h2, h3, h4⟩ := this
    obtain ⟨c', hc', k1, k2, k3, k4⟩ := tr hc
    exact ⟨c', hc', by rw [k1]; exact h1, by rw [k2, h2], by rw [k3, h3], by rw [k4, h4]⟩
  · intro j p hp q hq
    have : ∃ c, w.get q.2 = some c ∧ c.kind = .pkg ∧ c.name = q.1 ∧ c.parent = j := by
      rcases hcase hp with ⟨rfl, rfl⟩ | ⟨-, hp⟩
      · exact hpk q hq
      · exact h.pk j p hp q hq
    obtain ⟨c, hc, h1, h2, h4⟩ := this
    obtain ⟨c', hc', k1, k2, -, k4⟩ := tr hc
    exact ⟨c', hc', by rw [k1]; exact h1, by rw [k2, h2], by rw [k4, h4]⟩
  · intro j p hp
    rcases hcase hp with ⟨-, rfl⟩ | ⟨-, hp⟩
    · exact hkeys
    · exact h.keys j p hp
  · intro j p hp hk
    rcases hcase hp with ⟨-, rfl⟩ | ⟨-, hp⟩
    · exact hleaf (by rw [← hs'.1]; exact hk)
    · exact h.leaf j p hp hk
  · intro j p hp hk
    rcases hcase hp with ⟨-, rfl⟩ | ⟨-, hp⟩
    · exact hnc (by rw [← hs'.1]; exact hk)
    · exact h.nocoll j p hp hk
  · intro j p hp hk
    rcases hcase hp with ⟨rfl, rfl⟩ | ⟨-, hp⟩
    · rw [hs]; exact h.docs _ o hi (by rw [← hs'.1]; exact hk)
    · exact h.docs j p hp hk

theorem wf_init : WF World.init := by
  have hc : ∀ {i o}, World.init.get i = some o → i = 0 ∧ o = freshDoc := by
    intro i o h
    by_cases e : i = 0
    · refine ⟨e, ?_⟩; simpa [World.init, e] using h.symm
    · simp [World.init, e] at h
  refine ⟨?_, ⟨freshDoc, rfl, rfl⟩, ?_, ?_, ?_, ?_, ?_, ?_, ?_, ?_⟩
  · intro i hi
    have hi : 1 ≤ i := hi
    simp [World.init, Nat.ne_of_gt hi]
  · intro i o h; obtain ⟨-, rfl⟩ := hc h; exact inv_empty
  · intro i o h hk; obtain ⟨-, rfl⟩ := hc h; exact absurd rfl hk
  · intro i o h e he; obtain ⟨-, rfl⟩ := hc h; cases he
  · intro i o h q hq; obtain ⟨-, rfl⟩ := hc h; cases hq
  · intro i o h; obtain ⟨-, rfl⟩ := hc h; simp [freshDoc]
  · intro i o h _; obtain ⟨-, rfl⟩ := hc h; rfl
  · intro i o h _; obtain ⟨-, rfl⟩ := hc h; rfl
  · intro i o h _; obtain ⟨-, rfl⟩ := hc h; rfl

theorem lookup_mem {n : String} {v : Nat} {l : List (String × Nat)} (h : l.lookup n = some v) : (n, v) ∈ l := by
  induction l with
  | nil => cases h
  | cons a l ih =>
    obtain ⟨k, x⟩ := a
    by_cases e : n = k
    · subst e; simp only [List.lookup_cons_self, Option.some.injEq] at h; subst h; exact List.mem_cons_self ..
    · rw [List.lookup_cons] at h
      simp only [beq_eq_false_iff_ne.2 e] at h
      exact List.mem_cons_of_mem _ (ih h)

theorem lookup_none {n : String} {l : List (String × Nat)} (h : l.lookup n = none) : n ∉ l.map (·.1) := by
  induction l with
  | nil => simp
  | cons a l ih =>
    obtain ⟨k, x⟩ := a
    by_cases e : n = k
    · subst e; simp at h
    · rw [List.lookup_cons] at h
      simp only [beq_eq_false_iff_ne.2 e] at h
      simp only [List.map_cons, List.mem_cons, not_or]
      exact ⟨e, ih h⟩

theorem lookup_of_mem {n : String} {v : Nat} {l : List (String × Nat)} (hnd : (l.map (·.1)).Nodup) (h : (n, v) ∈ l) :
    l.lookup n = some v := by
  induction l with
  | nil => cases h
  | cons a l ih =>
    obtain ⟨k, x⟩ := a
    simp only [List.map_cons, List.nodup_cons] at hnd
    rcases List.mem_cons.1 h with h | h
    · cases h; simp
    · have : n ≠ k := by
        intro e
        exact hnd.1 (List.mem_map.2 ⟨(n, v), h, e⟩)
      rw [List.lookup_cons]
      simp only [beq_eq_false_iff_ne.2 this]
      exact ih hnd.2 h

theorem alloc_get_new (w : World) (o : Obj) : (w.alloc o).get w.next = some o := by simp [alloc]

theorem wf_createARPackage {w : World} (h : WF w) (pc recv : Nat) (n : String) :
    WF (w.createARPackage recv pc n).1 ∧ Ext w (w.createARPackage recv pc n).1 := by
  unfold World.createARPackage
  cases ho : w.get recv with
  | none => exact ⟨h, Ext.refl w⟩
  | some o =>
    have hlt := h.lt ho
    have main : (o.kind = .doc ∨ o.kind = .pkg) → o.pkgs.lookup n = none →
        WF ((w.alloc ⟨.pkg, n, pc, recv, Owner.empty, []⟩).upd recv { o with pkgs := o.pkgs ++ [(n, w.next)] })
        ∧ Ext w ((w.alloc ⟨.pkg, n, pc, recv, Owner.empty, []⟩).upd recv { o with pkgs := o.pkgs ++ [(n, w.next)] }) := by
      intro hk hl
      have h1 := wf_alloc h ⟨.pkg, n, pc, recv, Owner.empty, []⟩ rfl rfl (fun _ => hlt) (fun hk => by cases hk)
      have hext := ext_alloc h (⟨.pkg, n, pc, recv, Owner.empty, []⟩ : Obj)
      have ho' : (w.alloc ⟨.pkg, n, pc, recv, Owner.empty, []⟩).get recv = some o := by
        rw [alloc_get_old (Nat.ne_of_lt hlt)]; exact ho
      refine ⟨?_, hext.trans (ext_upd ho' rfl)⟩
      refine wf_upd h1 ho' rfl (h.inv _ o ho) (h1.mem _ o ho') ?_ ?_ ?_ (h.nocoll _ o ho)
      · intro q hq
        rcases List.mem_append.1 hq with hq | hq
        · exact h1.pk _ _ ho' q hq
        · simp only [List.mem_singleton] at hq; subst hq
          exact ⟨_, alloc_get_new _ _, rfl, rfl, rfl⟩
      · simp only [List.map_append, List.map_cons, List.map_nil]
        refine List.nodup_append.2 ⟨h.keys _ _ ho, by simp, ?_⟩
        intro a ha b hb
        simp only [List.mem_singleton] at hb; subst hb
        rintro rfl
        exact lookup_none hl ha
      · intro hk'; rcases hk with hk | hk <;> rcases hk' with hk' | hk' <;> simp [hk] at hk'
    cases hk : o.kind with
    | ident => simpa [hk] using ⟨h, Ext.refl w⟩
    | plain => simpa [hk] using ⟨h, Ext.refl w⟩
    | doc =>
      cases hl : o.pkgs.lookup n with
      | some p => simpa [hk, hl] using ⟨h, Ext.refl w⟩
      | none => simpa [hk, hl] using main (.inl hk) hl
    | pkg =>
      cases hl : o.pkgs.lookup n with
      | some p => simpa [hk, hl] using ⟨h, Ext.refl w⟩
      | none => simpa [hk, hl] using main (.inr hk) hl

theorem create_elements_subset (H : Hier) (r : CreateRow) (o : Owner) (hi : Inv o.coll) (n : String) (f : Nat) :
    ∀ e ∈ (o.create H r n f).coll.elements, e ∈ o.coll.elements ∨ e = ⟨f, n, r.target⟩ := by
  intro e he
  rcases create_coll_cases H r o n f with h | h <;> rw [h] at he
  · exact .inl he
  · rw [elements_add H hi, Spec.insert] at he
    split at he
    · exact .inl he
    · simpa using he

theorem wf_step (H : Hier) (pc : Nat) {w : World} (h : WF w) (op : World.Op) :
    WF (step H pc w op) ∧ Ext w (step H pc w op) := by
  cases op with
  | newDoc => exact ⟨wf_alloc h _ rfl rfl (fun hk => absurd rfl hk) (fun _ => rfl), ext_alloc h _⟩
  | createARPackage recv n => exact wf_createARPackage h pc recv n
  | create recv r n k =>
    simp only [step]
    cases ho : w.get recv with
    | none => exact ⟨h, Ext.refl w⟩
    | some o =>
      simp only
      split
      · rename_i hk
        split
        · rename_i hcon
          have hlt := h.lt ho
          have h1 := wf_alloc h ⟨k, n, r.target, recv, Owner.empty, []⟩ rfl rfl (fun _ => hlt)
            (fun hd => by rcases hk.1 with e | e <;> rw [e] at hd <;> cases hd)
          have hext := ext_alloc h (⟨k, n, r.target, recv, Owner.empty, []⟩ : Obj)
          have ho' : (w.alloc ⟨k, n, r.target, recv, Owner.empty, []⟩).get recv = some o := by
            rw [alloc_get_old (Nat.ne_of_lt hlt)]; exact ho
          refine ⟨?_, hext.trans (ext_upd ho' rfl)⟩
          refine wf_upd h1 ho' rfl (inv_create H r (h.inv _ o ho) n _) ?_ (h1.pk _ o ho') (h.keys _ o ho)
            (h.leaf _ o ho) (fun hp => absurd hp hk.2)
          intro e he
          rcases create_elements_subset H r o.own (h.inv _ o ho) n w.next e he with he | rfl
          · exact h1.mem _ _ ho' e he
          · exact ⟨_, alloc_get_new _ _, hk.1, rfl, rfl, rfl⟩
        · exact ⟨h, Ext.refl w⟩
      · exact ⟨h, Ext.refl w⟩
  | remove recv n t =>
    simp only [step]
    cases ho : w.get recv with
    | none => exact ⟨h, Ext.refl w⟩
    | some o =>
      simp only
      cases hr : o.own.coll.removeElement H n t with
      | error e => exact ⟨h, Ext.refl w⟩
      | ok c =>
        refine ⟨?_, ext_upd ho rfl⟩
        have hi := h.inv _ _ ho
        obtain ⟨a, ha, hel, -⟩ := remove_ok H hi n t hr
        refine wf_upd h ho rfl (inv_remove H hi n t hr) ?_ (h.pk _ o ho) (h.keys _ o ho) (h.leaf _ o ho) ?_
        · intro e he
          simp only [hel] at he
          exact h.mem _ _ ho e (List.mem_of_mem_erase he)
        · intro hk
          simp only [hel, h.nocoll _ _ ho hk]; rfl
  | clear d =>
    simp only [step]
    cases ho : w.get d with
    | none => exact ⟨h, Ext.refl w⟩
    | some o =>
      simp only
      split
      · refine ⟨?_, ext_upd ho rfl⟩
        refine wf_upd h ho rfl inv_empty (by intro e he; cases he) (by intro q hq; cases hq) (by simp) (fun _ => rfl)
          (fun _ => rfl)
      · exact ⟨h, Ext.refl w⟩

theorem wf_run_from (H : Hier) (pc : Nat) (ops : List World.Op) : ∀ w, WF w →
    WF (ops.foldl (step H pc) w) ∧ Ext w (ops.foldl (step H pc) w) := by
  induction ops with
  | nil => intro w h; exact ⟨h, Ext.refl w⟩
  | cons op ops ih =>
    intro w h
    obtain ⟨h1, e1⟩ := wf_step H pc h op
    obtain ⟨h2, e2⟩ := ih _ h1
    exact ⟨h2, e1.trans e2⟩

theorem wf_run (H : Hier) (pc : Nat) (ops : List World.Op) : WF (World.run H pc ops) :=
  (wf_run_from H pc ops _ wf_init).1

/-! ### path splitting -/

theorem splitSlash_ne_nil (s : List Char) : splitSlash s ≠ [] := by
  induction s with
  | nil => simp [splitSlash]
  | cons c s ih =>
    unfold splitSlash
    split
    · simp
    · split <;> simp

theorem splitSlash_append (a b : List Char) : splitSlash (a ++ '/' :: b) = splitSlash a ++ splitSlash b := by
  induction a with
  | nil => simp [splitSlash]
  | cons c a ih =>
    simp only [List.cons_append, splitSlash]
    split
    · rw [ih]; rfl
    · rw [ih]
      cases h : splitSlash a with
      | nil => exact absurd h (splitSlash_ne_nil a)
      | cons x r => simp

theorem splitSlash_single (s : List Char) (h : '/' ∉ s) : splitSlash s = [s] := by
  induction s with
  | nil => rfl
  | cons c s ih =>
    simp only [List.mem_cons, not_or] at h
    rw [splitSlash, if_neg (Ne.symm h.1), ih h.2]

theorem walk_append (H : Hier) (w : World) (a b : List (List Char)) : ∀ i,
    w.walk H i (a ++ b) = match w.walk H i a with
      | .error e => .error e
      | .ok none => .ok none
      | .ok (some j) => w.walk H j b := by
  induction a with
  | nil => intro i; simp [walk]
  | cons s a ih =>
    intro i
    simp only [List.cons_append, walk]
    split
    · exact ih i
    · cases w.getElement H i (String.ofList s) with
      | error e => rfl
      | ok r => cases r with
        | none => rfl
        | some j => exact ih j

end Verif.Lemmas
