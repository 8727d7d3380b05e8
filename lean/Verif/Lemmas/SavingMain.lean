import Verif.Lemmas.SavingTable
import Verif.Spec.ComSpec
/-!
# When saving stops: the proof
-/
namespace Verif.Lemmas
open Verif Verif.Model Verif.Spec

section
variable {py : Py} {repr : py.F → Str} {strict : Bool}

theorem seqE_err {a b : Except PyErr Out} {e : PyErr} (h : seqE a b = .error e) : a = .error e ∨ b = .error e := by
  unfold seqE at h
  split at h
  · exact .inl h
  · split at h
    · exact .inr h
    · cases h

theorem map_err {α β ε : Type} {a : Except ε α} {f : α → β} {e : ε} (h : a.map f = .error e) : a = .error e := by
  cases a with
  | error e' => simpa [Except.map] using h
  | ok x => simp [Except.map] at h

theorem scalar_fine {k : RKind} {s : Scalar py.F} (h : ScalarOf py k s) {w : WKind} (hw : takesShape w (kindShape k) = true) (t : Key) (e : PyErr) :
    writeKind py repr w t s ≠ .error e := by
  cases k <;> simp only [ScalarOf] at h <;>
    first
    | (obtain ⟨_, _, _, rfl⟩ := h; cases w <;> simp_all [takesShape, kindShape, writeKind])
    | (obtain ⟨_, rfl⟩ := h; cases w <;> simp_all [takesShape, kindShape, writeKind])
    | (obtain ⟨_, _, rfl⟩ := h; cases w <;> simp_all [takesShape, kindShape, writeKind])
    | (obtain ⟨_, _, _, _, rfl⟩ := h; cases w <;> simp_all [takesShape, kindShape, writeKind])
    | (obtain ⟨_, _, _, _, _, rfl⟩ := h; cases w <;> simp_all [takesShape, kindShape, writeKind])
    | (obtain ⟨_, _, _, _, _, _, rfl⟩ := h; cases w <;> simp_all [takesShape, kindShape, writeKind])
    | (obtain ⟨_, _, _, _, _, _, _, rfl⟩ := h; cases w <;> simp_all [takesShape, kindShape, writeKind])

theorem prim_fine {M : Key → MObj py.F → Prop} {i : Item} {v : MObj py.F} (hv : ValueOf M i v) {w : WKind} (hw : primFine w i = true) (t : Key) (e : PyErr) :
    writePrim py repr t w v ≠ .error e := by
  cases i with
  | prim k =>
    obtain ⟨s, rfl, hs⟩ := hv
    simp only [primFine, noValues, itemShape, Bool.false_or] at hw
    exact scalar_fine hs hw t e
  | attr n k =>
    obtain ⟨s, rfl, hs⟩ := hv
    cases k <;> simp only [primFine, noValues, itemShape, Bool.false_or] at hw <;> simp only [AttrOf] at hs
    · obtain ⟨x, rfl⟩ := hs
      cases w <;> simp_all [takesShape, writePrim, writeKind]
    · obtain ⟨x, rfl⟩ := hs
      cases w <;> simp_all [takesShape, writePrim, writeKind]
    · obtain ⟨x, _, rfl⟩ := hs
      cases w <;> simp_all [takesShape, writePrim, writeKind]
  | name =>
    obtain ⟨x, _, rfl⟩ := hv
    simp only [primFine, noValues, itemShape, Bool.false_or] at hw
    cases w <;> simp_all [takesShape, writePrim, writeKind]
  | objs al => simp [primFine, noValues, itemShape] at hw
  | guard _ _ => cases hv
  | want _ _ => cases hv
  | crash _ => cases hv

theorem lookup_key {m : AMap} {e : Str × Str} (h : e ∈ m.map) : ∃ x, m.map.lookup e.1 = some x := by
  cases m with
  | bindingTime =>
    simp only [AMap.map, bindingTimeMap, List.mem_cons, List.not_mem_nil, or_false] at h
    rcases h with rfl | rfl | rfl | rfl <;> exact ⟨_, rfl⟩
  | intervalType =>
    simp only [AMap.map, intervalTypeMap, List.mem_cons, List.not_mem_nil, or_false] at h
    rcases h with rfl | rfl <;> exact ⟨_, rfl⟩

theorem str_fine {M : Key → MObj py.F → Prop} {i : Item} {v : MObj py.F} (hv : ValueOf M i v) (hi : itemShape i = some .str) : ∃ x, v = .scal (.str x) := by
  cases i with
  | prim k =>
    obtain ⟨s, rfl, hs⟩ := hv
    cases k <;> simp [itemShape, kindShape] at hi <;> simp only [ScalarOf] at hs <;> obtain ⟨x, _, rfl⟩ := hs <;> exact ⟨x, rfl⟩
  | attr n k =>
    obtain ⟨s, rfl, hs⟩ := hv
    cases k <;> simp [itemShape] at hi
    obtain ⟨x, rfl⟩ := hs
    exact ⟨x, rfl⟩
  | name => obtain ⟨x, _, rfl⟩ := hv; exact ⟨x, rfl⟩
  | objs al => simp [itemShape] at hi
  | guard _ _ => cases hv
  | want _ _ => cases hv
  | crash _ => cases hv

theorem lit_fine {M : Key → MObj py.F → Prop} {i : Item} {v : MObj py.F} (hv : ValueOf M i v) (hi : itemShape i = some .lit) : ∃ t u x, v = .scal (.lit t u x) := by
  cases i with
  | prim k =>
    obtain ⟨s, rfl, hs⟩ := hv
    cases k <;> simp [itemShape, kindShape] at hi <;> simp only [ScalarOf] at hs
    · obtain ⟨t, u, x, rfl⟩ := hs; exact ⟨_, _, _, rfl⟩
    · obtain ⟨x, rfl⟩ := hs; exact ⟨_, _, _, rfl⟩
    · obtain ⟨x, _, rfl⟩ := hs; exact ⟨_, _, _, rfl⟩
    · obtain ⟨x, _, rfl⟩ := hs; exact ⟨_, _, _, rfl⟩
    · obtain ⟨t, u, x, _, _, rfl⟩ := hs; exact ⟨_, _, _, rfl⟩
  | attr n k =>
    obtain ⟨s, rfl, hs⟩ := hv
    cases k <;> simp [itemShape] at hi
    · obtain ⟨x, rfl⟩ := hs; exact ⟨_, _, _, rfl⟩
    · obtain ⟨x, _, rfl⟩ := hs; exact ⟨_, _, _, rfl⟩
  | name => simp [itemShape] at hi
  | objs al => simp [itemShape] at hi
  | guard _ _ => cases hv
  | want _ _ => cases hv
  | crash _ => cases hv

theorem attr_fine {M : Key → MObj py.F → Prop} {i : Item} {v : MObj py.F} (hv : ValueOf M i v) {w : WAKind} (hw : attrFine w i = true) :
    ∃ s x, v = .scal s ∧ writeAttr py strict w s = .ok x := by
  have hn : noValues i = false := by
    cases i <;> first | rfl | cases hv
  simp only [attrFine, hn, Bool.false_or] at hw
  cases w with
  | raw =>
    obtain ⟨x, rfl⟩ := str_fine hv (by simpa using hw)
    exact ⟨_, _, rfl, rfl⟩
  | getValue =>
    obtain ⟨t, u, x, rfl⟩ := lit_fine hv (by simpa using hw)
    exact ⟨_, _, rfl, rfl⟩
  | mapped m =>
    cases i with
    | attr n k =>
      cases k with
      | mapped m' =>
        have : m = m' := by simpa using hw
        subst this
        obtain ⟨s, rfl, e, he, rfl⟩ := hv
        obtain ⟨x, hx⟩ := lookup_key he
        exact ⟨_, some x, rfl, by simp only [writeAttr, hx]⟩
      | raw => simp at hw
      | lit => simp at hw
    | prim _ => simp at hw
    | name => simp at hw
    | objs _ => simp at hw
    | guard _ _ => simp at hw
    | want _ _ => simp at hw
    | crash _ => simp at hw

theorem clean_mem {D : Key → List Need} {o v : MObj py.F} {f : Key} (h : Clean D strict o) (hv : v ∈ o.get f) : Clean D strict v := by
  obtain ⟨e, he, _, hm⟩ := mem_get hv
  cases h with
  | scal s => cases he
  | mk c fs hn hk => exact hk e he v hm

theorem stop_needs {D : Key → List Need} {o : MObj py.F} (h : Clean D strict o) (hd : D 0 = []) : ∀ n ∈ D o.cls, n.ok strict o := by
  cases h with
  | scal s => intro n hn; rw [show (MObj.scal s).cls = 0 from rfl, hd] at hn; cases hn
  | mk c fs hn hk => exact hn

theorem excused_not {N : List Need} {cs : List Cond} (h : excused strict N cs = true) {o : MObj py.F} (hc : ∀ c ∈ cs, c.holds o = true) (hN : ∀ n ∈ N, n.ok strict o) : False := by
  obtain ⟨n, hn, h⟩ := List.any_eq_true.1 h
  have key : ∀ fs : List Key, (fs.all fun f => cs.any fun c => match c with
      | .none gs => gs.contains (f, [])
      | _ => false) = true → ¬ (Need.oneOf fs).ok strict o := by
    rintro fs h ⟨f, hf, ho⟩
    obtain ⟨c, hcm, h⟩ := List.any_eq_true.1 (List.all_eq_true.1 h f hf)
    cases c with
    | none gs =>
      have := List.all_eq_true.1 (hc _ hcm) (f, []) (by simpa using h)
      exact ho (by simpa [MObj.view] using this)
    | always => cases h
    | any _ => cases h
    | cls _ => cases h
    | notcls _ => cases h
  have hk := hN n hn
  cases n with
  | oneOf fs => exact key fs h hk
  | strict m =>
    cases strict with
    | false => simp at h
    | true =>
      simp only [if_true] at h
      cases m with
      | oneOf fs => exact key fs h (hk rfl)
      | _ => cases h
  | _ => cases h

/-- the values of the attributes are of the right kind -/
def Held (ss : List RSlot) (o : MObj py.F) : Prop := ∀ f, ∀ v ∈ o.get f, ∃ s ∈ ss, hits f s.key = true ∧ ValueOf (HasType readers) s.item v

theorem writeB_stops {wr : Key → MObj py.F → Except PyErr Out} {o : MObj py.F} {ss : List RSlot} (hh : Held ss o)
    (hwr : ∀ rk wk v e, v.depth < o.depth → HasType readers rk v → handed rk wk = true → wr wk v = .error e →
      e ∈ stopErrors strict ∧ ¬ Clean stopsOf strict v) {N : List Need} (hN : Clean stopsOf strict o → ∀ n ∈ N, n.ok strict o) {e : PyErr} (W : WB) :
    ∀ cs, (∀ c ∈ cs, c.holds o = true) → fineW strict N ss cs W = true → writeB py repr strict wr o W = .error e →
      e ∈ stopErrors strict ∧ ¬ Clean stopsOf strict o := by
  induction W with
  | nil => intro cs _ _ h; cases h
  | attr n k f r ih =>
    intro cs hc hf h
    simp only [fineW, Bool.and_eq_true, List.all_eq_true] at hf
    rcases seqE_err h with h | h
    · exfalso
      cases hg : o.get f with
      | nil => rw [hg] at h; cases h
      | cons v vs =>
        obtain ⟨s, hs, h1, h2⟩ := hh f v (by rw [hg]; exact List.mem_cons_self)
        have := hf.1 s hs
        simp only [h1, Bool.not_true, Bool.false_or] at this
        obtain ⟨x, y, rfl, hx⟩ := attr_fine (strict := strict) h2 this
        rw [hg] at h
        simp only [writeAttrOf, hx] at h
        split at h <;> simp_all
    · exact ih cs hc hf.2 h
  | text k f r ih =>
    intro cs hc hf h
    simp only [fineW, Bool.and_eq_true, List.all_eq_true] at hf
    rcases seqE_err h with h | h
    · exfalso
      cases hg : o.get f with
      | nil => rw [hg] at h; cases h
      | cons v vs =>
        obtain ⟨s, hs, h1, h2⟩ := hh f v (by rw [hg]; exact List.mem_cons_self)
        have := hf.1 s hs
        simp only [h1, Bool.not_true, Bool.false_or] at this
        obtain ⟨x, y, rfl, hx⟩ := attr_fine (strict := strict) h2 this
        rw [hg] at h
        simp only [writeTextOf, hx] at h
        split at h <;> simp_all
    · exact ih cs hc hf.2 h
  | prim t k f r ih =>
    intro cs hc hf h
    simp only [fineW, Bool.and_eq_true, List.all_eq_true] at hf
    rcases seqE_err h with h | h
    · exfalso
      obtain ⟨v, hv, h⟩ := mapE_err (map_err h)
      obtain ⟨s, hs, h1, h2⟩ := hh f v hv
      have := hf.1 s hs
      simp only [h1, Bool.not_true, Bool.false_or] at this
      exact prim_fine h2 this _ _ h
    · exact ih cs hc hf.2 h
  | oprim u t k f r ih =>
    intro cs hc hf h
    simp only [fineW, Bool.and_eq_true, List.all_eq_true] at hf
    rcases seqE_err h with h | h
    · exfalso
      obtain ⟨v, hv, h⟩ := mapE_err (map_err h)
      obtain ⟨s, hs, h1, h2⟩ := hh f v hv
      have := hf.1 s hs
      simp only [h1, Bool.not_true, Bool.false_or] at this
      exact prim_fine h2 this _ _ h
    · exact ih cs hc hf.2 h
  | each f w a cases' other r ih =>
    intro cs hc hf h
    simp only [fineW, Bool.and_eq_true, List.all_eq_true] at hf
    rcases seqE_err h with h | h
    · obtain ⟨v, hv, h⟩ := mapE_err (map_err h)
      have hw : v ∈ o.view f w := by
        split at hv
        · exact mem_byName.1 hv
        · exact hv
      have hg := mem_view hw
      obtain ⟨s, hs, h1, h2⟩ := hh f v hg
      have hfine := hf.1 s hs
      simp only [h1, Bool.not_true, Bool.false_or] at hfine
      generalize s.item = i at h2 hfine
      cases i with
      | objs al =>
        obtain ⟨t, k, hk, ht⟩ := h2
        obtain ⟨t', hm⟩ := altOf_mem hk
        have ha := List.all_eq_true.1 hfine _ hm
        obtain ⟨b, vss, hb, hvd, _⟩ := hasType_iff.1 ht
        have hcls : v.cls = b.cls := by rw [hvd]; rfl
        simp only [hb] at ha
        have hin : (!w.isEmpty && !w.any (armodel.sub b.cls)) = false := by
          cases w with
          | nil => rfl
          | cons x w =>
            have := (List.mem_filter.1 hw).2
            unfold MObj.inst at this
            rw [hcls] at this
            simp [this]
        rw [hin, Bool.false_or] at ha
        unfold writeCase at h
        rw [hcls] at h
        cases hc' : cases'.find? fun k => k.takes b.cls with
        | some c =>
          rw [hc'] at h ha
          obtain ⟨h3, h4⟩ := hwr k c.body v e (depth_get hg) ht ha h
          exact ⟨h3, fun hcl => h4 (clean_mem hcl hg)⟩
        | none =>
          rw [hc'] at h ha
          simp only [Bool.or_eq_true, Bool.and_eq_true, beq_iff_eq, Bool.not_eq_true', List.contains_iff_mem] at ha
          rcases ha with (rfl | rfl) | ⟨rfl, ha⟩
          · cases h
          · cases other <;> cases h
          · cases strict with
            | false => cases h
            | true =>
              cases h
              refine ⟨by decide, fun hcl => ?_⟩
              exact hN hcl _ ha rfl v hg hcls
      | prim _ => cases hfine
      | attr _ _ => cases hfine
      | name => cases hfine
      | guard _ _ => cases h2
      | want _ _ => cases h2
      | crash _ => cases h2
    · exact ih cs hc hf.2 h
  | wrap c t b r ihb ihr =>
    intro cs hc hf h
    simp only [fineW, Bool.and_eq_true] at hf
    rcases seqE_err h with h | h
    · by_cases hcc : c.holds o = true
      · rw [if_pos hcc] at h
        exact ihb (c :: cs) (fun d hd => by rcases List.mem_cons.1 hd with rfl | hd; exacts [hcc, hc d hd]) hf.1 (map_err h)
      · rw [if_neg hcc] at h; cases h
    · exact ihr cs hc hf.2 h
  | when c b r ihb ihr =>
    intro cs hc hf h
    simp only [fineW, Bool.and_eq_true] at hf
    rcases seqE_err h with h | h
    · by_cases hcc : c.holds o = true
      · rw [if_pos hcc] at h
        exact ihb (c :: cs) (fun d hd => by rcases List.mem_cons.1 hd with rfl | hd; exacts [hcc, hc d hd]) hf.1 h
      · rw [if_neg hcc] at h; cases h
    · exact ihr cs hc hf.2 h
  | fail e' a r ih =>
    intro cs hc hf h
    simp only [fineW, Bool.and_eq_true, Bool.or_eq_true, Bool.not_eq_true', List.contains_iff_mem] at hf
    rcases seqE_err h with h | h
    · rcases hf.1 with hx | ⟨h1, h2⟩
      · rw [hx] at h; cases h
      · split at h
        · cases h
          exact ⟨h2, fun hcl => excused_not h1 hc (hN hcl)⟩
        · cases h
    · exact ih cs hc hf.2 h

theorem held_typed {k : Key} {b : RBody} {o : MObj py.F} (hb : readers k = some b) (h : HasType readers k o) : o.cls = b.cls ∧ Held b.slots o := by
  obtain ⟨b', vss, h1, rfl, h3, h4⟩ := hasType_iff.1 h
  rw [hb] at h1
  cases h1
  refine ⟨rfl, fun f v hv => ?_⟩
  obtain ⟨e, he, hf, hm⟩ := mem_get hv
  change e ∈ (b.slots.map RSlot.key).zip vss at he
  clear hb h hv h4
  generalize b.slots = ss at h3 he
  induction h3 with
  | nil => cases he
  | cons hs _ ih =>
    simp only [List.map_cons, List.zip_cons_cons, List.mem_cons] at he
    rcases he with rfl | he
    · exact ⟨_, List.mem_cons_self, hf, hs.kinds v hm⟩
    · obtain ⟨s, h1, h2⟩ := ih he
      exact ⟨s, List.mem_cons_of_mem _ h1, h2⟩

theorem stopsOf_zero : stopsOf 0 = [] := by decide

theorem writeObj_stops (n : Nat) : ∀ (rk wk : Key) (o : MObj py.F) (e : PyErr) (b : RBody), o.depth ≤ n → readers rk = some b → o.cls = b.cls → Held b.slots o →
    handed rk wk = true → writeObj py repr strict writers n wk o = .error e → e ∈ stopErrors strict ∧ ¬ Clean stopsOf strict o := by
  induction n with
  | zero => intro rk wk o e b hd; exact absurd (mdepth_pos o) (by omega)
  | succ n ih =>
    intro rk wk o e b hd hb hcls hh hp h
    have hf := saving_pairs (strict := strict) hp
    unfold finePair at hf
    rw [hb] at hf
    cases hw : writers wk with
    | none => rw [hw] at hf; cases hf
    | some w =>
      rw [hw] at hf
      simp only [writeObj, hw] at h
      refine writeB_stops hh ?_ (fun hc m hm => stop_needs hc stopsOf_zero m (hcls ▸ hm)) w [] (fun _ h => by cases h) hf h
      intro rk' wk' v e' hv ht hp' h'
      obtain ⟨b', vss, hb', _⟩ := hasType_iff.1 ht
      obtain ⟨h1, h2⟩ := held_typed hb' ht
      exact ih rk' wk' v e' b' (by omega) hb' h1 h2 hp' h'

theorem held_schema {d : MObj py.F} (ht : HasType readers k!"load" d) : Held loadBody.slots (withSchema py d) := by
  have h := (held_typed (b := loadBody) rfl ht).2
  have hkeys : ∀ e ∈ d.fields, e.1.1 = k!"schema_location" → e.1 = (k!"schema_location", false) := by
    obtain ⟨b, vss, hb, rfl, _⟩ := hasType_iff.1 ht
    cases (show some loadBody = some b from hb)
    intro e he hk
    have hm : e.1 ∈ loadBody.slots.map RSlot.key := (List.of_mem_zip (show (e.1, e.2) ∈ _ from he)).1
    have all : ∀ a ∈ loadBody.slots.map RSlot.key, a.1 = k!"schema_location" → a = (k!"schema_location", false) := by decide
    exact all _ hm hk
  unfold withSchema
  split
  swap
  · exact h
  cases d with
  | scal s => exact h
  | mk c fs =>
    intro f v hv
    obtain ⟨e, he, hf, hm⟩ := mem_get hv
    obtain ⟨e', he', rfl⟩ := List.mem_map.1 he
    have stay : v ∈ e'.2 → hits f e'.1 = true → ∃ s ∈ loadBody.slots, hits f s.key = true ∧ ValueOf (HasType readers) s.item v := fun hm hf =>
      h f v (List.mem_flatMap.2 ⟨e', he', by rw [if_pos hf]; exact hm⟩)
    split at hm
    next hk =>
      rw [if_pos hk] at hf
      simp only [List.mem_singleton] at hm
      subst hm
      have hk' := hkeys e' he' hk
      refine ⟨_, List.mem_cons_self, ?_, ?_⟩
      · rw [hk'] at hf; exact hf
      · exact ⟨_, rfl, _, rfl⟩
    next hk =>
      rw [if_neg hk] at hf
      exact stay hm hf

/-- the reader raises an exception for these elements -/
theorem literals_table : (Gen.readTable.all fun _ b => b.cls != k!"HwAttributeLiteralDef" || b.slots.any fun s => s.item == .crash .attributeError && s.path == .nil) = true := by
  decide +kernel

theorem no_literals {N : Nat} {k : Key} {d v : MObj py.F} (hd : Shaped strict readers invariants N k d) (hv : Within d v) : v.cls ≠ k!"HwAttributeLiteralDef" := by
  induction hv generalizing N k with
  | here o =>
    cases N with
    | zero => cases hd
    | succ N =>
      obtain ⟨b, vss, hb, rfl, hs, _⟩ := hd
      intro hc
      have hc : b.cls = k!"HwAttributeLiteralDef" := hc
      unfold readers at hb
      split at hb
      next => cases hb; exact absurd hc (by decide)
      next =>
        have := (Bst.all_toList _ _).1 literals_table _ (Bst.find?_mem hb)
        simp only [hc, bne_self_eq_false, Bool.false_or, List.any_eq_true, Bool.and_eq_true, beq_iff_eq] at this
        obtain ⟨s, hm, h1, h2⟩ := this
        obtain ⟨i, hi, rfl⟩ := List.getElem_of_mem hm
        have hf := List.forall₂_iff_get.1 hs
        have hfit := hf.2 i hi (hf.1 ▸ hi)
        simp only [List.get_eq_getElem] at hfit
        cases hvs : vss[i]'(hf.1 ▸ hi) with
        | nil =>
          have := (hfit.set hvs).2.2
          simp [inherent, h1, h2] at this
        | cons w ws =>
          have := hfit.kinds w (by rw [hvs]; exact List.mem_cons_self)
          rw [h1] at this
          exact this
  | @inside o v w e he hm _ ih =>
    cases N with
    | zero => cases hd
    | succ N =>
      obtain ⟨b, vss, hb, rfl, hs, _⟩ := hd
      have hz : (e.1, e.2) ∈ (b.slots.map RSlot.key).zip vss := he
      obtain ⟨i, hi, hz⟩ := List.getElem_of_mem hz
      have hf := List.forall₂_iff_get.1 hs
      simp only [List.length_zip, List.length_map] at hi
      have hfit := hf.2 i (by omega) (by omega)
      simp only [List.get_eq_getElem] at hfit
      have he2 : vss[i]'(by omega) = e.2 := by
        rw [List.getElem_zip] at hz
        exact congrArg Prod.snd hz
      have hval := hfit.kinds v (by rw [he2]; exact hm)
      generalize (b.slots[i]'(by omega)).item = it at hval
      have scal : ∀ s : Scalar py.F, v = .scal s → w.cls ≠ k!"HwAttributeLiteralDef" := by
        rintro s rfl
        rename_i hw
        cases hw with
        | here => exact show (0 : Nat) ≠ _ by decide
        | inside e he => cases he
      cases it with
      | objs al => obtain ⟨t, k', _, h'⟩ := hval; exact ih h'
      | prim _ => obtain ⟨s, rfl, _⟩ := hval; exact scal s rfl
      | attr _ _ => obtain ⟨s, rfl, _⟩ := hval; exact scal s rfl
      | name => obtain ⟨s, _, rfl⟩ := hval; exact scal _ rfl
      | guard _ _ => cases hval
      | want _ _ => cases hval
      | crash _ => cases hval

end
end Verif.Lemmas
