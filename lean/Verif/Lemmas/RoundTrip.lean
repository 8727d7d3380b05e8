import Verif.Lemmas.Values
/-!
# A checked pair of methods is a round trip
-/
namespace Verif.Lemmas
open Verif Verif.Model Verif.Spec

section
variable {py : Py} (repr : py.F → Str) (strict : Bool) (rd : Key → Xml → Except RErr (MObj py.F))
  (wr : Key → MObj py.F → Except PyErr Out) (S : Key → Key → Bool)

/-- an object is written as `y`, and `y` is read as `v'` -/
structure Ch (p : Pair) (v v' : MObj py.F) (y : Xml) : Prop where
  cls : v'.cls = v.cls
  name : v'.name = v.name
  same : Same S v v'
  tag : y.tag = p.tag
  w1 : wr p.wk v = .ok { kids := [y] }
  w2 : wr p.wk v' = .ok { kids := [y] }
  rd : ∀ y', Reload y y' → rd p.rk y' = .ok v'

structure Kid (F : Type) where
  p : Pair
  v : MObj F
  v' : MObj F
  y : Xml

def srt {F : Type} (sort : Bool) (ks : List (Kid F)) : List (Kid F) :=
  if sort then sortBy (fun k => String.ofList k.v.name) ks else ks

/-- how the new values of a slot come about -/
def RowRel (C : Ctx) (r : Row py.F) : Plan → Prop
  | .same => r.vs' = r.vs ∧ r.ys = [] ∧ ∀ v ∈ r.vs, ∃ s, v = .scal s
  | .objs sort ps => ∃ ks : List (Kid py.F), r.vs = ks.map Kid.v ∧ r.vs' = (srt sort ks).map Kid.v' ∧ r.ys = (srt sort ks).map Kid.y ∧
      ∀ k ∈ ks, k.p ∈ ps ∧ C.cl k.p.rk = some k.v.cls ∧ Ch rd wr S k.p k.v k.v' k.y

/-- the object, the slots, what the checks gave -/
structure Good (M : Key → MObj py.F → Prop) (rd : Key → Xml → Except RErr (MObj py.F)) (wr : Key → MObj py.F → Except PyErr Out)
    (S : Key → Key → Bool) (C : Ctx) (b : WB) (o : MObj py.F) (rows : List (Row py.F)) : Prop where
  facts : Facts strict M C o rows
  set : ∀ r ∈ rows, r.vs = [] → r.s.req ≠ .always ∧ (r.s.req = .strict → strict = false)
  plan : ∀ r ∈ rows, C.chkSlot b r.s = some r.plan
  rel : ∀ r ∈ rows, RowRel rd wr S C r r.plan

/-- the elements for a view -/
def rowYs (C : Ctx) (rows : List (Row py.F)) (f : Key) (w : List Key) : List Xml :=
  rows.flatMap fun r => if C.sole f w r.s then r.ys else []

end

section
variable {py : Py} {repr : py.F → Str} {strict : Bool} {rd : Key → Xml → Except RErr (MObj py.F)}
  {wr : Key → MObj py.F → Except PyErr Out} {S : Key → Key → Bool} {C : Ctx} {b : WB} {o : MObj py.F} {M : Key → MObj py.F → Prop}
  {rows : List (Row py.F)}

theorem srt_perm {F : Type} (sort : Bool) (ks : List (Kid F)) : (srt sort ks).Perm ks := by
  unfold srt
  split
  · exact sortBy_perm _ _
  · exact .refl _

theorem slotPairs_sound {s : RSlot} {cases : List Case} {alts : List (Key × Key)} {ps : List Pair}
    (h : C.slotPairs s cases alts = some ps) :
    (∀ p ∈ ps, (p.tag, p.rk) ∈ alts ∧ p.ex = C.innerNeeds s ∧ ∃ c, C.cl p.rk = some c ∧ C.gone s c = false ∧ caseOf cases c = some p.wk) ∧
    (∀ a ∈ alts, ∀ c, C.cl a.2 = some c → C.gone s c = false → ∃ p ∈ ps, p.rk = a.2) := by
  induction alts generalizing ps with
  | nil => cases h; simp
  | cons a l ih =>
    simp only [Ctx.slotPairs] at h
    split at h
    · cases h
    · rename_i ps' hps
      obtain ⟨i1, i2⟩ := ih hps
      have lift : ∀ p ∈ ps', (p.tag, p.rk) ∈ a :: l ∧ p.ex = C.innerNeeds s ∧
          ∃ c, C.cl p.rk = some c ∧ C.gone s c = false ∧ caseOf cases c = some p.wk :=
        fun p hp => ⟨List.mem_cons_of_mem _ (i1 p hp).1, (i1 p hp).2⟩
      split at h
      · rename_i hcl
        cases h
        refine ⟨lift, fun a' ha' c hc hg => ?_⟩
        rcases List.mem_cons.1 ha' with rfl | ha'
        · rw [hcl] at hc; cases hc
        · exact i2 a' ha' c hc hg
      · rename_i c0 hcl
        split at h
        · rename_i hg0
          cases h
          refine ⟨lift, fun a' ha' c hc hg => ?_⟩
          rcases List.mem_cons.1 ha' with rfl | ha'
          · rw [hcl] at hc; cases hc; rw [hg0] at hg; cases hg
          · exact i2 a' ha' c hc hg
        · rename_i hg0
          split at h
          · cases h
          · rename_i wk hwk
            cases h
            refine ⟨fun p hp => ?_, fun a' ha' c hc hg => ?_⟩
            · rcases List.mem_cons.1 hp with rfl | hp
              · exact ⟨by simp, rfl, c0, hcl, by simpa using hg0, hwk⟩
              · exact lift p hp
            · rcases List.mem_cons.1 ha' with rfl | ha'
              · exact ⟨_, List.mem_cons_self, rfl⟩
              · obtain ⟨p, hp, h2⟩ := i2 a' ha' c hc hg
                exact ⟨p, List.mem_cons_of_mem _ hp, h2⟩

/-- the plan `objs` -/
theorem chkSlot_objs {s : RSlot} {sort : Bool} {ps : List Pair} (h : C.chkSlot b s = some (.objs sort ps)) :
    ∃ alts cs f v arr cases ot one, s.item = .objs alts ∧ s.field ≠ k!"short_name" ∧ C.locate s.path b = some (.leaf cs (.each f v arr cases ot) one) ∧
      C.sole f v s = true ∧ cs.all (C.implied f v) = true ∧ (one = true → Ctx.atMost1 s = true) ∧ (sort = true → C.S C.cls s.field = true) ∧
      C.slotPairs s cases alts = some ps ∧ ∀ p ∈ ps, altOf alts p.tag = some p.rk := by
  unfold Ctx.chkSlot at h
  split at h
  · split at h
    · split at h <;> cases h
    · cases h
  · split at h
    · cases h
    · split at h
      · split at h <;> cases h
      · cases h
    · cases h
  · split at h <;> cases h
  · split at h
    · split at h <;> cases h
    · cases h
  · split at h
    · split at h <;> cases h
    · split at h <;> cases h
    · split at h
      · split at h <;> cases h
      · cases h
    · cases h
  · split at h
    · split at h <;> cases h
    · split at h
      · split at h <;> cases h
      · split at h <;> cases h
      · cases h
    · cases h
  · rename_i alts hi
    split at h
    · cases h
    · rename_i hfield
      split at h
      · split at h <;> cases h
      · rename_i cs f v arr cases' ot one hloc
        split at h
        · rename_i hc
          split at h
          · rename_i ps' hps
            split at h
            · rename_i hall
              cases h
              simp only [Bool.and_eq_true, Bool.or_eq_true, Bool.not_eq_true'] at hc
              refine ⟨alts, cs, f, v, arr, cases', ot, one, hi, by simpa using hfield, hloc, hc.1.1.1, hc.1.1.2, ?_, ?_, hps, ?_⟩
              · intro h1
                rcases hc.1.2 with h2 | h2
                · rw [h1] at h2; cases h2
                · exact h2
              · intro h1
                rcases hc.2 with h2 | h2
                · rw [h1] at h2; cases h2
                · exact h2
              · intro p hp
                simpa using List.all_eq_true.1 hall p hp
            · cases h
          · cases h
        · cases h
      · cases h

theorem Good.vs'_cls (h : Good strict M rd wr S C b o rows) {r : Row py.F} (hr : r ∈ rows) :
    (r.vs'.map MObj.cls).Perm (r.vs.map MObj.cls) ∧ (r.vs'.map MObj.name).Perm (r.vs.map MObj.name) := by
  have := h.rel r hr
  cases hp : r.plan with
  | same => rw [hp] at this; rw [this.1]; exact ⟨.refl _, .refl _⟩
  | objs sort ps =>
    rw [hp] at this
    obtain ⟨ks, h1, h2, _, h4⟩ := this
    rw [h1, h2, List.map_map, List.map_map, List.map_map, List.map_map]
    constructor
    · refine ((srt_perm sort ks).map _).trans (List.Perm.of_eq ?_)
      exact List.map_congr_left fun k hk => (h4 k hk).2.2.cls
    · refine ((srt_perm sort ks).map _).trans (List.Perm.of_eq ?_)
      exact List.map_congr_left fun k hk => (h4 k hk).2.2.name

theorem Good.vs'_mem (h : Good strict M rd wr S C b o rows) : ∀ r ∈ rows, ∀ u ∈ r.vs', ∃ v ∈ r.vs, v.cls = u.cls := by
  intro r hr u hu
  have := (h.vs'_cls hr).1.mem_iff.1 (List.mem_map_of_mem hu)
  obtain ⟨v, hv, hc⟩ := List.mem_map.1 this
  exact ⟨v, hv, hc⟩

theorem Good.vs'_length (h : Good strict M rd wr S C b o rows) {r : Row py.F} (hr : r ∈ rows) : r.vs'.length = r.vs.length := by
  have := (h.vs'_cls hr).1.length_eq
  simpa using this

theorem Good.sem (h : Good strict M rd wr S C b o rows) : Sem C o (rowYs C rows) := by
  refine ⟨h.facts.cls, fun f v hd => h.facts.dead hd, fun f v hv => ?_, fun f v y hy => ?_⟩
  · rw [rowYs, List.flatMap_eq_nil_iff]
    intro r hr
    split
    · rename_i hs
      have hrel := h.rel r hr
      cases hp : r.plan with
      | same => rw [hp] at hrel; exact hrel.2.1
      | objs sort ps =>
        have hpl := h.plan r hr
        rw [hp] at hrel hpl
        obtain ⟨alts, _, _, _, _, _, _, _, hi, _⟩ := chkSlot_objs hpl
        have hvs := h.facts.sole hr hs (.inr ⟨alts, hi⟩)
        rw [hv] at hvs
        obtain ⟨ks, h1, _, h3, _⟩ := hrel
        rw [h1] at hvs
        have : ks = [] := by simpa using hvs.symm
        subst this
        rw [h3]
        cases sort <;> rfl
    · rfl
  · obtain ⟨r, hr, hy⟩ := List.mem_flatMap.1 hy
    split at hy
    · rename_i hs
      have hrel := h.rel r hr
      cases hp : r.plan with
      | same => rw [hp] at hrel; rw [hrel.2.1] at hy; cases hy
      | objs sort ps =>
        have hpl := h.plan r hr
        rw [hp] at hrel hpl
        obtain ⟨alts, _, _, _, _, _, _, _, hi, _, _, _, _, _, _, hsp, _⟩ := chkSlot_objs hpl
        obtain ⟨ks, _, _, h3, h4⟩ := hrel
        rw [h3] at hy
        obtain ⟨k, hk, rfl⟩ := List.mem_map.1 hy
        obtain ⟨hkp, hkc, hch⟩ := h4 k ((srt_perm sort ks).mem_iff.1 hk)
        obtain ⟨ha, _, c, hc, hg, _⟩ := (slotPairs_sound hsp).1 _ hkp
        rw [hch.tag]
        refine List.mem_flatMap.2 ⟨r.s, by rw [h.facts.slots]; exact List.mem_map_of_mem hr, ?_⟩
        rw [if_pos (sole_feeds hs).1]
        simp only [hi]
        refine List.mem_map.2 ⟨_, List.mem_filter.2 ⟨ha, ?_⟩, rfl⟩
        simp [Ctx.shows, hc, hg, inView]
    · cases hy

/-! ## Writing -/

theorem Out.app_nil (a : Out) : Out.app {} a = a := by
  obtain ⟨at_, t, k⟩ := a
  simp only [Out.app, List.nil_append, Out.mk.injEq, true_and, and_true]
  split <;> simp [*]

theorem outs_kids (ks : List (Kid py.F)) : outs (ks.map fun k => { kids := [k.y] }) = { kids := ks.map Kid.y } := by
  induction ks with
  | nil => rfl
  | cons k ks ih => simp only [List.map_cons, outs, ih]; rfl

theorem nest_outs {l : List Out} (h : l.length ≤ 1) : nest l = outs l := by
  match l, h with
  | [], _ => rfl
  | [a], _ =>
    obtain ⟨at_, tx, ks⟩ := a
    show Out.into _ {} = Out.app _ {}
    unfold Out.into
    split
    · rename_i t as s ks' hk
      simp only at hk
      subst hk
      simp [Out.app]
    · rfl

theorem arr_outs {a : Arr} {l : List Out} (h : a = .nested → l.length ≤ 1) : a.outs l = outs l := by
  cases a with
  | nested => exact nest_outs (h rfl)
  | _ => rfl

theorem caseOf_write {cases : List Case} {ot : Other} {v : MObj py.F} {wk : Key} (h : caseOf cases v.cls = some wk) :
    writeCase py strict wr cases ot v = wr wk v := by
  unfold caseOf at h
  obtain ⟨k, hk, rfl⟩ := Option.map_eq_some_iff.1 h
  simp only [writeCase, hk]

theorem each_write {arr : Arr} {cases : List Case} {ot : Other} {g : Kid py.F → MObj py.F} {ks : List (Kid py.F)}
    (hn : arr = .nested → ks.length ≤ 1) (h : ∀ k ∈ ks, writeCase py strict wr cases ot (g k) = .ok { kids := [k.y] }) :
    (mapE (writeCase py strict wr cases ot) (ks.map g)).map arr.outs = .ok { kids := ks.map Kid.y } := by
  have : mapE (writeCase py strict wr cases ot) (ks.map g) = .ok (ks.map fun k => ({ kids := [k.y] } : Out)) := by
    clear hn
    induction ks with
    | nil => rfl
    | cons k ks ih =>
      simp only [List.map_cons, mapE, h k (by simp), ih fun k hk => h k (by simp [hk])]
  rw [this]
  simp only [Except.map]
  rw [arr_outs (by simpa using hn), outs_kids]

theorem byName_srt {ks : List (Kid py.F)} (sort : Bool) :
    (if sort then byName (ks.map Kid.v) else ks.map Kid.v) = (srt sort ks).map Kid.v := by
  cases sort
  · rfl
  · simp only [if_true, srt, byName]
    rw [sortBy_map]

/-- the values after saving are in order already -/
theorem byName_srt' {ks : List (Kid py.F)} (sort : Bool) (h : ∀ k ∈ ks, k.v'.name = k.v.name) :
    (if sort then byName ((srt sort ks).map Kid.v') else (srt sort ks).map Kid.v') = (srt sort ks).map Kid.v' := by
  cases sort
  · rfl
  · simp only [if_true, srt, byName]
    rw [sortBy_map]
    congr 1
    rw [sortBy_congr (key' := fun k => String.ofList k.v.name)]
    · exact sortBy_idem _ _
    · intro k hk
      rw [h k ((sortBy_perm _ ks).mem_iff.1 hk)]

/-- an attribute is only shown in places where the values can be written -/
theorem Good.fits (h : Good strict M rd wr S C b o rows) {f : Key} {P : Item → Prop}
    (hc : C.dead f [] = true ∨ ∀ s ∈ C.slots, C.feeds f [] s = true → P s.item) :
    ∀ v ∈ o.get f, ∃ i, P i ∧ ValueOf M i v := by
  intro v hv
  rcases hc with hc | hc
  · have := h.facts.dead hc
    rw [show o.get f = [] from this] at hv
    cases hv
  · obtain ⟨r, hr, hf, hv⟩ := h.facts.of_get hv
    exact ⟨r.s.item, hc r.s (by rw [h.facts.slots]; exact List.mem_map_of_mem hr) (h.facts.feeds hr hf hv rfl), h.facts.org r hr v hv⟩

/-- and is the same after saving -/
theorem Good.get_same (h : Good strict M rd wr S C b o rows) {o' : MObj py.F} (ho' : o'.fields = rows.map fun r => (r.s.key, r.vs'))
    {f : Key} (hc : C.dead f [] = true ∨ ∀ s ∈ C.slots, C.feeds f [] s = true → ∀ alts, s.item ≠ .objs alts) :
    o'.get f = o.get f := by
  rw [h.facts.get, MObj.get, ho', List.flatMap_map]
  apply List.flatMap_congr
  intro r hr
  split
  · rename_i hf
    have hrel := h.rel r hr
    by_cases hv : r.vs = []
    · rw [hv]
      have := h.vs'_length hr
      rw [hv] at this
      exact List.eq_nil_of_length_eq_zero this
    · cases hp : r.plan with
      | same => rw [hp] at hrel; exact hrel.1
      | objs sort ps =>
        exfalso
        have hpl := h.plan r hr
        rw [hp] at hpl
        obtain ⟨alts, _, _, _, _, _, _, _, hi, _⟩ := chkSlot_objs hpl
        obtain ⟨v, hvm⟩ := List.exists_mem_of_ne_nil _ hv
        rcases hc with hc | hc
        · have := h.facts.dead hc
          have hm := h.facts.mem_get hr hf hvm
          rw [show o.get f = [] from this] at hm
          cases hm
        · exact hc r.s (by rw [h.facts.slots]; exact List.mem_map_of_mem hr) (h.facts.feeds hr hf hvm rfl) alts hi
  · rfl

theorem Good.get_perm (h : Good strict M rd wr S C b o rows) {o' : MObj py.F} (ho' : o'.fields = rows.map fun r => (r.s.key, r.vs'))
    (f : Key) : ((o'.get f).map MObj.cls).Perm ((o.get f).map MObj.cls) ∧ ((o'.get f).map MObj.name).Perm ((o.get f).map MObj.name) := by
  rw [h.facts.get, MObj.get, ho', List.flatMap_map]
  have hall : ∀ r ∈ rows, (r.vs'.map MObj.cls).Perm (r.vs.map MObj.cls) ∧ (r.vs'.map MObj.name).Perm (r.vs.map MObj.name) :=
    fun r hr => h.vs'_cls hr
  clear h ho'
  induction rows with
  | nil => exact ⟨.refl _, .refl _⟩
  | cons r rows ih =>
    obtain ⟨i1, i2⟩ := ih fun a ha => hall a (by simp [ha])
    obtain ⟨h1, h2⟩ := hall r (by simp)
    simp only [List.flatMap_cons, List.map_append]
    split
    · exact ⟨h1.append i1, h2.append i2⟩
    · exact ⟨i1, i2⟩

theorem view_isEmpty (o : MObj py.F) (f : Key) (w : List Key) :
    (o.view f w).isEmpty = ((o.get f).map MObj.cls).all fun c => !inView w c := by
  rw [view_eq]
  generalize o.get f = l
  induction l with
  | nil => rfl
  | cons v l ih =>
    simp only [List.map_cons, List.all_cons, List.filter_cons, ← ih]
    cases inView w v.cls <;> simp

theorem Good.holds (h : Good strict M rd wr S C b o rows) {o' : MObj py.F} (ho' : o'.fields = rows.map fun r => (r.s.key, r.vs'))
    (hcls : o'.cls = o.cls) (c : Cond) : c.holds o' = c.holds o := by
  have hv : ∀ f w, (o'.view f w).isEmpty = (o.view f w).isEmpty := by
    intro f w
    rw [view_isEmpty, view_isEmpty]
    exact (h.get_perm ho' f).1.all_eq
  cases c <;> simp only [Cond.holds, hv, MObj.inst, hcls]

/-- both objects are written in the same way -/
theorem Good.write (h : Good strict M rd wr S C b o rows) {o' : MObj py.F} (ho' : o'.fields = rows.map fun r => (r.s.key, r.vs'))
    (hcls : o'.cls = o.cls) {P : List (RSlot × Plan)} (hP : P = rows.map fun r => (r.s, r.plan)) {cs : List Cond} {W : WB}
    (hW : C.chkW P cs W = true) (hcs : condsHold py o cs = true) :
    writeB py repr strict wr o W = .ok (pureOut py repr strict o (rowYs C rows) W) ∧
    writeB py repr strict wr o' W = .ok (pureOut py repr strict o (rowYs C rows) W) := by
  have hsem := h.sem
  have seq : ∀ {a : Except PyErr Out} {x : Out} {y : Out} {b : Except PyErr Out}, a = .ok x → b = .ok y → seqE a b = .ok (x.app y) := by
    intro a x y b h1 h2; rw [h1, h2]; rfl
  have hattr : ∀ {k : WAKind} {f : Key}, (C.dead f [] || C.slots.all fun s => !C.feeds f [] s || Ctx.attrFits s.item k) = true →
      o'.get f = o.get f ∧ (o.get f = [] ∨ ∃ s w vs, o.get f = .scal s :: vs ∧ writeAttr py strict k s = .ok (some w)) := by
    intro k f hk
    simp only [Bool.or_eq_true, List.all_eq_true, Bool.not_eq_true'] at hk
    have hk' : C.dead f [] = true ∨ ∀ s ∈ C.slots, C.feeds f [] s = true → Ctx.attrFits s.item k = true :=
      hk.imp id fun hk s hs hf => (hk s hs).resolve_left (by simp [hf])
    refine ⟨h.get_same ho' (hk'.imp id fun hk s hs hf alts hi => by have := hk s hs hf; rw [hi] at this; cases this), ?_⟩
    cases hg : o.get f with
    | nil => exact .inl rfl
    | cons v vs =>
      obtain ⟨i, hi, ho⟩ := h.fits (P := fun i => Ctx.attrFits i k = true) hk' v (by rw [hg]; simp)
      obtain ⟨s, w, rfl, hw⟩ := attrFits_ok hi ho
      exact .inr ⟨s, w, vs, rfl, hw⟩
  have hprim : ∀ {k : WKind} {f : Key} (t : Key), (C.dead f [] || C.slots.all fun s => !C.feeds f [] s || C.primFits f s.item k) = true →
      o'.get f = o.get f ∧ mapE (writePrim py repr t k) (o.get f) = .ok ((o.get f).flatMap (primK py repr t k)) := by
    intro k f t hk
    simp only [Bool.or_eq_true, List.all_eq_true, Bool.not_eq_true'] at hk
    have hk' : C.dead f [] = true ∨ ∀ s ∈ C.slots, C.feeds f [] s = true → C.primFits f s.item k = true :=
      hk.imp id fun hk s hs hf => (hk s hs).resolve_left (by simp [hf])
    refine ⟨h.get_same ho' (hk'.imp id fun hk s hs hf alts hi => by have := hk s hs hf; rw [hi] at this; cases this), ?_⟩
    have hall : ∀ v ∈ o.get f, ∃ y, writePrim py repr t k v = .ok y := by
      intro v hv
      obtain ⟨i, hi, ho⟩ := h.fits (P := fun i => C.primFits f i k = true) hk' v hv
      obtain ⟨y, hy, _⟩ := prim_rt h.facts.needs hi hv ho t (repr := repr) (rd := rd)
      exact ⟨y, hy⟩
    generalize o.get f = vs at hall
    induction vs with
    | nil => rfl
    | cons v vs ih =>
      obtain ⟨y, hy⟩ := hall v (by simp)
      simp only [mapE, hy, ih fun u hu => hall u (by simp [hu]), List.flatMap_cons, primK_eq hy, List.singleton_append]
  induction W generalizing cs with
  | nil => exact ⟨rfl, rfl⟩
  | attr n k f r ih =>
    simp only [Ctx.chkW, Bool.and_eq_true] at hW
    obtain ⟨i1, i2⟩ := ih hW.2 hcs
    obtain ⟨hs, hg⟩ := hattr hW.1
    have : writeAttrOf py strict n k (o.get f) = .ok { attrs := attrL py strict n k (o.get f) } := by
      rcases hg with hg | ⟨s, w, vs, hg, hw⟩
      · rw [hg]; rfl
      · rw [hg]; exact writeAttrOf_eq hw vs
    exact ⟨seq this i1, seq (by rw [hs]; exact this) i2⟩
  | text k f r ih =>
    simp only [Ctx.chkW, Bool.and_eq_true] at hW
    obtain ⟨i1, i2⟩ := ih hW.2 hcs
    obtain ⟨hs, hg⟩ := hattr hW.1
    have : writeTextOf py strict k (o.get f) = .ok { text := textL py strict k (o.get f) } := by
      rcases hg with hg | ⟨s, w, vs, hg, hw⟩
      · rw [hg]; rfl
      · rw [hg]; exact writeTextOf_eq hw vs
    exact ⟨seq this i1, seq (by rw [hs]; exact this) i2⟩
  | prim t k f r ih =>
    simp only [Ctx.chkW, Bool.and_eq_true] at hW
    obtain ⟨i1, i2⟩ := ih hW.2 hcs
    obtain ⟨hs, hg⟩ := hprim t hW.1
    exact ⟨seq (by rw [hg]; rfl) i1, seq (by rw [hs, hg]; rfl) i2⟩
  | oprim u t k f r ih =>
    simp only [Ctx.chkW, Bool.and_eq_true] at hW
    obtain ⟨i1, i2⟩ := ih hW.2 hcs
    obtain ⟨hs, hg⟩ := hprim t hW.1
    exact ⟨seq (by rw [hg]; rfl) i1, seq (by rw [hs, hg]; rfl) i2⟩
  | each f v arr cases ot r ih =>
    simp only [Ctx.chkW, Bool.and_eq_true] at hW
    obtain ⟨i1, i2⟩ := ih hW.2 hcs
    have hd := hW.1
    rw [Bool.or_eq_true] at hd
    simp only [writeB, pureOut]
    by_cases hdead : C.dead f v = true
    · have hv : o.view f v = [] := h.facts.dead hdead
      have hv' : o'.view f v = [] := by
        have h1 : (o'.view f v).isEmpty = (o.view f v).isEmpty := by
          rw [view_isEmpty, view_isEmpty]; exact (h.get_perm ho' f).1.all_eq
        rw [hv] at h1
        exact List.isEmpty_iff.1 h1
      have hy : rowYs C rows f v = [] := hsem.ysNil f v hv
      rw [hv, hv', hy]
      constructor
      · exact seq (by cases arr <;> rfl) i1
      · exact seq (by cases arr <;> rfl) i2
    · have hd := hd.resolve_left hdead
      rw [Bool.and_eq_true, Bool.and_eq_true, beq_iff_eq] at hd
      obtain ⟨⟨hnest, hlen⟩, hall⟩ := hd
      obtain ⟨s, hs⟩ : ∃ s, C.slots.filter (C.feeds f v) = [s] := List.length_eq_one_iff.1 hlen
      have hsm : s ∈ C.slots ∧ C.feeds f v s = true := List.mem_filter.1 (by rw [hs]; simp)
      rw [h.facts.slots] at hsm
      obtain ⟨⟨r', hr', rfl⟩, hf⟩ := And.imp List.mem_map.1 id hsm
      have hr := List.all_eq_true.1 hall (r'.s, r'.plan) (by rw [hP]; exact List.mem_map.2 ⟨r', hr', rfl⟩)
      simp only [hf, Bool.not_true, Bool.false_or, Bool.and_eq_true] at hr
      obtain ⟨hsole, hplan⟩ := hr
      have hrel := h.rel r' hr'
      have hpl := h.plan r' hr'
      cases hp : r'.plan with
      | same => rw [hp] at hplan; cases hplan
      | objs sort' ps =>
        rw [hp] at hplan hrel hpl
        simp only [Bool.and_eq_true, beq_iff_eq, List.all_eq_true] at hplan
        obtain ⟨rfl, hps⟩ := hplan
        obtain ⟨alts, _, _, _, _, _, _, _, hi, _⟩ := chkSlot_objs hpl
        obtain ⟨ks, hk1, hk2, hk3, hk4⟩ := hrel
        have hv : o.view f v = r'.vs := h.facts.sole hr' hsole (.inr ⟨alts, hi⟩)
        have hv' : o'.view f v = r'.vs' := h.facts.sole' ho' h.vs'_mem hr' hsole (.inr ⟨alts, hi⟩)
        have hy : rowYs C rows f v = r'.ys := by
          have hu := h.facts.unique hr' hf hlen
          have e : rowYs C rows f v = (rows.filter fun r => C.feeds f v r.s).flatMap fun r => if C.sole f v r.s then r.ys else [] := by
            unfold rowYs
            symm
            apply flatMap_filter
            intro a _ ha
            split
            · rename_i hsa
              rw [(sole_feeds hsa).1] at ha; cases ha
            · rfl
          rw [e, hu]
          simp [hsole]
        have hw : ∀ k ∈ ks, caseOf cases k.v.cls = some k.p.wk := by
          intro k hk
          obtain ⟨h1, h2, _⟩ := hk4 k hk
          have := hps _ h1
          rw [h2] at this
          simpa using this
        have hmem : ∀ k ∈ srt arr.sort ks, k ∈ ks := fun k hk => (srt_perm arr.sort ks).mem_iff.1 hk
        have hshort : arr = .nested → (srt arr.sort ks).length ≤ 1 := by
          intro ha
          rw [ha] at hnest
          simp only [bne_self_eq_false, Bool.false_or, List.contains_iff_mem] at hnest
          have h1 : (o.get f).length ≤ 1 := h.facts.needs _ hnest
          have h2 : (o.view f v).length ≤ (o.get f).length := by
            unfold MObj.view
            split
            · exact Nat.le_refl _
            · exact List.length_filter_le _ _
          rw [hv, hk1, List.length_map] at h2
          rw [(srt_perm arr.sort ks).length_eq]
          omega
        rw [hv, hv', hy, hk1, hk2, hk3, byName_srt, byName_srt' _ fun k hk => (hk4 k hk).2.2.name]
        constructor
        · refine seq (each_write hshort fun k hk => ?_) i1
          rw [caseOf_write (hw k (hmem k hk))]
          exact (hk4 k (hmem k hk)).2.2.w1
        · refine seq (each_write hshort fun k hk => ?_) i2
          rw [caseOf_write (wk := k.p.wk) (by rw [(hk4 k (hmem k hk)).2.2.cls]; exact hw k (hmem k hk))]
          exact (hk4 k (hmem k hk)).2.2.w2
  | wrap c t b r ihb ih =>
    simp only [Ctx.chkW, Bool.and_eq_true, Bool.or_eq_true] at hW
    obtain ⟨i1, i2⟩ := ih hW.2 hcs
    simp only [writeB, pureOut, h.holds ho' hcls]
    by_cases hc : c.holds o = true
    · have hb := hW.1.resolve_left (by intro hd; rw [condDead_sound hsem hd] at hc; cases hc)
      obtain ⟨b1, b2⟩ := ihb hb (by rw [condsHold_cons, hc, hcs]; rfl)
      simp only [hc, if_true]
      exact ⟨seq (by rw [b1]; rfl) i1, seq (by rw [b2]; rfl) i2⟩
    · simp only [hc, Bool.false_eq_true, if_false]
      exact ⟨seq rfl i1, seq rfl i2⟩
  | when c b r ihb ih =>
    simp only [Ctx.chkW, Bool.and_eq_true, Bool.or_eq_true] at hW
    obtain ⟨i1, i2⟩ := ih hW.2 hcs
    simp only [writeB, pureOut, h.holds ho' hcls]
    by_cases hc : c.holds o = true
    · have hb := hW.1.resolve_left (by intro hd; rw [condDead_sound hsem hd] at hc; cases hc)
      obtain ⟨b1, b2⟩ := ihb hb (by rw [condsHold_cons, hc, hcs]; rfl)
      simp only [hc, if_true]
      exact ⟨seq b1 i1, seq b2 i2⟩
    · simp only [hc, Bool.false_eq_true, if_false]
      exact ⟨seq rfl i1, seq rfl i2⟩
  | fail e a r ih =>
    simp only [Ctx.chkW, Bool.and_eq_true] at hW
    obtain ⟨i1, i2⟩ := ih hW.2 hcs
    have cov : ∀ fs, Ctx.barred.covers cs fs = true → (∃ f ∈ fs, o.get f ≠ []) → False := by
      intro fs hfs ⟨f, hf, hne⟩
      have := List.all_eq_true.1 hfs f hf
      obtain ⟨c, hc, hm⟩ := List.any_eq_true.1 this
      have hcc := List.all_eq_true.1 hcs c hc
      cases c with
      | none gs =>
        simp only [List.contains_iff_mem] at hm
        have := List.all_eq_true.1 hcc _ hm
        exact hne (List.isEmpty_iff.1 this)
      | _ => simp at hm
    have hbar : (a || strict) = false := by
      obtain ⟨n, hn, hb⟩ := List.any_eq_true.1 hW.1
      have hok := h.facts.needs n hn
      cases n with
      | oneOf fs => exact (cov fs hb hok).elim
      | strict n =>
        cases n with
        | oneOf fs =>
          simp only [Bool.and_eq_true, Bool.not_eq_true'] at hb
          rw [hb.1]
          cases strict with
          | false => rfl
          | true => exact (cov fs hb.2 (hok rfl)).elim
        | _ => simp at hb
      | _ => simp at hb
    simp only [writeB, pureOut, hbar, Bool.false_eq_true, if_false]
    rw [i1, i2]
    simp only [seqE, Out.app_nil, and_self]

end
end Verif.Lemmas
