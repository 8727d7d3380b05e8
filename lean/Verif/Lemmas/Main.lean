import Verif.Lemmas.Reading
/-!
# All pairs are round trips if all checks succeed
-/
namespace Verif.Lemmas
open Verif Verif.Model Verif.Spec

section
variable {py : Py} {repr : py.F → Str} {strict : Bool} {S : Key → Key → Bool} {D : Key → List Need}

theorem clean_kids {o v : MObj py.F} (h : Clean D strict o) {e : (Key × Bool) × List (MObj py.F)} (he : e ∈ o.fields) (hv : v ∈ e.2) :
    Clean D strict v := by
  cases h with
  | scal s => cases he
  | mk c fs h hk => exact hk e he v hv

theorem clean_needs {o : MObj py.F} {c : Key} {fs : List ((Key × Bool) × List (MObj py.F))} (h : Clean D strict o) (ho : o = .mk c fs) :
    ∀ n ∈ D c, n.ok strict o := by
  subst ho
  cases h with
  | mk _ _ h _ => exact h

theorem readObj_cls {TR : Key → Option RBody} {n : Nat} {k : Key} {x : Xml} {o : MObj py.F} (h : readObj py strict TR n k x = .ok o) :
    (TR k).map RBody.cls = some o.cls := by
  cases n with
  | zero => cases h
  | succ n =>
    simp only [readObj] at h
    split at h
    · cases h
    · rename_i b hb
      rw [hb]
      simp only [readBody] at h
      split at h
      · cases h
      · split at h
        · cases h; rfl
        · cases h

/-- the values of all slots -/
theorem slots_rows {M : Key → MObj py.F → Prop} {C : Ctx} {b : WB} {slots : List RSlot} {vss : List (List (MObj py.F))}
    {P : List (RSlot × Plan)} (hv : List.Forall₂ (SlotFits strict M) slots vss) (hp : C.plans b slots = some P)
    {R : Row py.F → Prop}
    (step : ∀ s vs plan, (s.key, vs) ∈ (slots.map RSlot.key).zip vss → SlotFits strict M s vs → C.chkSlot b s = some plan →
      s ∈ slots → (s, plan) ∈ P → ∃ vs' ys, R ⟨s, plan, vs, vs', ys⟩) :
    ∃ rows : List (Row py.F), slots = rows.map Row.s ∧ P = (rows.map fun r => (r.s, r.plan)) ∧
      (slots.map RSlot.key).zip vss = (rows.map fun r => (r.s.key, r.vs)) ∧
      ∀ r ∈ rows, SlotFits strict M r.s r.vs ∧ C.chkSlot b r.s = some r.plan ∧ R r := by
  induction hv generalizing P with
  | nil =>
    cases hp
    exact ⟨[], rfl, rfl, rfl, by simp⟩
  | @cons s vs slots vss' hvs hvss ih =>
    simp only [Ctx.plans] at hp
    split at hp
    · cases hp
    rename_i plan hplan
    split at hp
    · cases hp
    rename_i P' hP'
    cases hp
    obtain ⟨vs', ys, hR⟩ := step s vs plan (by simp) hvs hplan (by simp) (by simp)
    obtain ⟨rows, h1, h2, h3, h4⟩ := ih hP' fun s' vs plan hm hr hc hs hP =>
      step s' vs plan (by simp only [List.map_cons, List.zip_cons_cons]; exact List.mem_cons_of_mem _ hm) hr hc (by simp [hs]) (by simp [hP])
    refine ⟨⟨s, plan, vs, vs', ys⟩ :: rows, by simp [← h1], by simp [← h2], ?_, ?_⟩
    · simp only [List.map_cons, List.zip_cons_cons, h3]
    · intro r hr
      rcases List.mem_cons.1 hr with rfl | hr
      · exact ⟨hvs, hplan, hR⟩
      · exact h4 r hr

theorem forall₂_mem {α β : Type} {R : α → β → Prop} {l : List α} {r : List β} (h : List.Forall₂ R l r) {a : α} (ha : a ∈ l) : ∃ b, R a b := by
  induction h with
  | nil => cases ha
  | cons h1 _ ih =>
    rcases List.mem_cons.1 ha with rfl | ha
    · exact ⟨_, h1⟩
    · exact ih ha

theorem fits_cls {T : Key → Option RBody} {I : Key → List Need} {n : Nat} {k : Key} {o : MObj py.F} (h : Shaped strict T I n k o) :
    (T k).map RBody.cls = some o.cls := by
  cases n with
  | zero => exact h.elim
  | succ n =>
    obtain ⟨b, vss, hb, rfl, _⟩ := h
    rw [hb]; rfl

theorem sameAll_scal {vs : List (MObj py.F)} (h : ∀ v ∈ vs, ∃ s, v = .scal s) : SameAll S vs vs := by
  induction vs with
  | nil => exact .nil
  | cons v vs ih =>
    obtain ⟨s, rfl⟩ := h v (by simp)
    exact .cons _ _ _ _ (.scal s) (ih fun u hu => h u (by simp [hu]))

theorem sameAll_kids {rd : Key → Xml → Except RErr (MObj py.F)} {wr : Key → MObj py.F → Except PyErr Out} {ks : List (Kid py.F)}
    (h : ∀ k ∈ ks, Ch rd wr S k.p k.v k.v' k.y) : SameAll S (ks.map Kid.v) (ks.map Kid.v') := by
  induction ks with
  | nil => exact .nil
  | cons k ks ih => exact .cons _ _ _ _ (h k (by simp)).same (ih fun k hk => h k (by simp [hk]))

theorem sameFields_rows {rd : Key → Xml → Except RErr (MObj py.F)} {wr : Key → MObj py.F → Except PyErr Out} {C : Ctx} {b : WB} {rows : List (Row py.F)}
    (hplan : ∀ r ∈ rows, C.chkSlot b r.s = some r.plan) (hrel : ∀ r ∈ rows, RowRel rd wr S C r r.plan) (hS : C.S = S) :
    SameFields S C.cls (rows.map fun r => (r.s.key, r.vs)) (rows.map fun r => (r.s.key, r.vs')) := by
  induction rows with
  | nil => exact .nil _
  | cons r rows ih =>
    have ih := ih (fun r hr => hplan r (by simp [hr])) (fun r hr => hrel r (by simp [hr]))
    have hr := hrel r (by simp)
    have hp := hplan r (by simp)
    simp only [List.map_cons]
    cases hpl : r.plan with
    | same =>
      rw [hpl] at hr
      rw [hr.1]
      exact .same _ _ _ _ _ _ (sameAll_scal hr.2.2) ih
    | objs sort ps =>
      rw [hpl] at hr hp
      obtain ⟨ks, h1, h2, _, h4⟩ := hr
      obtain ⟨_, _, _, _, _, _, _, _, _, _, _, _, _, _, hs, _⟩ := chkSlot_objs hp
      have hsame := sameAll_kids (fun k hk => (h4 k hk).2.2)
      rw [h1, h2]
      cases sort with
      | false => exact .same _ _ _ _ _ _ hsame ih
      | true =>
        have e : (srt true ks).map Kid.v' = byName (ks.map Kid.v') := by
          simp only [srt, if_true, byName]
          rw [sortBy_map]
          congr 1
          apply sortBy_congr
          intro k hk
          rw [(h4 k hk).2.2.name]
        rw [e]
        exact .sorted _ _ _ _ _ _ (by rw [← hS]; exact hs rfl) hsame ih

theorem single_sound {C : Ctx} {o : MObj py.F} {ys : Key → List Key → List Xml} (h : Sem C o ys) {W : WB} {t : Key} {b : WB}
    (hs : single C W = some (.wrap t b)) :
    pureOut py repr strict o ys W = { kids := [(pureOut py repr strict o ys b).node t] } := by
  unfold single at hs
  split at hs
  · rename_i e ha
    split at hs
    · rename_i hc
      cases hs
      simp only [Bool.and_eq_true, List.isEmpty_iff] at hc
      have h1 := attrs_atoms py repr strict o ys W []
      have h2 := text_atoms py repr strict o ys W []
      have h3 := kids_ats h W (repr := repr) (strict := strict)
      rw [ha] at h3
      rw [hc.1] at h1
      rw [hc.2] at h2
      simp only [condsHold, List.all_nil, if_true, List.flatMap_nil, List.map_nil, lastText] at h1 h2
      cases hp : pureOut py repr strict o ys W with
      | mk at_ tx kd =>
        rw [hp] at h1 h2 h3
        simp only at h1 h2 h3
        rw [← h1, ← h2, h3]
        simp [atomKids, condsHold, emKids]
    · cases hs
  · cases hs

/-- one level: if the pairs for the values of the attributes are round trips then so is this one -/
theorem pair_step {TR : Key → Option RBody} {TW : Key → Option WB} {PT : Key → List Pair} {I : Key → List Need} {n : Nat} {p : Pair}
    (hchk : p.check TR TW D S PT = true)
    (ih : ∀ q v, q ∈ PT q.rk → Shaped strict TR I n q.rk v → Clean D strict v → (∀ m ∈ q.ex, m.ok strict v) →
      ∃ v' y, Ch (readObj py strict TR n) (writeObj py repr strict TW n) S q v v' y)
    {o : MObj py.F} (hfits : Shaped strict TR I (n + 1) p.rk o) (hclean : Clean D strict o)
    (hex : ∀ m ∈ p.ex, m.ok strict o) :
    ∃ o' y, Ch (readObj py strict TR (n + 1)) (writeObj py repr strict TW (n + 1)) S p o o' y := by
  obtain ⟨B, vss, hB, rfl, hvss, hnames, _⟩ := hfits
  simp only [Pair.check] at hchk
  rw [hB] at hchk
  simp only at hchk
  split at hchk
  · cases hchk
  rename_i W hW
  have hrd1 : ∀ y, readObj py strict TR (n + 1) p.rk y = readBody py strict (readObj py strict TR n) B y := by
    intro y; simp only [readObj, hB]
  have hwr1 : ∀ v, writeObj py repr strict TW (n + 1) p.wk v = writeB py repr strict (writeObj py repr strict TW n) v W := by
    intro v; simp only [writeObj, hW]
  split at hchk
  · cases hchk
  rename_i ps hps
  generalize hC : p.ctx TR D S B = C at hps
  have hCslots : C.slots = B.slots := by rw [← hC]; rfl
  have hCcls : C.cls = B.cls := by rw [← hC]; rfl
  have hCcl : C.cl = fun k => (TR k).map RBody.cls := by rw [← hC]; rfl
  have hCS : C.S = S := by rw [← hC]; rfl
  have hneeds : ∀ m ∈ C.needs, m.ok strict (MObj.mk B.cls ((B.slots.map RSlot.key).zip vss)) := by
    rw [← hC]
    intro m hm
    rcases List.mem_append.1 hm with hm | hm
    · exact clean_needs hclean rfl m hm
    · exact hex m hm
  unfold check at hps
  split at hps
  · -- a method that always raises
    rename_i hcr
    exfalso
    obtain ⟨s, hs, hcr⟩ := List.any_eq_true.1 hcr
    rw [hCslots] at hs
    simp only [Bool.and_eq_true, beq_iff_eq] at hcr
    obtain ⟨hpath, hcr⟩ := hcr
    split at hcr
    · rename_i e hi
      obtain ⟨vs, hvs⟩ := forall₂_mem hvss hs
      cases vs with
      | nil => have := (hvs.set rfl).2.2; simp [inherent, hpath, hi] at this
      | cons v vs => have := hvs.kinds v (by simp); rw [hi] at this; exact this
    · cases hcr
  · split at hps
    · -- a single scalar
      rename_i t k f
      split at hps
      · rename_i hc
        simp only [Bool.and_eq_true, beq_iff_eq] at hc
        obtain ⟨rfl, hself⟩ := hc
        unfold chkSelf at hself
        split at hself
        · rename_i s hsl
          rw [hCslots] at hsl
          split at hself
          · rename_i rk hi
            simp only [Bool.and_eq_true, beq_iff_eq, Bool.not_eq_true', bne_iff_ne] at hself
            obtain ⟨⟨⟨⟨⟨hpath, hfit⟩, htot⟩, hhit⟩, hnamed⟩, hfield⟩ := hself
            -- the value
            have hslot : ∀ z sc, readKind py rk z = .ok (some sc) → readSlot py strict (readObj py strict TR n) z s = .ok [.scal sc] := by
              intro z sc hz
              refine readSlot_req (ls := [[.scal sc]]) ?_ ?_ ?_
              · simp only [hpath, select, mapE, hi, readItem, hz, scalars]
              · split <;> rfl
              · intro h; cases h
            have hbody : ∀ z sc, readKind py rk z = .ok (some sc) →
                readBody py strict (readObj py strict TR n) B z = .ok (.mk B.cls [(s.key, [.scal sc])]) := by
              intro z sc hz
              simp only [readBody, hsl, mapE, hslot z sc hz]
              simp [namesOk, hnamed, MObj.get, MObj.fields, hits, RSlot.key]
            obtain ⟨x, sc, hsc, ho⟩ : ∃ x sc, readKind py rk x = .ok (some sc) ∧
                MObj.mk B.cls ((B.slots.map RSlot.key).zip vss) = .mk B.cls [(s.key, [.scal sc])] := by
              rw [hsl] at hvss ⊢
              cases hvss with
              | @cons _ vs _ _ hvs hnil =>
                cases hnil
                match vs, hvs with
                | [], hvs =>
                  have := (hvs.set rfl).2.2
                  cases rk <;> simp [RKind.total] at htot <;> simp [inherent, hpath, hi] at this
                | [v], hvs =>
                  have := hvs.kinds v (by simp)
                  rw [hi] at this
                  obtain ⟨x, sc, rfl, hx⟩ := this.prim
                  exact ⟨x, sc, hx, rfl⟩
                | _ :: _ :: _, hvs =>
                  have := hvs.one (by rw [hpath]; rfl)
                  simp at this
            rw [ho]
            obtain ⟨y, hy1, hy2, hy3, hy4⟩ := kind_rt py repr rk k hfit p.tag x sc hsc
            have hget : (MObj.mk B.cls [(s.key, [.scal sc])]).get f = [.scal sc] := by
              simp [MObj.get, MObj.fields, hhit]
            have hw : writeObj py repr strict TW (n + 1) p.wk (MObj.mk B.cls [(s.key, [.scal sc])]) = .ok { kids := [y] } := by
              rw [hwr1]
              simp only [writeB, hget, mapE, writePrim, hy1]
              rfl
            refine ⟨_, y, ⟨rfl, rfl, ?_, hy2, hw, hw, ?_⟩⟩
            · exact .mk _ _ _ (.same _ _ _ _ _ _ (.cons _ _ _ _ (.scal sc) .nil) (.nil _))
            · intro y' hy'
              rw [hy'.leaf_eq hy3, hrd1, hbody y sc hy4]
          · cases hself
        · cases hself
      · cases hps
    · -- an element
      split at hps
      · rename_i t b hsingle
        split at hps
        · cases hps
        rename_i htag
        have htag : t = p.tag := by simpa using htag
        subst htag
        split at hps
        · cases hps
        rename_i P hP
        split at hps
        swap
        · cases hps
        rename_i hchkW
        cases hps
        rw [hCslots] at hP
        have hfcl : ∀ k (v : MObj py.F), Shaped strict TR I n k v → C.cl k = some v.cls := by
          intro k v h
          rw [hCcl]
          exact fits_cls h
        -- the rows
        obtain ⟨rows, hr1, hr2, hr3, hr4⟩ := slots_rows (C := C) hvss hP
          (R := fun r => RowRel (readObj py strict TR n) (writeObj py repr strict TW n) S C r r.plan) (by
          intro s vs plan hmem hrs hcs hsm hPm
          have horg := hrs.kinds
          have hget : ∀ g, hits g s.key = true → ∀ v ∈ vs, v ∈ (MObj.mk B.cls ((B.slots.map RSlot.key).zip vss)).get g := by
            intro g hg v hv
            exact List.mem_flatMap.2 ⟨_, hmem, by simpa [hg] using hv⟩
          have hgone : ∀ v ∈ vs, C.gone s v.cls = false := by
            intro v hv
            rw [Bool.eq_false_iff]
            intro hg
            obtain ⟨m, hm, hg⟩ := List.any_eq_true.1 hg
            cases m with
            | never g d =>
              simp only [Bool.and_eq_true, beq_iff_eq] at hg
              exact hneeds _ hm v (hget g hg.2 v hv) hg.1.symm
            | _ => simp at hg
          cases plan with
          | same =>
            refine ⟨vs, [], rfl, rfl, ?_⟩
            intro v hv
            have ho := horg v hv
            cases hi : s.item with
            | prim k => rw [hi] at ho; obtain ⟨_, sc, h1, _⟩ := ho.prim; exact ⟨sc, h1⟩
            | attr a k => rw [hi] at ho; obtain ⟨_, sc, h1, _⟩ := ho.attr (strict := strict); exact ⟨sc, h1⟩
            | name => rw [hi] at ho; obtain ⟨w, _, h1⟩ := ho.name; exact ⟨_, h1⟩
            | guard => rw [hi] at ho; exact ho.guard.elim
            | want => rw [hi] at ho; exact ho.want.elim
            | crash => rw [hi] at ho; exact ho.crash.elim
            | objs alts =>
              exfalso
              simp only [Ctx.chkSlot, hi] at hcs
              split at hcs
              · cases hcs
              · split at hcs
                · split at hcs
                  · rename_i hh
                    simp only [Ctx.hollow, Bool.or_eq_true, hi] at hh
                    rcases hh with hh | hh
                    · obtain ⟨m, hm, hh⟩ := List.any_eq_true.1 hh
                      cases m with
                      | empty g =>
                        have h0 := hneeds _ hm
                        have h1 := hget g hh v hv
                        rw [show MObj.get _ g = [] from h0] at h1
                        cases h1
                      | _ => simp at hh
                    · rw [hi] at ho
                      obtain ⟨t, k, hk, hy⟩ := ho.objs
                      obtain ⟨t', ht'⟩ := altOf_mem hk
                      have := List.all_eq_true.1 hh _ ht'
                      simp only [hfcl k v hy, hgone v hv, Bool.false_eq_true] at this
                  · cases hcs
                · split at hcs
                  · split at hcs
                    · split at hcs <;> cases hcs
                    · cases hcs
                  · cases hcs
                · cases hcs
          | objs sort qs =>
            obtain ⟨alts, cs, f, w, _, cases', ot, one, hi, _, _, _, _, _, _, hsp, _⟩ := chkSlot_objs hcs
            obtain ⟨hq1, hq2⟩ := slotPairs_sound hsp
            have hkid : ∀ v ∈ vs, ∃ k : Kid py.F, k.v = v ∧ k.p ∈ qs ∧ C.cl k.p.rk = some k.v.cls ∧
                Ch (readObj py strict TR n) (writeObj py repr strict TW n) S k.p k.v k.v' k.y := by
              intro v hv
              have ho := horg v hv
              rw [hi] at ho
              obtain ⟨t, k, hk, hy⟩ := ho.objs
              obtain ⟨t', ht'⟩ := altOf_mem hk
              obtain ⟨q, hq, hqk⟩ := hq2 _ ht' _ (hfcl k v hy) (hgone v hv)
              have hqk : q.rk = k := hqk
              subst hqk
              have hmPT : q ∈ PT q.rk := by
                have : q ∈ P.flatMap fun e => match e.2 with
                    | .same => []
                    | .objs _ ps => ps := List.mem_flatMap.2 ⟨_, hPm, hq⟩
                simpa using List.all_eq_true.1 hchk q this
              obtain ⟨v', z, hch⟩ := ih q v hmPT hy (clean_kids hclean hmem hv) (by
                intro m hm
                rw [(hq1 q hq).2.1] at hm
                obtain ⟨m', hm', hme⟩ := List.mem_filterMap.1 hm
                cases m' with
                | inside g m'' =>
                  simp only [Option.ite_none_right_eq_some, Option.some.injEq] at hme
                  obtain ⟨hg, rfl⟩ := hme
                  exact hneeds _ hm' v (hget g hg v hv)
                | _ => simp at hme)
              exact ⟨⟨q, v, v', z⟩, rfl, hq, hfcl _ v hy, hch⟩
            obtain ⟨ks, hks1, hks2⟩ : ∃ ks : List (Kid py.F), vs = ks.map Kid.v ∧ ∀ k ∈ ks, k.p ∈ qs ∧ C.cl k.p.rk = some k.v.cls ∧
                Ch (readObj py strict TR n) (writeObj py repr strict TW n) S k.p k.v k.v' k.y := by
              clear hmem hrs horg hget hgone
              induction vs with
              | nil => exact ⟨[], rfl, by simp⟩
              | cons v vs ih2 =>
                obtain ⟨ks, h1, h2⟩ := ih2 fun u hu => hkid u (by simp [hu])
                obtain ⟨k, h3, h4⟩ := hkid v (by simp)
                refine ⟨k :: ks, by simp [h1, h3], ?_⟩
                intro a ha
                rcases List.mem_cons.1 ha with rfl | ha
                · exact h4
                · exact h2 a ha
            exact ⟨(srt sort ks).map Kid.v', (srt sort ks).map Kid.y, ks, hks1, rfl, rfl, hks2⟩)
        have good : Good strict (Shaped strict TR I n) (readObj py strict TR n) (writeObj py repr strict TW n) S C b
            (MObj.mk B.cls ((B.slots.map RSlot.key).zip vss)) rows := by
          refine ⟨⟨hCcls.symm, hneeds, hr3, by rw [hCslots, hr1], ?_, ?_, hfcl⟩, fun r hr h0 => ⟨((hr4 r hr).1.set h0).1, ((hr4 r hr).1.set h0).2.1⟩, fun r hr => (hr4 r hr).2.1,
            fun r hr => (hr4 r hr).2.2⟩
          · intro r hr; exact (hr4 r hr).1.kinds
          · intro r hr h1; exact (hr4 r hr).1.one h1
        generalize ho : MObj.mk B.cls ((B.slots.map RSlot.key).zip vss) = o at good
        have ho' : (MObj.mk B.cls (rows.map fun r => (r.s.key, r.vs')) : MObj py.F).fields = rows.map fun r => (r.s.key, r.vs') := rfl
        have hcls' : (MObj.mk B.cls (rows.map fun r => (r.s.key, r.vs')) : MObj py.F).cls = o.cls := by rw [← ho]; rfl
        obtain ⟨hw1, hw2⟩ := good.write (repr := repr) ho' hcls' hr2 hchkW rfl
        rw [single_sound good.sem hsingle] at hw1 hw2
        refine ⟨.mk B.cls (rows.map fun r => (r.s.key, r.vs')), (pureOut py repr strict o (rowYs C rows) b).node p.tag,
          ⟨hcls', ?_, ?_, rfl, by rw [hwr1]; exact hw1, by rw [hwr1]; exact hw2, ?_⟩⟩
        · -- the short name
          have : MObj.get (MObj.mk B.cls (rows.map fun r => (r.s.key, r.vs'))) k!"short_name" = o.get k!"short_name" := by
            apply good.get_same ho'
            right
            intro s hs hf alts hi
            rw [good.facts.slots] at hs
            obtain ⟨r, hr, rfl⟩ := List.mem_map.1 hs
            have hpl := good.plan r hr
            have hfield : r.s.field = k!"short_name" := by
              have := feeds_hits hf
              simp only [hits, RSlot.key, Bool.or_eq_true, beq_iff_eq, Bool.and_eq_true] at this
              rcases this with h | h
              · exact h
              · exact absurd h.2 (by decide)
            simp only [Ctx.chkSlot, hi, hfield, beq_self_eq_true, if_true] at hpl
            cases hpl
          simp only [MObj.name, this]
        · rw [← ho, hr3]
          have := sameFields_rows good.plan good.rel hCS
          rw [hCcls] at this
          exact .mk _ _ _ this
        · intro y' hy'
          rw [hrd1]
          have hread' : mapE (readSlot py strict (readObj py strict TR n) y') B.slots = .ok (rows.map Row.vs') := by
            rw [hr1]
            apply mapE_of
            have : ∀ r ∈ rows, readSlot py strict (readObj py strict TR n) y' r.s = .ok r.vs' := fun r hr => good.readRow hr hy'
            clear good hr1 hr2 hr3 hr4 ho' hcls' hw1 hw2 hy'
            induction rows with
            | nil => exact .nil
            | cons r rows ih2 => exact .cons (this r (by simp)) (ih2 fun r hr => this r (by simp [hr]))
          have hzip : (B.slots.map RSlot.key).zip (rows.map Row.vs') = rows.map fun r => (r.s.key, r.vs') := by
            rw [hr1, List.map_map, List.zip_map']
            rfl
          simp only [readBody, hread', hzip]
          have hn : namesOk B.slots (MObj.mk B.cls (rows.map fun r => (r.s.key, r.vs')) : MObj py.F) = true := by
            rw [ho] at hnames
            simp only [namesOk, List.all_eq_true, Bool.and_eq_true, Bool.or_eq_true, Bool.not_eq_true', decide_eq_true_eq, Nat.ble_eq] at hnames ⊢
            intro s hs
            refine ⟨?_, ?_⟩
            · rcases (hnames s hs).1 with h1 | h1
              · exact .inl h1
              · exact .inr ((good.get_perm ho' _).2.nodup_iff.2 h1)
            · rcases (hnames s hs).2 with h1 | h1
              · exact .inl h1
              · have := (good.get_perm ho' s.field).2.length_eq
                simp only [List.length_map] at this
                exact .inr (by omega)
          rw [if_pos hn]
      · cases hps

/-- **Round trip.**  All pairs of the table being checked, an object that fits the reader method of a pair and stays away from the defects is
written by the writer method, and what was written is read again as the same object (up to the order of the attributes that are saved sorted),
which is written in the same way. -/
theorem roundtrip_fits {TR : Key → Option RBody} {TW : Key → Option WB} {PT : Key → List Pair} {I : Key → List Need}
    (hchk : ∀ k, ∀ p ∈ PT k, p.check TR TW D S PT = true) (n : Nat) (p : Pair) (hp : p ∈ PT p.rk) (o : MObj py.F)
    (hfits : Shaped strict TR I n p.rk o) (hclean : Clean D strict o) (hex : ∀ m ∈ p.ex, m.ok strict o) :
    ∃ o' y, Ch (readObj py strict TR n) (writeObj py repr strict TW n) S p o o' y := by
  induction n generalizing p o with
  | zero => exact hfits.elim
  | succ n ih => exact pair_step (hchk _ p hp) (fun q v hq hr hc he => ih q hq v hr hc he) hfits hclean hex

/-- what was read for a slot fits -/
theorem readSlot_fits {rd : Key → Xml → Except RErr (MObj py.F)} {M : Key → MObj py.F → Prop} (hM : ∀ k y v, rd k y = .ok v → M k v) {x : Xml}
    {s : RSlot} {vs : List (MObj py.F)} (hs : readSlot py strict rd x s = .ok vs) : SlotFits strict M s vs := by
  refine ⟨fun v hv => (readSlot_origin hs v hv).value hM, fun h1 => readSlot_one hs h1, ?_⟩
  intro h0
  obtain ⟨ls, hls, hv, hq⟩ := readSlot_ok hs
  refine ⟨(hq h0).1, (hq h0).2, ?_⟩
  rw [Bool.eq_false_iff]
  intro hi
  simp only [inherent, Bool.and_eq_true, beq_iff_eq] at hi
  obtain ⟨hp, hi⟩ := hi
  rw [hp] at hls
  simp only [select, mapE] at hls
  split at hi
  · rename_i rk hit
    rw [hit] at hls
    cases hrk : readKind py rk x with
    | error e => simp only [readItem, hrk, scalars] at hls; cases hls
    | ok r =>
      cases r with
      | some sc =>
        simp only [readItem, hrk, scalars] at hls
        cases hls
        rw [h0] at hv
        split at hv <;> cases hv
      | none =>
        cases rk <;> simp at hi <;> simp only [readKind] at hrk <;> first | (split at hrk <;> cases hrk) | cases hrk
  · rename_i e hit
    rw [hit] at hls
    cases hls
  · cases hi

/-- an object that was read fits -/
theorem read_fits {TR : Key → Option RBody} {I : Key → List Need}
    (hI : ∀ n k x (o : MObj py.F), readObj py strict TR n k x = .ok o → ∀ m ∈ I o.cls, m.ok strict o)
    (n : Nat) (k : Key) (x : Xml) (o : MObj py.F) (h : readObj py strict TR n k x = .ok o) : Shaped strict TR I n k o := by
  induction n generalizing k x o with
  | zero => cases h
  | succ n ih =>
    have h0 := hI _ _ _ _ h
    simp only [readObj] at h
    split at h
    · cases h
    rename_i b hb
    simp only [readBody] at h
    split at h
    · cases h
    rename_i vss hvss
    split at h
    swap
    · cases h
    rename_i hnames
    cases h
    exact ⟨b, vss, hb, rfl, (mapE_ok hvss).imp fun s vs hs => readSlot_fits ih hs, hnames, h0⟩

theorem roundtrip {TR : Key → Option RBody} {TW : Key → Option WB} {PT : Key → List Pair}
    (hchk : ∀ k, ∀ p ∈ PT k, p.check TR TW D S PT = true) (n : Nat) (p : Pair) (hp : p ∈ PT p.rk) (x : Xml) (o : MObj py.F)
    (hread : readObj py strict TR n p.rk x = .ok o) (hclean : Clean D strict o) (hex : ∀ m ∈ p.ex, m.ok strict o) :
    ∃ o' y, Ch (readObj py strict TR n) (writeObj py repr strict TW n) S p o o' y :=
  roundtrip_fits hchk n p hp o (read_fits (I := fun _ => []) (fun _ _ _ _ _ m hm => by cases hm) n p.rk x o hread) hclean hex

end
end Verif.Lemmas
