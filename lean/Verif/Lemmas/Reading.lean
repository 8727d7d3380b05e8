import Verif.Lemmas.RoundTrip
/-!
# Reading what was written
-/
namespace Verif.Lemmas
open Verif Verif.Model Verif.Spec

section
variable {py : Py} {repr : py.F → Str} {strict : Bool} {rd : Key → Xml → Except RErr (MObj py.F)}
  {wr : Key → MObj py.F → Except PyErr Out} {S : Key → Key → Bool} {C : Ctx} {b : WB} {o : MObj py.F} {M : Key → MObj py.F → Prop}
  {rows : List (Row py.F)}

/-- from the values of the items to the values of the slot -/
theorem Good.finish (h : Good strict M rd wr S C b o rows) {r : Row py.F} (hr : r ∈ rows) {y' : Xml} {ls : List (List (MObj py.F))}
    (hm : mapE (readItem py strict rd r.s.item) (select r.s.path y') = .ok ls) (hv : ls.flatten = r.vs') :
    readSlot py strict rd y' r.s = .ok r.vs' := by
  have hlen := h.vs'_length hr
  refine readSlot_req hm ?_ ?_
  · rw [hv]
    split
    · rename_i hl
      apply keepLast_one
      rw [hlen]
      exact h.facts.one r hr (by simp [Ctx.atMost1, hl])
    · rfl
  · intro h0
    rw [h0] at hlen
    exact h.set r hr (List.eq_nil_of_length_eq_zero hlen.symm)

theorem mapE_nils {α β ε : Type} {f : α → Except ε (List β)} {l : List α} (h : ∀ a ∈ l, f a = .ok []) :
    ∃ ls, mapE f l = .ok ls ∧ ls.flatten = [] := by
  induction l with
  | nil => exact ⟨[], rfl, rfl⟩
  | cons a l ih =>
    obtain ⟨ls, h1, h2⟩ := ih fun b hb => h b (by simp [hb])
    exact ⟨[] :: ls, by simp only [mapE, h a (by simp), h1], by simp [h2]⟩

/-- the conditions on the way to the elements of an attribute hold if it is set -/
theorem Good.conds (h : Good strict M rd wr S C b o rows) {cs : List Cond} {f : Key} {w : List Key}
    (hc : cs.all (C.implied f w) = true) (hv : o.view f w ≠ []) : condsHold py o cs = true :=
  List.all_eq_true.2 fun c hm => h.facts.implied (List.all_eq_true.1 hc c hm) hv

/-- a leaf of the written tree holds exactly the elements of the emitter -/
theorem leaf_exact {L : List Xml} {cs : List Cond} {e : Em} {one : Bool} {ys : Key → List Key → List Xml}
    (hL : LocOK repr strict o ys L (.leaf cs e one)) (h1 : one = true → (emKids py repr strict o ys e).length ≤ 1)
    (hc : emKids py repr strict o ys e ≠ [] → condsHold py o cs = true) : L = emKids py repr strict o ys e := by
  by_cases he : emKids py repr strict o ys e = []
  · rw [(hL h1).2 he, he]
  · exact (hL h1).1 (hc he)

theorem chkSlot_prims (h : Good strict M rd wr S C b o rows) {r : Row py.F} (hr : r ∈ rows) {cs : List Cond} {t : Key} {k : WKind} {f : Key}
    {one : Bool} (hl : C.locate r.s.path b = some (.leaf cs (.prim t k f) one)) (hfit : C.primFits f r.s.item k = true) (hget : o.get f = r.vs)
    (hcs : cs.all (C.implied f []) = true) (hone : one = true → Ctx.atMost1 r.s = true) (hsame : r.vs' = r.vs) {tag : Key} {y' : Xml}
    (hy : Reload ((pureOut py repr strict o (rowYs C rows) b).node tag) y') : readSlot py strict rd y' r.s = .ok r.vs' := by
  have hall : ∀ v ∈ r.vs, ∃ y, writePrim py repr t k v = .ok y ∧ y.kids = [] ∧ readItem py strict rd r.s.item y = .ok [v] := by
    intro v hv
    exact prim_rt h.facts.needs hfit (by rw [hget]; exact hv) (h.facts.org r hr v hv) t
  obtain ⟨_, h2, h3, h4⟩ := prims_rt hall
  have hem : emKids py repr strict o (rowYs C rows) (.prim t k f) = r.vs.flatMap (primK py repr t k) := by
    simp only [emKids, hget]
  have hL := locate_sound h.sem hl tag (repr := repr) (strict := strict)
  have e := leaf_exact hL (fun h1 => by rw [hem, h3]; exact h.facts.one r hr (hone h1)) (fun hne => by
    apply h.conds hcs
    intro h0
    apply hne
    rw [hem, ← hget, show o.get f = [] from h0]; rfl)
  rw [hem] at e
  have hrl := select_reload r.s.path hy
  rw [e] at hrl
  have e' := ReloadAll_leaves hrl h2
  refine h.finish hr (by rw [e']; exact h4) ?_
  rw [map_single_flatten, hsame]

theorem ReloadAll_nil {L' : List Xml} (h : ReloadAll [] L') : L' = [] := by cases h; rfl
theorem ReloadAll_one {y : Xml} {L' : List Xml} (h : ReloadAll [y] L') : ∃ y', L' = [y'] ∧ Reload y y' := by
  cases h with
  | cons _ y' _ _ h1 h2 => cases h2; exact ⟨y', rfl, h1⟩

/-- nothing is written for the slot and nothing is in it -/
theorem Good.nothing (h : Good strict M rd wr S C b o rows) {r : Row py.F} (hr : r ∈ rows) (hl : C.locate r.s.path b = some .none)
    (hv : r.vs' = []) {tag : Key} {y' : Xml} (hy : Reload ((pureOut py repr strict o (rowYs C rows) b).node tag) y') :
    readSlot py strict rd y' r.s = .ok r.vs' := by
  have hL : _ = [] := locate_sound h.sem hl tag (repr := repr) (strict := strict)
  have hrl := select_reload r.s.path hy
  rw [hL] at hrl
  refine h.finish hr (ls := []) (by rw [ReloadAll_nil hrl]; rfl) hv.symm

theorem lookup_optAttr' {n m : Key} (h : m = n) (w : Option Str) : (optAttr m w).lookup n = w := by
  subst h
  exact lookup_optAttr m w

theorem objs_read {alts : List (Key × Key)} {ks : List (Kid py.F)}
    (h : ∀ k ∈ ks, altOf alts k.p.tag = some k.p.rk ∧ Ch rd wr S k.p k.v k.v' k.y) {L : List Xml} (hL : ReloadAll (ks.map Kid.y) L) :
    mapE (readItem py strict rd (.objs alts)) L = .ok (ks.map fun k => [k.v']) := by
  induction ks generalizing L with
  | nil => cases hL; rfl
  | cons k ks ih =>
    cases hL with
    | cons _ y' _ L' h1 h2 =>
      obtain ⟨ha, hch⟩ := h k (by simp)
      have : readItem py strict rd (.objs alts) y' = .ok [k.v'] := by
        simp only [readItem, h1.tag, hch.tag, ha, hch.rd y' h1]
      simp only [mapE, this, ih (fun k hk => h k (by simp [hk])) h2, List.map_cons]

theorem Good.rowYs_eq (h : Good strict M rd wr S C b o rows) {r : Row py.F} (hr : r ∈ rows) {f : Key} {v : List Key}
    (hsole : C.sole f v r.s = true) : rowYs C rows f v = r.ys := by
  obtain ⟨hf, hlen⟩ := sole_feeds hsole
  have hu := h.facts.unique hr hf hlen
  have e : rowYs C rows f v = (rows.filter fun r => C.feeds f v r.s).flatMap fun r => if C.sole f v r.s then r.ys else [] := by
    unfold rowYs
    symm
    apply flatMap_filter
    intro a _ ha
    split
    · rename_i hsa
      rw [(sole_feeds hsa).1] at ha; cases ha
    · rfl
  rw [e, hu]
  simp [hsole]

/-- something is written for an attribute that holds objects -/
theorem Good.rowYs_ne (h : Good strict M rd wr S C b o rows) {f : Key}
    (hs : (C.slots.any fun q => C.sole f [] q && Ctx.isObjs q) = true) (hv : o.get f ≠ []) : rowYs C rows f [] ≠ [] := by
  obtain ⟨q, hq, hc⟩ := List.any_eq_true.1 hs
  rw [Bool.and_eq_true] at hc
  obtain ⟨hsole, hobj⟩ := hc
  have : ∃ r ∈ rows, r.s = q := by
    rw [h.facts.slots] at hq
    exact List.mem_map.1 hq
  obtain ⟨r, hr, rfl⟩ := this
  obtain ⟨alts, hi⟩ : ∃ alts, r.s.item = .objs alts := by
    unfold Ctx.isObjs at hobj
    split at hobj
    · exact ⟨_, ‹_›⟩
    · cases hobj
  have hview : o.view f [] = r.vs := h.facts.sole hr hsole (.inr ⟨alts, hi⟩)
  rw [h.rowYs_eq hr hsole]
  have hpl := h.plan r hr
  have hrel := h.rel r hr
  have hne : r.vs ≠ [] := by rw [← hview]; exact hv
  cases hp : r.plan with
  | same =>
    rw [hp] at hpl
    unfold Ctx.chkSlot at hpl
    rw [hi] at hpl
    simp only at hpl
    split at hpl
    · cases hpl
    · split at hpl
      · split at hpl
        · exact absurd (h.facts.hollow hr ‹_›) hne
        · cases hpl
      · split at hpl
        · split at hpl
          · split at hpl <;> cases hpl
          · cases hpl
        · cases hpl
      · cases hpl
  | objs sort ps =>
    rw [hp] at hrel
    obtain ⟨ks, hk1, hk2, hk3, hk4⟩ := hrel
    have hylen : r.ys.length = r.vs.length := by
      rw [hk3, hk1, List.length_map, List.length_map, (srt_perm sort ks).length_eq]
    intro h0
    rw [h0] at hylen
    exact hne (List.eq_nil_of_length_eq_zero hylen.symm)

theorem Good.readRow (h : Good strict M rd wr S C b o rows) {r : Row py.F} (hr : r ∈ rows) {tag : Key} {y' : Xml}
    (hy : Reload ((pureOut py repr strict o (rowYs C rows) b).node tag) y') : readSlot py strict rd y' r.s = .ok r.vs' := by
  have hpl := h.plan r hr
  have hrel := h.rel r hr
  have horg := h.facts.org r hr
  have hrl := select_reload r.s.path hy
  have hpl0 := hpl
  have hnil : r.vs = [] → r.vs' = [] := fun h0 => by
    have := h.vs'_length hr
    rw [h0] at this
    exact List.eq_nil_of_length_eq_zero this
  unfold Ctx.chkSlot at hpl
  split at hpl
  · -- guard
    rename_i tags g hi
    have hv : r.vs = [] := by
      rw [List.eq_nil_iff_forall_not_mem]
      intro v hv
      have := horg v hv
      rw [hi] at this
      exact this.guard
    split at hpl
    · rename_i ts hts
      split at hpl
      · rename_i hall
        have ht := tagsAt_sound h.sem hts tag (repr := repr) (strict := strict)
        have ht' : ∀ y ∈ select r.s.path y', y.tag ∈ ts := by
          generalize select r.s.path ((pureOut py repr strict o (rowYs C rows) b).node tag) = L at ht hrl
          generalize select r.s.path y' = L' at hrl
          clear hpl hpl0
          induction L generalizing L' with
          | nil => cases hrl; intro y hy; cases hy
          | cons a L ih => cases hrl with
            | cons _ a' _ L' h1 h2 =>
              intro y hy
              rcases List.mem_cons.1 hy with rfl | hy
              · rw [h1.tag]; exact ht a (by simp)
              · exact ih (fun y hy => ht y (by simp [hy])) L' h2 y hy
        obtain ⟨ls, h1, h2⟩ := mapE_nils (f := readItem py strict rd r.s.item) (l := select r.s.path y') (by
          intro y hy
          rw [hi]
          have := List.all_eq_true.1 hall y.tag (ht' y hy)
          simp only [readItem, this, if_true])
        exact h.finish hr h1 (by rw [h2, hnil hv])
      · cases hpl
    · cases hpl
  · -- want
    rename_i t e hi
    have hv : r.vs = [] := by
      rw [List.eq_nil_iff_forall_not_mem]
      intro v hv
      have := horg v hv
      rw [hi] at this
      exact this.want
    split at hpl
    · exact h.nothing hr ‹_› (hnil hv) hy
    · rename_i f b' hl
      split at hpl
      · rename_i g q1 q2 q3 hats
        split at hpl
        · rename_i hc
          simp only [Bool.and_eq_true, beq_iff_eq] at hc
          obtain ⟨⟨rfl, htags⟩, hsl⟩ := hc
          have hL := locate_sound h.sem hl tag (repr := repr) (strict := strict)
          by_cases hcs : condsHold py o [.any [(g, [])]] = true
          · obtain ⟨t', ht'⟩ := hL.1 hcs
            rw [ht'] at hrl
            obtain ⟨z, hz, hzr⟩ := ReloadAll_one hrl
            have hkids : (pureOut py repr strict o (rowYs C rows) b').kids = rowYs C rows g [] := by
              rw [kids_ats h.sem, hats]
              simp [atomKids, condsHold, emKids]
            have hne : rowYs C rows g [] ≠ [] := h.rowYs_ne hsl (by
              show ¬ o.view g [] = []
              simpa [condsHold, Cond.holds] using hcs)
            have ht := tagsAt_sound h.sem htags t' (repr := repr) (strict := strict)
            have hkr := hzr.kids
            rw [show ((pureOut py repr strict o (rowYs C rows) b').node t').kids = rowYs C rows g [] from hkids] at hkr
            have hany : z.kids.any (tagIs t) = true := by
              obtain ⟨y, l, hyl⟩ := List.exists_cons_of_ne_nil hne
              have hty := ht y (by
                simp only [select]
                rw [show ((pureOut py repr strict o (rowYs C rows) b').node t').kids = rowYs C rows g [] from hkids, hyl]
                simp [tagIs])
              rw [List.mem_singleton] at hty
              rw [hyl] at hkr
              generalize z.kids = zk at hkr
              cases hkr with
              | cons _ y' _ l' h1 _ => simp [tagIs, h1.tag, hty]
            exact h.finish hr (ls := [[]]) (by rw [hz, hi]; simp only [mapE, readItem, hany, if_true]) (by rw [hnil hv]; rfl)
          · rw [hL.2 (by simpa using hcs)] at hrl
            exact h.finish hr (ls := []) (by rw [ReloadAll_nil hrl]; rfl) (hnil hv).symm
        · cases hpl
      · cases hpl
    · cases hpl
  · -- crash
    rename_i e hi
    have hv : r.vs = [] := by
      rw [List.eq_nil_iff_forall_not_mem]
      intro v hv
      have := horg v hv
      rw [hi] at this
      exact this.crash
    split at hpl
    · exact h.nothing hr ‹_› (hnil hv) hy
    · cases hpl
  · -- name
    rename_i hi
    split at hpl
    · rename_i cs t k f one hl
      split at hpl
      · rename_i hc
        simp only [Option.some.injEq] at hpl
        rw [← hpl] at hrel
        simp only [Bool.and_eq_true, Bool.or_eq_true, Bool.not_eq_true'] at hc
        refine chkSlot_prims h hr hl ?_ (h.facts.sole hr hc.1.1.2 (.inl rfl)) hc.1.2 ?_ hrel.1 hy
        · rw [hi]; exact hc.1.1.1
        · intro h1
          exact hc.2.resolve_left (by simp [h1])
      · cases hpl
    · cases hpl
  · -- prim
    rename_i rk hi
    split at hpl
    · split at hpl
      · exact h.nothing hr ‹_› (hnil (h.facts.hollow hr ‹_›)) hy
      · cases hpl
    · rename_i cs t k f one hl
      split at hpl
      · rename_i hc
        simp only [Option.some.injEq] at hpl
        rw [← hpl] at hrel
        simp only [Bool.and_eq_true, Bool.or_eq_true, Bool.not_eq_true'] at hc
        refine chkSlot_prims h hr hl ?_ (h.facts.src hr hc.1.1.2) hc.1.2 ?_ hrel.1 hy
        · exact hc.1.1.1
        · intro h1
          exact hc.2.resolve_left (by simp [h1])
      · cases hpl
    · rename_i cs b' hl
      split at hpl
      · rename_i a ha
        split at hpl
        · rename_i hc
          simp only [Option.some.injEq] at hpl
          rw [← hpl] at hrel
          simp only [Bool.and_eq_true] at hc
          obtain ⟨⟨⟨⟨hfit, hsole⟩, hcs⟩, hats⟩, hone⟩ := hc
          have hget : o.get a.2.2 = r.vs := h.facts.sole hr hsole (.inl rfl)
          have hL := locate_sound h.sem hl tag (repr := repr) (strict := strict)
          have hkids : (pureOut py repr strict o (rowYs C rows) b').kids = [] := by
            rw [kids_ats h.sem, List.isEmpty_iff.1 hats]; rfl
          have htext : (pureOut py repr strict o (rowYs C rows) b').text = atomText py strict o a := by
            rw [text_ats h.sem, ha]; rfl
          have hlen := h.facts.one r hr hone
          cases hvs : r.vs with
          | nil =>
            have ht : atomText py strict o a = [] := by
              unfold atomText
              rw [hget, hvs]
              split <;> rfl
            have hsel : ∀ y ∈ select r.s.path y', y.text = [] := by
              by_cases hcs' : condsHold py o cs = true
              · obtain ⟨t', ht'⟩ := hL.1 hcs'
                rw [ht'] at hrl
                have := ReloadAll_leaves hrl (by intro y hy; rw [List.mem_singleton] at hy; rw [hy]; exact hkids)
                intro y hy
                rw [this, List.mem_singleton] at hy
                rw [hy]
                exact htext.trans ht
              · rw [hL.2 (by simpa using hcs')] at hrl
                rw [ReloadAll_nil hrl]
                intro y hy; cases hy
            obtain ⟨ls, h1, h2⟩ := mapE_nils (f := readItem py strict rd r.s.item) (l := select r.s.path y') (by
              intro y hy
              rw [hi]
              simp only [readItem, text_nil hfit (hsel y hy), scalars])
            exact h.finish hr h1 (by rw [h2, hnil hvs])
          | cons v vs =>
            have hvs' : vs = [] := by
              rw [hvs] at hlen
              simpa using hlen
            subst hvs'
            have ho := horg v (by rw [hvs]; simp)
            rw [hi] at ho
            obtain ⟨x0, s, rfl, hs⟩ := ho.prim
            obtain ⟨w, hw, hback⟩ := text_rt (strict := strict) hfit hs
            have hne : o.view a.2.2 [] ≠ [] := by
              show o.get a.2.2 ≠ []
              rw [hget, hvs]; simp
            have hcond := h.conds hcs hne
            rw [condsHold_append, Bool.and_eq_true] at hcond
            have ht : atomText py strict o a = w := by
              rw [atomText, if_pos hcond.2, hget, hvs]
              simp [textL, attrV, hw, optText]
            obtain ⟨t', ht'⟩ := hL.1 hcond.1
            rw [ht'] at hrl
            have e := ReloadAll_leaves hrl (by intro y hy; rw [List.mem_singleton] at hy; rw [hy]; exact hkids)
            refine h.finish hr (ls := [[.scal s]]) ?_ ?_
            · rw [e, hi]
              simp only [mapE, readItem]
              rw [hback ((pureOut py repr strict o (rowYs C rows) b').node t') (htext.trans ht)]
              rfl
            · rw [hrel.1, hvs]; rfl
        · cases hpl
      · cases hpl
    · cases hpl
  · -- attr
    rename_i n ak hi
    split at hpl
    · split at hpl
      · exact h.nothing hr ‹_› (hnil (h.facts.hollow hr ‹_›)) hy
      · cases hpl
    · rename_i cs b' hl
      have hL := locate_sound h.sem hl tag (repr := repr) (strict := strict)
      have hsel : ∀ w, (pureOut py repr strict o (rowYs C rows) b').attrs.lookup n = w → ∀ y ∈ select r.s.path y', y.attr n = w := by
        intro w hw
        by_cases hcs' : condsHold py o cs = true
        · obtain ⟨t', ht'⟩ := hL.1 hcs'
          rw [ht'] at hrl
          obtain ⟨z, hz, hzr⟩ := ReloadAll_one hrl
          intro y hy
          rw [hz, List.mem_singleton] at hy
          rw [hy, Xml.attr, hzr.attrs]
          exact hw
        · rw [hL.2 (by simpa using hcs')] at hrl
          rw [ReloadAll_nil hrl]
          intro y hy; cases hy
      have hempty : (pureOut py repr strict o (rowYs C rows) b').attrs.lookup n = none → r.vs = [] → readSlot py strict rd y' r.s = .ok r.vs' := by
        intro h0 hvs
        obtain ⟨ls, h1, h2⟩ := mapE_nils (f := readItem py strict rd r.s.item) (l := select r.s.path y') (by
          intro y hy
          rw [hi]
          simp only [readItem, hsel _ h0 y hy])
        exact h.finish hr h1 (by rw [h2, hnil hvs])
      have hat := attrs_ats h.sem b' n (repr := repr) (strict := strict)
      split at hpl
      · rename_i ha
        split at hpl
        · exact hempty (by rw [hat, ha]; rfl) (h.facts.hollow hr ‹_›)
        · cases hpl
      · rename_i a ha
        have hn : a.2.1 = n := by
          have hm : a ∈ C.attrs b' n := by rw [ha]; simp
          obtain ⟨a0, ha0, rfl⟩ := List.mem_map.1 hm
          have := (List.mem_filter.1 ha0).2
          simp only [Bool.and_eq_true, beq_iff_eq] at this
          exact this.2.2
        split at hpl
        · rename_i hc
          simp only [Option.some.injEq] at hpl
          rw [← hpl] at hrel
          simp only [Bool.and_eq_true] at hc
          obtain ⟨⟨⟨hfit, hsole⟩, hcs⟩, hone⟩ := hc
          have hget : o.get a.2.2.2 = r.vs := h.facts.sole hr hsole (.inl rfl)
          have hlen := h.facts.one r hr hone
          cases hvs : r.vs with
          | nil =>
            refine hempty ?_ hvs
            rw [hat, ha]
            simp only [List.flatMap_cons, List.flatMap_nil, List.append_nil, atomAttrs, hget, hvs]
            split <;> rfl
          | cons v vs =>
            have hvs' : vs = [] := by
              rw [hvs] at hlen
              simpa using hlen
            subst hvs'
            have ho := horg v (by rw [hvs]; simp)
            rw [hi] at ho
            obtain ⟨w0, s, rfl, hs⟩ := ho.attr (strict := strict)
            obtain ⟨w, hw, hback⟩ := attr_rt hfit hs
            have hne : o.view a.2.2.2 [] ≠ [] := by
              show o.get a.2.2.2 ≠ []
              rw [hget, hvs]; simp
            have hcond := h.conds hcs hne
            rw [condsHold_append, Bool.and_eq_true] at hcond
            have hlook : (pureOut py repr strict o (rowYs C rows) b').attrs.lookup n = some w := by
              rw [hat, ha]
              simp only [List.flatMap_cons, List.flatMap_nil, List.append_nil, atomAttrs, hcond.2, if_true, hget, hvs, attrL, attrV, hw]
              exact lookup_optAttr' hn _
            obtain ⟨t', ht'⟩ := hL.1 hcond.1
            rw [ht'] at hrl
            obtain ⟨z, hz, hzr⟩ := ReloadAll_one hrl
            refine h.finish hr (ls := [[.scal s]]) ?_ ?_
            · rw [hz, hi]
              have : z.attr n = some w := hsel _ hlook z (by rw [hz]; simp)
              simp only [mapE, readItem, this, hback, scalars]
            · rw [hrel.1, hvs]; rfl
        · cases hpl
      · cases hpl
    · cases hpl
  · -- objs
    rename_i alts0 hi0
    cases hp : r.plan with
    | same =>
      rw [hp] at hrel hpl
      split at hpl
      · cases hpl
      · split at hpl
        · split at hpl
          · exact h.nothing hr ‹_› (hnil (h.facts.hollow hr ‹_›)) hy
          · cases hpl
        · split at hpl
          · split at hpl
            · split at hpl <;> cases hpl
            · cases hpl
          · cases hpl
        · cases hpl
    | objs sort ps =>
      rw [hp] at hpl0 hrel
      obtain ⟨alts, cs, f, v, arr, cases', ot, one, hi, _, hl, hsole, hcs, hone, _, _, halt⟩ := chkSlot_objs hpl0
      obtain ⟨ks, hk1, hk2, hk3, hk4⟩ := hrel
      have hview : o.view f v = r.vs := h.facts.sole hr hsole (.inr ⟨alts, hi⟩)
      have hys : rowYs C rows f v = r.ys := h.rowYs_eq hr hsole
      have hylen : r.ys.length = r.vs.length := by
        rw [hk3, hk1, List.length_map, List.length_map, (srt_perm sort ks).length_eq]
      have hL := locate_sound h.sem hl tag (repr := repr) (strict := strict)
      have e := leaf_exact hL (fun h1 => by
        show (rowYs C rows f v).length ≤ 1
        rw [hys, hylen]; exact h.facts.one r hr (hone h1)) (fun hne => by
        apply h.conds hcs
        intro h0
        apply hne
        show rowYs C rows f v = []
        rw [hys]
        rw [hview] at h0
        rw [h0] at hylen
        exact List.eq_nil_of_length_eq_zero hylen)
      rw [e] at hrl
      rw [show emKids py repr strict o (rowYs C rows) (.each f v arr cases' ot) = r.ys from hys, hk3] at hrl
      have hrd := objs_read (strict := strict) (alts := alts) (ks := srt sort ks) (fun k hk => by
        have := hk4 k ((srt_perm sort ks).mem_iff.1 hk)
        exact ⟨halt _ this.1, this.2.2⟩) hrl
      refine h.finish hr (by rw [hi]; exact hrd) ?_
      rw [hk2]
      generalize srt sort ks = ks'
      induction ks' with
      | nil => rfl
      | cons a l ih => simp [ih]

end
end Verif.Lemmas
