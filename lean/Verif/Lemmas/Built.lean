import Verif.Lemmas.Load
/-!
# Documents that fit are saved and loaded again; merging keeps them fitting
-/
namespace Verif.Lemmas
open Verif Verif.Model Verif.Spec

section
variable {py : Py} {strict : Bool} {T : Key → Option RBody} {I : Key → List Need}

theorem valueOf_mono {M M' : Key → MObj py.F → Prop} (hM : ∀ k v, M k v → M' k v) {i : Item} {v : MObj py.F} (h : ValueOf M i v) : ValueOf M' i v := by
  cases i with
  | objs alts => obtain ⟨t, k, hk, hv⟩ := h; exact ⟨t, k, hk, hM k v hv⟩
  | _ => exact h

theorem slotFits_mono {M M' : Key → MObj py.F → Prop} (hM : ∀ k v, M k v → M' k v) {s : RSlot} {vs : List (MObj py.F)} (h : SlotFits strict M s vs) :
    SlotFits strict M' s vs := ⟨fun v hv => valueOf_mono hM (h.kinds v hv), h.one, h.set⟩

theorem fits_succ {n : Nat} {k : Key} {o : MObj py.F} (h : Shaped strict T I n k o) : Shaped strict T I (n + 1) k o := by
  induction n generalizing k o with
  | zero => exact h.elim
  | succ n ih =>
    obtain ⟨b, vss, hb, ho, hs, hn, hI⟩ := h
    exact ⟨b, vss, hb, ho, hs.imp fun _ _ h => slotFits_mono (fun k v hv => ih hv) h, hn, hI⟩

theorem fits_le {n m : Nat} (hnm : n ≤ m) {k : Key} {o : MObj py.F} (h : Shaped strict T I n k o) : Shaped strict T I m k o := by
  induction hnm with
  | refl => exact h
  | step _ ih => exact fits_succ ih

/-! ## The conditions -/

theorem forall₂_zip {α β γ : Type} {R : α → β → Prop} {f : α → γ} {l : List α} {r : List β} (h : List.Forall₂ R l r) {e : γ × β} (he : e ∈ (l.map f).zip r) :
    ∃ a ∈ l, f a = e.1 ∧ R a e.2 := by
  induction h with
  | nil => cases he
  | cons h1 _ ih =>
    simp only [List.map_cons, List.zip_cons_cons] at he
    rcases List.mem_cons.1 he with rfl | he
    · exact ⟨_, by simp, rfl, h1⟩
    · obtain ⟨a, ha, h⟩ := ih he
      exact ⟨a, by simp [ha], h⟩

/-- the conditions `I` are part of fitting -/
theorem fits_clean {D : Key → List Need} {n : Nat} {k : Key} {o : MObj py.F} (h : Shaped strict T I n k o) (hc : Clean D strict o) :
    Clean (fun c => D c ++ I c) strict o := by
  induction n generalizing k o with
  | zero => exact h.elim
  | succ n ih =>
    obtain ⟨b, vss, hb, rfl, hs, hn, hI⟩ := h
    refine .mk _ _ ?_ ?_
    · intro m hm
      rcases List.mem_append.1 hm with hm | hm
      · exact clean_needs hc rfl m hm
      · exact hI m hm
    · intro e he v hv
      have hcv := clean_kids hc (by exact he) hv
      obtain ⟨s, _, _, hf⟩ := forall₂_zip hs he
      have hval := hf.kinds v hv
      cases hi : s.item with
      | objs alts =>
        rw [hi] at hval
        obtain ⟨t, k', _, hv'⟩ := hval
        exact ih hv' hcv
      | prim kk => rw [hi] at hval; obtain ⟨sc, rfl, _⟩ := hval; exact .scal sc
      | attr a kk => rw [hi] at hval; obtain ⟨sc, rfl, _⟩ := hval; exact .scal sc
      | name => rw [hi] at hval; obtain ⟨w, _, rfl⟩ := hval; exact .scal _
      | guard tags g => rw [hi] at hval; exact hval.elim
      | want t e => rw [hi] at hval; exact hval.elim
      | crash e => rw [hi] at hval; exact hval.elim

/-! ## Merging -/

/-- the values of an attribute before it is read (`set` only holds afterwards) -/
structure OldFits (M : Key → MObj py.F → Prop) (s : RSlot) (vs : List (MObj py.F)) : Prop where
  kinds : ∀ v ∈ vs, ValueOf M s.item v
  one : (s.path.single || s.last) = true → vs.length ≤ 1

/-- of the methods for the elements of a slot no two make objects of one class -/
def altsApart (T : Key → Option RBody) (s : RSlot) : Bool := !s.named || match s.item with
  | .objs alts => (alts.map fun a => ((T a.2).map RBody.cls, a.2)).all fun e => (alts.map fun a => ((T a.2).map RBody.cls, a.2)).all fun e' =>
      e.1 != e'.1 || e.2 == e'.2
  | _ => true

theorem altsApart_sound {s : RSlot} {alts : List (Key × Key)} (h : altsApart T s = true) (hn : s.named = true) (hi : s.item = .objs alts)
    {t t' k k' : Key} (hk : altOf alts t = some k) (hk' : altOf alts t' = some k') (hc : (T k).map RBody.cls = (T k').map RBody.cls) : k = k' := by
  obtain ⟨u, hu⟩ := altOf_mem hk
  obtain ⟨u', hu'⟩ := altOf_mem hk'
  simp only [altsApart, hn, Bool.not_true, Bool.false_or, hi, List.all_eq_true] at h
  have := h _ (List.mem_map_of_mem hu) _ (List.mem_map_of_mem hu')
  simpa [hc] using this

theorem fold_fits {into : Key → Option (MObj py.F) → Xml → Except RErr (MObj py.F)} {M : Key → MObj py.F → Prop} {s : RSlot} {alts : List (Key × Key)}
    (ha : altsApart T s = true) (hnm : s.named = true) (hi : s.item = .objs alts) (hM : ∀ k v, M k v → (T k).map RBody.cls = some v.cls)
    (hnew : ∀ k y u, into k none y = .ok u → M k u)
    (hint : ∀ t k y v u, altOf alts t = some k → M k v → into k (some v) y = .ok u → M k u)
    {ys : List Xml} {old r : List (MObj py.F)} (hold : ∀ v ∈ old, ValueOf M s.item v) (hr : foldE (putNamed py T into s alts) old ys = .ok r) :
    ∀ v ∈ r, ValueOf M s.item v := by
  induction ys generalizing old with
  | nil => cases hr; exact hold
  | cons y ys ih =>
    simp only [foldE] at hr
    split at hr
    · cases hr
    rename_i old1 hput
    refine ih ?_ hr
    unfold putNamed at hput
    split at hput
    · cases hput; exact hold
    rename_i k hk
    split at hput
    · cases hput
    rename_i b hb
    split at hput
    · rename_i hany
      split at hput
      · cases hput
      obtain ⟨a, v0, u0, c, rfl, rfl, hp, hu0⟩ := replaceE_ok hany hput
      intro v hv
      simp only [List.mem_append, List.mem_cons] at hv
      rcases hv with hv | rfl | hv
      · exact hold v (by simp [hv])
      · have hv0 := hold v0 (by simp)
        rw [hi] at hv0 ⊢
        obtain ⟨t', k', hk', hv0⟩ := hv0
        obtain rfl : k = k' := by
          refine altsApart_sound ha hnm hi hk hk' ?_
          rw [hM _ _ hv0, hb, (isIt_iff.1 hp).1]
          rfl
        exact ⟨y.tag, k, hk, hint _ k y v0 v hk hv0 hu0⟩
      · exact hold v (by simp [hv])
    · split at hput
      · cases hput
      rename_i o ho
      cases hput
      intro v hv
      simp only [List.mem_append, List.mem_singleton] at hv
      rcases hv with hv | rfl
      · exact hold v hv
      · rw [hi]; exact ⟨y.tag, k, hk, hnew k y v ho⟩

theorem slot_fits {into : Key → Option (MObj py.F) → Xml → Except RErr (MObj py.F)} {M : Key → MObj py.F → Prop} {s : RSlot} {over : List Key} {x : Xml}
    (hok : slotOk T s = true) (ha : altsApart T s = true) (hM : ∀ k v, M k v → (T k).map RBody.cls = some v.cls)
    (hnew : ∀ k y u, into k none y = .ok u → M k u)
    (hint : ∀ k b y v u, T k = some b → nameOk b = true → M k v → into k (some v) y = .ok u → M k u)
    {old vs : List (MObj py.F)} (hold : OldFits M s old) (h : intoSlot py strict T into over x s old = .ok vs) : SlotFits strict M s vs := by
  by_cases hnm : s.named = true
  · obtain ⟨alts, hi, halts, hreq, hlast, _⟩ := slotOk_named hok hnm
    unfold intoSlot at h
    rw [hnm, hi] at h
    simp only at h
    split at h
    · cases h
    rename_i us hus
    split at h
    · cases h
    rename_i hone
    cases h
    refine ⟨fold_fits ha hnm hi hM hnew ?_ hold.kinds hus, ?_, ?_⟩
    · intro t k y v u hk hv hu
      obtain ⟨t', ht'⟩ := altOf_mem hk
      obtain ⟨b, hb, hn⟩ := halts _ ht'
      exact hint k b y v u hb hn hv hu
    · intro h1
      simp only [hlast, Bool.or_false] at h1
      simp only [h1, Bool.true_and, Bool.not_eq_true] at hone
      have : ¬ 1 < vs.length := by
        intro hlt
        rw [show Nat.blt 1 vs.length = true by rw [Nat.blt_eq]; exact hlt] at hone
        cases hone
      omega
    · intro _
      rw [hreq]
      exact ⟨by simp, by simp, by simp [inherent, hi]⟩
  · have hnm : s.named = false := by simpa using hnm
    unfold intoSlot at h
    rw [hnm] at h
    simp only at h
    split at h
    · cases h
    rename_i us hus
    have hfresh := readSlot_fits hnew hus
    split at h
    · rename_i hl
      cases h
      simp only [RSlot.isList, Bool.and_eq_true, Bool.not_eq_true'] at hl
      refine ⟨?_, ?_, ?_⟩
      · intro v hv
        rcases List.mem_append.1 hv with hv | hv
        · exact hold.kinds v hv
        · exact hfresh.kinds v hv
      · simp [hl.1, hl.2]
      · intro h0
        exact hfresh.set (List.append_eq_nil_iff.1 h0).2
    · split at h
      · rename_i he
        cases h
        simp only [Bool.and_eq_true, List.isEmpty_iff] at he
        exact ⟨hold.kinds, hold.one, fun _ => hfresh.set he.1⟩
      · cases h
        exact hfresh

theorem zip_fits {into : Key → Option (MObj py.F) → Xml → Except RErr (MObj py.F)} {M : Key → MObj py.F → Prop} {over : List Key} {x : Xml} {slots : List RSlot}
    (hok : ∀ s ∈ slots, slotOk T s = true ∧ altsApart T s = true) (hM : ∀ k v, M k v → (T k).map RBody.cls = some v.cls)
    (hnew : ∀ k y u, into k none y = .ok u → M k u)
    (hint : ∀ k b y v u, T k = some b → nameOk b = true → M k v → into k (some v) y = .ok u → M k u)
    {olds vss : List (List (MObj py.F))} (hold : List.Forall₂ (OldFits M) slots olds)
    (h : zipE (intoSlot py strict T into over x) slots olds = .ok vss) : List.Forall₂ (SlotFits strict M) slots vss := by
  induction hold generalizing vss with
  | nil => cases h; exact .nil
  | @cons s old slots olds h1 _ ih =>
    simp only [zipE] at h
    split at h
    · cases h
    rename_i vs hvs
    split at h
    · cases h
    rename_i vss' hvss
    cases h
    exact .cons (slot_fits (hok s (by simp)).1 (hok s (by simp)).2 hM hnew hint h1 hvs) (ih (fun s hs => hok s (by simp [hs])) hvss)

/-! ## Conditions of new objects -/

theorem intoSlot_select {into : Key → Option (MObj py.F) → Xml → Except RErr (MObj py.F)} {over : List Key} {x : Xml} {s : RSlot}
    {vs : List (MObj py.F)} (h : intoSlot py strict T into over x s [] = .ok vs) (hv : vs ≠ []) : select s.path x ≠ [] := by
  intro h0
  apply hv
  unfold intoSlot at h
  split at h
  · rw [h0] at h
    simp only [foldE] at h
    split at h
    · cases h
    · cases h; rfl
  · split at h
    · cases h
    rename_i us hus
    obtain ⟨ls, hls, hls2, _⟩ := readSlot_ok hus
    rw [h0] at hls
    cases hls
    have : us = [] := by rw [← hls2]; simp [keepLast]
    subst this
    split at h
    · cases h; rfl
    · split at h <;> cases h <;> rfl

theorem exclusive_slots {x : Xml} {slots : List RSlot} {vss : List (List (MObj py.F))}
    (h : List.Forall₂ (fun s vs => vs ≠ [] → select s.path x ≠ []) slots vss) {f g c : Key} (hex : exclusive slots f g = true) :
    (MObj.mk c ((slots.map RSlot.key).zip vss)).get f = [] ∨ (MObj.mk c ((slots.map RSlot.key).zip vss)).get g = [] := by
  have key : ∀ f, (MObj.mk c ((slots.map RSlot.key).zip vss)).get f ≠ [] → ∃ s ∈ slots, hits f s.key = true ∧ select s.path x ≠ [] := by
    intro f hf
    obtain ⟨v, hv⟩ := List.exists_mem_of_ne_nil _ hf
    obtain ⟨e, he, hve⟩ := List.mem_flatMap.1 hv
    obtain ⟨s, hs, hk, hr⟩ := forall₂_zip h he
    split at hve
    · rename_i hh
      exact ⟨s, hs, by rw [hk]; exact hh, hr (List.ne_nil_of_mem hve)⟩
    · cases hve
  by_cases hf : (MObj.mk c ((slots.map RSlot.key).zip vss)).get f = []
  · exact .inl hf
  by_cases hg : (MObj.mk c ((slots.map RSlot.key).zip vss)).get g = []
  · exact .inr hg
  exfalso
  obtain ⟨s, hs, hsf, hsx⟩ := key f hf
  obtain ⟨t, ht, htg, htx⟩ := key g hg
  have := List.all_eq_true.1 hex s hs
  simp only [hsf, Bool.not_true, Bool.false_or] at this
  have := List.all_eq_true.1 this t ht
  simp only [htg, Bool.not_true, Bool.false_or] at this
  split at this
  · rename_i p q hp
    simp only [beq_iff_eq] at this
    rw [hp] at hsx
    simp only [select] at hsx
    split at hsx
    · rename_i h0
      rw [this] at htx
      exact htx (by simpa using h0)
    · exact hsx rfl
  · cases this

theorem zip_olds {into : Key → Option (MObj py.F) → Xml → Except RErr (MObj py.F)} {over : List Key} {x : Xml} {slots : List RSlot}
    {vss : List (List (MObj py.F))} (h : zipE (intoSlot py strict T into over x) slots (slots.map fun _ => []) = .ok vss) :
    List.Forall₂ (fun s vs => vs ≠ [] → select s.path x ≠ []) slots vss := by
  induction slots generalizing vss with
  | nil => cases h; exact .nil
  | cons s slots ih =>
    simp only [List.map_cons, zipE] at h
    split at h
    · cases h
    rename_i vs hvs
    split at h
    · cases h
    rename_i vss' hvss
    cases h
    exact .cons (intoSlot_select hvs) (ih hvss)

theorem zip_right {α β : Type} {l : List α} {a b : List β} (h : l.zip a = l.zip b) (ha : a.length = l.length) (hb : b.length = l.length) : a = b := by
  have := congrArg (List.map Prod.snd) h
  rwa [List.map_snd_zip (by omega), List.map_snd_zip (by omega)] at this

end

/-! ## The tables -/

theorem table_apart : Gen.readTable.all (fun _ b => b.slots.all (altsApart readers)) = true := by decide +kernel

theorem load_apart : loadBody.slots.all (altsApart readers) = true := by decide +kernel

theorem scale_unnamed : Gen.readTable.all (fun _ b => b.cls != k!"CompuScale" || !nameOk b) = true := by decide +kernel

theorem apart (k : Key) (b : RBody) (h : readers k = some b) : ∀ s ∈ b.slots, slotOk readers s = true ∧ altsApart readers s = true := by
  intro s hs
  refine ⟨slotsOk k b h s hs, ?_⟩
  unfold readers at h
  split at h
  · cases h
    exact List.all_eq_true.1 load_apart s hs
  · exact List.all_eq_true.1 ((Bst.all_toList _ _).1 table_apart _ (Bst.find?_mem h)) s hs

theorem named_free (k : Key) (b : RBody) (h : readers k = some b) (hn : nameOk b = true) : invariants b.cls = [] := by
  unfold invariants
  split
  swap
  · rfl
  rename_i hc
  exfalso
  unfold readers at h
  split at h
  · cases h; exact absurd hc (by decide)
  · have := (Bst.all_toList _ _).1 scale_unnamed _ (Bst.find?_mem h)
    simp [hc, hn] at this

theorem scale_exclusive (k : Key) (b : RBody) (h : readers k = some b) (hc : b.cls = k!"CompuScale") :
    exclusive b.slots k!"compuScaleContents.compuConst.compuConstContentType.vt" k!"compuScaleContents.compuRationalCoeffs" = true := by
  unfold readers at h
  split at h
  · cases h; exact absurd hc (by decide)
  · have := (Bst.all_toList _ _).1 scale_reader _ (Bst.find?_mem h)
    simpa [hc] using this

section
variable {py : Py} {repr : py.F → Str} {strict : Bool}

/-- **Merging.**  An object that fits still does after more was read into it. -/
theorem into_fits {n N : Nat} (hN : n ≤ N) {k : Key} {o : Option (MObj py.F)} {x : Xml} {r : MObj py.F}
    (h : intoObj py strict readers overs n k o x = .ok r)
    (ho : ∀ v, o = some v → Shaped strict readers invariants N k v ∧ ∀ b, readers k = some b → invariants b.cls = []) :
    Shaped strict readers invariants N k r := by
  induction n generalizing N k o x r with
  | zero => cases h
  | succ n ih =>
    obtain ⟨m, b, hm, hb, h⟩ := intoObj_succ h
    cases hm
    obtain ⟨N, rfl⟩ : ∃ N', N = N' + 1 := ⟨N - 1, by omega⟩
    obtain ⟨olds, vss, hod, hlen, hz, rfl, hnames⟩ := intoBody_ok h
    have hold : List.Forall₂ (OldFits (Shaped strict readers invariants N)) b.slots olds ∧
        ∀ m ∈ invariants b.cls, m.ok strict (MObj.mk b.cls ((b.slots.map RSlot.key).zip vss)) := by
      cases o with
      | none =>
        have : olds = b.slots.map fun _ => [] := by
          simp only [Option.getD_none, blankOf, MObj.mk.injEq, true_and, List.map_map] at hod
          have := congrArg (List.map Prod.snd) hod
          rw [List.map_snd_zip (by simp [hlen])] at this
          rw [← this, List.map_map]
          rfl
        subst this
        constructor
        · clear hod hlen hz hnames
          induction b.slots with
          | nil => exact .nil
          | cons s l ih => exact .cons ⟨by simp, by simp⟩ ih
        · intro m hm
          unfold invariants at hm
          split at hm
          · rename_i hc
            rw [List.mem_singleton] at hm
            subst hm
            exact exclusive_slots (zip_olds hz) (scale_exclusive k b hb hc)
          · cases hm
      | some v =>
        obtain ⟨⟨b', vs', hb', rfl, hs, _⟩, hI⟩ := ho v rfl
        rw [hb] at hb'
        cases hb'
        refine ⟨?_, by rw [hI b hb]; intro m hm; cases hm⟩
        simp only [Option.getD_some, MObj.mk.injEq, true_and] at hod
        obtain rfl := zip_right hod (by simp [hs.length_eq]) (by simp [hlen])
        exact hs.imp fun _ _ h => ⟨h.kinds, h.one⟩
    refine ⟨b, vss, hb, rfl, zip_fits (apart k b hb) (fun _ _ hv => fits_cls hv) ?_ ?_ hold.1 hz, hnames, hold.2⟩
    · intro k y u hu
      exact ih (by omega) hu (fun v hv => by cases hv)
    · intro k b y v u hkb hn hv hu
      refine ih (by omega) hu ?_
      intro w hw
      cases hw
      refine ⟨hv, fun b' hb' => ?_⟩
      rw [hkb] at hb'
      cases hb'
      exact named_free k b hkb hn

theorem blank_fits : ∃ N, Shaped strict readers invariants N k!"load" (newDoc py) := by
  refine ⟨1, loadBody, loadBody.slots.map fun _ => [], readers_load, ?_, ?_, ?_, ?_⟩
  · simp only [newDoc, blankOf, List.map_map, List.zip_map']; rfl
  · have : ∀ s ∈ loadBody.slots, s.req = .no ∧ inherent s = false := by decide +kernel
    generalize loadBody.slots = l at this
    induction l with
    | nil => exact .nil
    | cons s l ih =>
      refine .cons ⟨by simp, by simp, fun _ => ?_⟩ (ih fun a ha => this a (by simp [ha]))
      obtain ⟨h1, h2⟩ := this s (by simp)
      rw [h1]
      exact ⟨by simp, by simp, h2⟩
  · have : ∀ g, (newDoc py).get g = [] := by
      intro g
      simp [newDoc, blankOf, MObj.get, MObj.fields, List.flatMap_map]
    simp only [namesOk, this]
    simp
  · intro m hm
    rw [show invariants loadBody.cls = [] from rfl] at hm
    cases hm

theorem loadInto_fits {d d' : MObj py.F} {x : Xml} (h : loadInto py strict d x = .ok d')
    (hd : ∃ N, Shaped strict readers invariants N k!"load" d) : ∃ N, Shaped strict readers invariants N k!"load" d' := by
  obtain ⟨N, hd⟩ := hd
  refine ⟨max x.depth N, into_fits (Nat.le_max_left _ _) (loadInto_eq h) ?_⟩
  intro v hv
  cases hv
  refine ⟨fits_le (Nat.le_max_right _ _) hd, ?_⟩
  intro b hb
  rw [readers_load] at hb
  cases hb
  rfl

theorem loadAll_fits {xs : List Xml} {d d' : MObj py.F} (h : loadAll py strict d xs = .ok d')
    (hd : ∃ N, Shaped strict readers invariants N k!"load" d) : ∃ N, Shaped strict readers invariants N k!"load" d' := by
  induction xs generalizing d with
  | nil => cases h; exact hd
  | cons x xs ih =>
    simp only [loadAll, foldE] at h
    split at h
    · cases h
    rename_i d1 h1
    exact ih h (loadInto_fits h1 hd)

/-! ## Saving -/

theorem schema_fits {N : Nat} {d : MObj py.F} (h : Shaped strict readers invariants N k!"load" d) :
    Shaped strict readers invariants N k!"load" (withSchema py d) := by
  cases N with
  | zero => exact h.elim
  | succ n =>
    obtain ⟨b, vss, hb, rfl, hs, hn, hI⟩ := h
    rw [readers_load] at hb
    cases hb
    rw [loadBody_slots] at hs
    cases hs with
    | @cons _ v _ vss h1 h2 =>
    unfold withSchema
    rw [show loadBody.cls = k!"AUTOSAR" from rfl] at hn ⊢
    rw [get_schema]
    split
    swap
    · exact ⟨loadBody, v :: vss, readers_load, rfl, by rw [loadBody_slots]; exact .cons h1 h2, hn, hI⟩
    rename_i hv
    subst hv
    simp only
    have hlen : vss.length = 3 := h2.length_eq.symm
    rw [map_schema _ _ hlen]
    refine ⟨loadBody, _ :: vss, readers_load, rfl, ?_, ?_, ?_⟩
    · rw [loadBody_slots]
      refine .cons ⟨?_, by simp, by simp⟩ h2
      intro v hv
      rw [List.mem_singleton] at hv
      exact ⟨_, hv, _, rfl⟩
    · rw [← hn]; exact names_load _ _ _
    · intro m hm
      rw [show invariants loadBody.cls = [] from rfl] at hm
      cases hm

theorem document_fits {N : Nat} {d : MObj py.F} (hf : Shaped strict readers invariants N k!"load" d) (hc : Clean lossy strict d) :
    ∃ y d', save py repr strict d = .ok y ∧ (∀ y', Reload y y' → load py strict y' = .ok d') ∧ Same reordered (withSchema py d) d' ∧
      save py repr strict d' = .ok y := by
  obtain ⟨fs, hd, hfs⟩ : ∃ fs, d = .mk k!"AUTOSAR" fs ∧ ∃ e ∈ fs, e.1.1 = k!"schema_location" := by
    cases N with
    | zero => exact hf.elim
    | succ n =>
      obtain ⟨b, vss, hb, rfl, hs, hn, hI⟩ := hf
      rw [readers_load] at hb
      cases hb
      refine ⟨_, rfl, ?_⟩
      rw [loadBody_slots] at hs ⊢
      cases hs with
      | cons h1 h2 => exact ⟨_, by simp only [List.map_cons, List.zip_cons_cons]; exact List.mem_cons_self, rfl⟩
  have hne := withSchema_get hd hfs
  obtain ⟨d', y, hch⟩ := roundtrip_fits (repr := repr) pairs_ok N ⟨k!"load", k!"save", k!"AUTOSAR", []⟩ root_pair (withSchema py d) (schema_fits hf)
    (withSchema_clean conds_doc (by rw [hd]; rfl) (fits_clean hf hc)) (by intro m hm; cases hm)
  have hne' : d'.get k!"schema_location" ≠ [] := by
    intro h0
    apply hne
    have := same_get hch.same k!"schema_location"
    rw [h0] at this
    exact List.length_eq_zero_iff.1 this
  have hsave : ∀ e : MObj py.F, writeObj py repr strict writers N k!"save" e = .ok { kids := [y] } → withSchema py e = e →
      save py repr strict e = .ok y := by
    intro e he hi
    have h1 := writeObj_mono (Nat.le_max_left N e.depth) he
    rw [writeObj_stable (Nat.le_max_right _ _) (Nat.le_refl _)] at h1
    simp only [save, hi, h1]
  refine ⟨y, d', ?_, ?_, hch.same, hsave d' hch.w2 (withSchema_id hne')⟩
  · have := hsave (withSchema py d) hch.w1 (withSchema_id hne)
    simp only [save, withSchema_id hne] at this ⊢
    exact this
  · intro y' hy'
    have h1 := readObj_mono (Nat.le_max_left N y'.depth) (hch.rd y' hy')
    rw [readObj_stable moving (Nat.le_max_right _ _) (Nat.le_refl _)] at h1
    have ht : y'.tag = k!"AUTOSAR" := hy'.tag.trans hch.tag
    unfold load
    rw [if_neg (by simp [ht])]
    exact h1

end
end Verif.Lemmas
