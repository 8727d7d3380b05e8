import Verif.Lemmas.Document
import Verif.Spec.Load
/-!
# Loading into a document with contents
-/
namespace Verif.Lemmas
open Verif Verif.Model Verif.Spec

/-! ## the tables -/

/-- the short name of an object comes from the child `SHORT-NAME` -/
def nameOk (b : RBody) : Bool := match b.slots.filter (fun s => hits k!"short_name" s.key) with
  | [s] => s.item == .name && s.path == .first [k!"SHORT-NAME"] .nil && s.req == .always && !s.last && !s.named && !s.isList
  | _ => false

/-- packages and elements are created by name, and so are no other attributes with these names -/
def slotOk (T : Key → Option RBody) (s : RSlot) : Bool :=
  if s.named then match s.item with
    | .objs alts => alts.all (fun a => match T a.2 with
        | some b => nameOk b
        | none => false) && s.req == .no && !s.last && (s.field != k!"arPackages" || !s.elems)
    | _ => false
  else s.field != k!"arPackages" && s.field != k!"elements" && !s.elems

theorem readTable_slots : Gen.readTable.all (fun _ b => b.slots.all (slotOk readers)) = true := by decide +kernel

theorem loadBody_slotOk : loadBody.slots.all (slotOk readers) = true := by decide +kernel

/-- all slots of all reader methods -/
def SlotsOk (T : Key → Option RBody) : Prop := ∀ k b, T k = some b → ∀ s ∈ b.slots, slotOk T s = true

theorem slotsOk : SlotsOk readers := by
  intro k b h s hs
  unfold readers at h
  split at h
  · cases h
    exact List.all_eq_true.1 loadBody_slotOk s hs
  · exact List.all_eq_true.1 ((Bst.all_toList _ _).1 readTable_slots _ (Bst.find?_mem h)) s hs

/-! ## short names -/

section
variable {py : Py} {strict : Bool} {T : Key → Option RBody}

/-- the values of the fields an attribute shows -/
def shown {F : Type} (g : Key) (fs : List ((Key × Bool) × List (MObj F))) : List (MObj F) := fs.flatMap fun e => if hits g e.1 then e.2 else []

theorem get_mk {F : Type} (c g : Key) (fs : List ((Key × Bool) × List (MObj F))) : (MObj.mk c fs).get g = shown g fs := rfl

theorem shown_cons {F : Type} (g : Key) (k : Key × Bool) (vs : List (MObj F)) (fs : List ((Key × Bool) × List (MObj F))) :
    shown g ((k, vs) :: fs) = (if hits g k then vs else []) ++ shown g fs := rfl

theorem zipE_cons {α β γ ε : Type} {f : α → β → Except ε γ} {a : α} {l : List α} {bs : List β} {r : List γ}
    (hb : bs.length = (a :: l).length) (h : zipE f (a :: l) bs = .ok r) :
    ∃ b bs' c r', bs = b :: bs' ∧ r = c :: r' ∧ f a b = .ok c ∧ zipE f l bs' = .ok r' ∧ bs'.length = l.length := by
  cases bs with
  | nil => cases hb
  | cons b bs =>
    simp only [zipE] at h
    split at h
    · cases h
    rename_i c hc
    split at h
    · cases h
    rename_i r' hr
    cases h
    exact ⟨b, bs, c, r', rfl, rfl, hc, hr, by simpa using hb⟩

theorem shown_none {F : Type} {g : Key} {slots : List RSlot} {rs : List (List (MObj F))} (h : slots.filter (fun s => hits g s.key) = []) :
    shown g ((slots.map RSlot.key).zip rs) = [] := by
  induction slots generalizing rs with
  | nil => rfl
  | cons s slots ih =>
    cases rs with
    | nil => rfl
    | cons r rs =>
      simp only [List.filter_eq_nil_iff] at h ih
      simp only [List.map_cons, List.zip_cons_cons, shown_cons]
      have h1 := h s (by simp)
      simp only [Bool.not_eq_true] at h1
      rw [h1, ih fun a ha => h a (by simp [ha])]
      rfl

theorem shown_one {F : Type} {ε : Type} {f : RSlot → List (MObj F) → Except ε (List (MObj F))} {g : Key} {slots : List RSlot} {s : RSlot}
    {olds rs : List (List (MObj F))} (hl : olds.length = slots.length) (hz : zipE f slots olds = .ok rs)
    (h : slots.filter (fun s => hits g s.key) = [s]) :
    ∃ old, f s old = .ok (shown g ((slots.map RSlot.key).zip rs)) := by
  induction slots generalizing olds rs with
  | nil => cases h
  | cons a slots ih =>
    obtain ⟨b, bs', c, r', rfl, rfl, hc, hr, hb⟩ := zipE_cons hl hz
    simp only [List.map_cons, List.zip_cons_cons, shown_cons]
    rw [List.filter_cons] at h
    split at h
    · rename_i ha
      simp only [List.cons.injEq] at h
      obtain ⟨rfl, h⟩ := h
      rw [ha, shown_none h]
      exact ⟨b, by simpa using hc⟩
    · rename_i ha
      simp only [Bool.not_eq_true] at ha
      rw [ha]
      obtain ⟨old, ho⟩ := ih hb hr h
      exact ⟨old, by simpa using ho⟩

theorem intoBody_ok {into : Key → Option (MObj py.F) → Xml → Except RErr (MObj py.F)} {over : List Key} {b : RBody} {o r : MObj py.F} {x : Xml}
    (h : intoBody py strict T into over b o x = .ok r) :
    ∃ olds rs, o = .mk b.cls ((b.slots.map RSlot.key).zip olds) ∧ olds.length = b.slots.length ∧
      zipE (intoSlot py strict T into over x) b.slots olds = .ok rs ∧ r = .mk b.cls ((b.slots.map RSlot.key).zip rs) ∧ namesOk b.slots r = true := by
  unfold intoBody at h
  split at h
  · cases h
  rename_i c fs
  split at h
  · rename_i hk
    split at h
    · cases h
    rename_i rs hrs
    simp only at h
    split at h
    · rename_i hn
      cases h
      refine ⟨fs.map Prod.snd, rs, ?_, ?_, hrs, rfl, hn⟩
      · rw [hk.1, ← hk.2, List.zip_map', List.map_id'']
        simp
      · have := congrArg List.length hk.2
        simpa using this
    · cases h
  · cases h

theorem intoObj_succ {over : Key → List Key} {n : Nat} {k : Key} {o : Option (MObj py.F)} {x : Xml} {r : MObj py.F}
    (h : intoObj py strict T over n k o x = .ok r) :
    ∃ m b, n = m + 1 ∧ T k = some b ∧ intoBody py strict T (intoObj py strict T over m) (over k) b (o.getD (blankOf py b)) x = .ok r := by
  cases n with
  | zero => cases h
  | succ m =>
    simp only [intoObj] at h
    split at h
    · cases h
    · rename_i b hb
      exact ⟨m, b, rfl, hb, h⟩

theorem readObj_succ {n : Nat} {k : Key} {x : Xml} {r : MObj py.F} (h : readObj py strict T n k x = .ok r) :
    ∃ m b vss, n = m + 1 ∧ T k = some b ∧ mapE (readSlot py strict (readObj py strict T m) x) b.slots = .ok vss ∧
      r = .mk b.cls ((b.slots.map RSlot.key).zip vss) ∧ namesOk b.slots r = true := by
  cases n with
  | zero => cases h
  | succ m =>
    simp only [readObj] at h
    split at h
    · cases h
    · rename_i b hb
      simp only [readBody] at h
      split at h
      · cases h
      · rename_i vss hvss
        split at h
        · rename_i hn
          cases h
          exact ⟨m, b, vss, rfl, hb, hvss, rfl, hn⟩
        · cases h

/-- reading the short name -/
theorem readSlot_name {rd : Key → Xml → Except RErr (MObj py.F)} {s : RSlot} {y : Xml} {vs : List (MObj py.F)} (hi : s.item = .name)
    (hp : s.path = .first [k!"SHORT-NAME"] .nil) (hr : s.req = .always) (hl : s.last = false) (h : readSlot py strict rd y s = .ok vs) :
    vs = [.scal (.str (elemName y))] := by
  obtain ⟨ls, hls, hv, hne⟩ := readSlot_ok h
  rw [hi, hp] at hls
  rw [hl] at hv
  simp only [Bool.false_eq_true, if_false] at hv
  unfold elemName
  cases hsel : select (.first [k!"SHORT-NAME"] .nil) y with
  | nil =>
    rw [hsel] at hls
    cases hls
    exact absurd hr (hne hv.symm).1
  | cons z l =>
    have h1 := select_single (.first [k!"SHORT-NAME"] .nil) rfl y
    rw [hsel] at h1 hls
    simp only [List.length_cons] at h1
    have : l = [] := List.length_eq_zero_iff.1 (by omega)
    subst this
    simp only [mapE, readItem] at hls
    split at hls
    · cases hls
    · rename_i a ha
      split at ha
      · cases ha
      · cases ha; cases hls
        rw [← hv]; rfl

theorem nameOk_slot {b : RBody} (h : nameOk b = true) : ∃ s, b.slots.filter (fun s => hits k!"short_name" s.key) = [s] ∧
    s.item = .name ∧ s.path = .first [k!"SHORT-NAME"] .nil ∧ s.req = .always ∧ s.last = false ∧ s.named = false ∧ s.isList = false := by
  unfold nameOk at h
  split at h
  · rename_i s hs
    simp only [Bool.and_eq_true, beq_iff_eq, Bool.not_eq_true'] at h
    obtain ⟨⟨⟨⟨⟨h1, h2⟩, h3⟩, h4⟩, h5⟩, h6⟩ := h
    exact ⟨s, hs, h1, h2, h3, h4, h5, h6⟩
  · cases h

theorem name_of_get {F : Type} {o : MObj F} {n : Str} (h : o.get k!"short_name" = [.scal (.str n)]) : o.name = n := by
  simp only [MObj.name, h, MObj.str]

/-- the name of an object read by name -/
theorem intoObj_name {over : Key → List Key} {n : Nat} {k : Key} {o : Option (MObj py.F)} {y : Xml} {r : MObj py.F} {b : RBody}
    (hb : T k = some b) (hn : nameOk b = true) (h : intoObj py strict T over n k o y = .ok r) : r.name = elemName y ∧ r.cls = b.cls := by
  obtain ⟨m, b', rfl, hb', h⟩ := intoObj_succ h
  rw [hb] at hb'; cases hb'
  obtain ⟨olds, rs, _, hlen, hz, rfl, _⟩ := intoBody_ok h
  refine ⟨?_, rfl⟩
  obtain ⟨s, hs, hi, hp, hr, hl, hnm, hli⟩ := nameOk_slot hn
  obtain ⟨old, ho⟩ := shown_one hlen hz hs
  apply name_of_get
  rw [get_mk]
  unfold intoSlot at ho
  rw [hnm, hi] at ho
  simp only at ho
  split at ho
  · cases ho
  · rename_i vs hvs
    have := readSlot_name hi hp hr hl hvs
    subst this
    rw [hli] at ho
    simp only [Bool.false_eq_true, if_false, List.isEmpty_cons, Bool.false_and, Except.ok.injEq] at ho
    exact ho.symm

/-! ## a new object -/

theorem isIt_iff {F : Type} {c : Key} {n : Str} {v : MObj F} : isIt c n v = true ↔ v.cls = c ∧ v.name = n := by
  simp [isIt]

/-- the methods for the elements of a slot give objects with the name of the element -/
def AltsOk (T : Key → Option RBody) (alts : List (Key × Key)) : Prop := ∀ a ∈ alts, ∃ b, T a.2 = some b ∧ nameOk b = true

theorem slotOk_named {s : RSlot} (h : slotOk T s = true) (hn : s.named = true) :
    ∃ alts, s.item = .objs alts ∧ AltsOk T alts ∧ s.req = .no ∧ s.last = false ∧ (s.field = k!"arPackages" → s.elems = false) := by
  unfold slotOk at h
  rw [if_pos hn] at h
  split at h
  · rename_i alts hi
    simp only [Bool.and_eq_true, beq_iff_eq, Bool.not_eq_true', List.all_eq_true, Bool.or_eq_true, bne_iff_ne] at h
    obtain ⟨⟨⟨h1, h2⟩, h3⟩, h4⟩ := h
    refine ⟨alts, hi, ?_, h2, h3, ?_⟩
    · intro a ha
      have := h1 a ha
      split at this
      · rename_i b hb
        exact ⟨b, hb, this⟩
      · cases this
    · intro he
      rcases h4 with h4 | h4
      · exact absurd he h4
      · exact h4
  · cases h

theorem slotOk_other {s : RSlot} (h : slotOk T s = true) (hn : s.named = false) {g : Key} (hg : g = k!"arPackages" ∨ g = k!"elements") :
    hits g s.key = false := by
  unfold slotOk at h
  rw [hn] at h
  simp only [Bool.false_eq_true, if_false, Bool.and_eq_true, bne_iff_ne, Bool.not_eq_true'] at h
  obtain ⟨⟨h1, h2⟩, h3⟩ := h
  rcases hg with rfl | rfl
  · simp [hits, RSlot.key, h1, h3]
  · simp [hits, RSlot.key, h2, h3]

theorem fold_fresh {rd : Key → Xml → Except RErr (MObj py.F)} {into : Key → Option (MObj py.F) → Xml → Except RErr (MObj py.F)} {s : RSlot}
    {alts : List (Key × Key)} (ha : AltsOk T alts) (hrd : ∀ k y o, rd k y = .ok o → into k none y = .ok o)
    (hname : ∀ k b y o, T k = some b → nameOk b = true → into k none y = .ok o → o.name = elemName y ∧ o.cls = b.cls)
    {ys : List Xml} {ls : List (List (MObj py.F))} (h : mapE (readItem py strict rd (.objs alts)) ys = .ok ls)
    {acc : List (MObj py.F)} (hn : ((acc ++ ls.flatten).map MObj.name).Nodup) :
    foldE (putNamed py T into s alts) acc ys = .ok (acc ++ ls.flatten) := by
  induction ys generalizing acc ls with
  | nil => cases h; simp [foldE]
  | cons y ys ih =>
    simp only [mapE] at h
    split at h
    · cases h
    rename_i l hl
    split at h
    · cases h
    rename_i ls' hls
    cases h
    simp only [List.flatten_cons] at hn ⊢
    simp only [readItem] at hl
    cases hk : altOf alts y.tag with
    | none =>
      rw [hk] at hl
      cases hl
      simp only [foldE, putNamed, hk]
      exact ih hls hn
    | some k =>
      rw [hk] at hl
      simp only at hl
      split at hl
      · cases hl
      rename_i o ho
      cases hl
      obtain ⟨t', ht'⟩ := altOf_mem' hk
      obtain ⟨b, hb, hnb⟩ := ha _ ht'
      have hi := hrd _ _ _ ho
      obtain ⟨hnm, hc⟩ := hname k b y o hb hnb hi
      have hany : acc.any (isIt b.cls (elemName y)) = false := by
        rw [Bool.eq_false_iff]
        intro hany
        obtain ⟨v, hv, hit⟩ := List.any_eq_true.1 hany
        rw [isIt_iff] at hit
        simp only [List.map_append, List.map_cons, List.map_nil] at hn
        have := (List.nodup_append.1 hn).2.2 v.name (List.mem_map_of_mem hv) o.name (by simp)
        exact this (by rw [hnm, hit.2])
      simp only [foldE, putNamed, hk, hb, hany, hi, Bool.false_eq_true, if_false]
      rw [ih hls (by simpa using hn)]
      simp

theorem nodup_slot {F : Type} {slots : List RSlot} {c : Key} {vss : List (List (MObj F))} (hn : namesOk slots (.mk c ((slots.map RSlot.key).zip vss)) = true)
    {s : RSlot} {vs : List (MObj F)} (hm : (s, vs) ∈ slots.zip vss) (hs : s.named = true) : (vs.map MObj.name).Nodup := by
  have hmem : s ∈ slots := (List.of_mem_zip hm).1
  have h1 := List.all_eq_true.1 hn s hmem
  simp only [Bool.and_eq_true, Bool.or_eq_true, Bool.not_eq_true', decide_eq_true_eq, hs, Bool.true_eq_false, false_or] at h1
  refine h1.1.sublist (List.Sublist.map _ ?_)
  rw [get_mk]
  have hh : hits (if s.elems then k!"elements" else s.field) s.key = true := by
    cases he : s.elems <;> simp [hits, RSlot.key, he]
  generalize (if s.elems then k!"elements" else s.field) = g at hh
  clear h1 hn hmem
  induction slots generalizing vss with
  | nil => cases hm
  | cons a slots ih =>
    cases vss with
    | nil => cases hm
    | cons u vss =>
      simp only [List.zip_cons_cons, List.mem_cons, Prod.mk.injEq] at hm
      simp only [List.map_cons, List.zip_cons_cons, shown_cons]
      rcases hm with ⟨rfl, rfl⟩ | hm
      · rw [hh]; simp
      · exact (ih hm).trans (List.sublist_append_right _ _)

private theorem mapE_from {α β ε : Type} {f : α → Except ε β} {l : List α} {r : List β} (h : mapE f l = .ok r) : ∀ b ∈ r, ∃ a ∈ l, f a = .ok b := by
  have h' := mapE_ok h
  clear h
  intro b hb
  induction h' with
  | nil => cases hb
  | cons h1 _ ih =>
    rcases List.mem_cons.1 hb with rfl | hb
    · exact ⟨_, by simp, h1⟩
    · obtain ⟨a, ha, h⟩ := ih hb
      exact ⟨a, by simp [ha], h⟩

theorem zipE_blank {rd : Key → Xml → Except RErr (MObj py.F)} {into : Key → Option (MObj py.F) → Xml → Except RErr (MObj py.F)} {over : List Key} {x : Xml}
    (hrd : ∀ k y o, rd k y = .ok o → into k none y = .ok o)
    (hname : ∀ k b y o, T k = some b → nameOk b = true → into k none y = .ok o → o.name = elemName y ∧ o.cls = b.cls)
    {slots : List RSlot} {vss : List (List (MObj py.F))} (hok : ∀ s ∈ slots, slotOk T s = true)
    (hn : ∀ s vs, (s, vs) ∈ slots.zip vss → s.named = true → (vs.map MObj.name).Nodup)
    (h : mapE (readSlot py strict rd x) slots = .ok vss) :
    zipE (intoSlot py strict T into over x) slots (slots.map fun _ => []) = .ok vss := by
  induction slots generalizing vss with
  | nil => exact h
  | cons s slots ih =>
    simp only [mapE] at h
    split at h
    · cases h
    rename_i vs hvs
    split at h
    · cases h
    rename_i vss' hvss
    cases h
    have hs : intoSlot py strict T into over x s [] = .ok vs := by
      cases hnm : s.named with
      | false =>
        unfold intoSlot
        rw [hnm]
        simp only
        rw [readSlot_mono hrd hvs]
        simp only [List.nil_append]
        split
        · rfl
        · split
          · rename_i he
            simp only [Bool.and_eq_true, List.isEmpty_iff] at he
            rw [he.1]
          · rfl
      | true =>
        obtain ⟨alts, hi, halts, hreq, hlast, _⟩ := slotOk_named (hok s (by simp)) hnm
        obtain ⟨ls, hls, hv, _⟩ := readSlot_ok hvs
        rw [hlast] at hv
        simp only [Bool.false_eq_true, if_false] at hv
        rw [hi] at hls
        unfold intoSlot
        rw [hnm, hi]
        simp only
        rw [fold_fresh (acc := []) halts hrd hname hls (by rw [hv]; exact hn s vs (by simp) hnm)]
        simp only [List.nil_append, hv]
        rw [if_neg]
        simp only [Bool.and_eq_true, Nat.blt_eq, not_and]
        intro hsg
        have h1 := select_single _ hsg x
        have h2 := flatten_length (l := ls) (by
          intro a ha
          obtain ⟨y, _, hy⟩ := (mapE_from hls) a ha
          exact readItem_length hy)
        have h3 : ls.length = (select s.path x).length := (mapE_ok hls).length_eq.symm
        rw [← hv]
        omega
    simp only [List.map_cons, zipE, hs]
    rw [ih (fun a ha => hok a (by simp [ha])) (fun a us hm => hn a us (by simp [hm])) hvss]

/-- reading into a new object is reading -/
theorem into_fresh (hT : SlotsOk T) {over : Key → List Key} {n : Nat} {k : Key} {x : Xml} {o : MObj py.F} (h : readObj py strict T n k x = .ok o) :
    intoObj py strict T over n k none x = .ok o := by
  induction n generalizing k x o with
  | zero => cases h
  | succ n ih =>
    obtain ⟨m, b, vss, hm, hb, hvss, rfl, hnm⟩ := readObj_succ h
    cases hm
    simp only [intoObj, hb, Option.getD_none, blankOf, intoBody]
    rw [if_pos ⟨trivial, by simp [List.map_map, Function.comp_def]⟩]
    have := zipE_blank (T := T) (over := over k) (fun k y o h => ih h) (fun k b y o hb hn h => intoObj_name hb hn h) (hT k b hb)
      (fun s vs hm hs => nodup_slot hnm hm hs) hvss
    simp only [List.map_map, Function.comp_def]
    rw [this]
    simp only [hnm, if_true]

/-! ## old and new values -/

/-- How the values `r` come about from `old` ones and `fresh` ones; `M v f u`: the old value `v` and the fresh value `f` make `u`. -/
structure Meets {α : Type} (M : α → α → α → Prop) (old fresh r : List α) : Prop where
  olds : ∀ v ∈ old, v ∈ r ∨ ∃ f ∈ fresh, ∃ u ∈ r, M v f u
  news : ∀ f ∈ fresh, f ∈ r ∨ ∃ v ∈ old, ∃ u ∈ r, M v f u
  all : ∀ u ∈ r, u ∈ old ∨ u ∈ fresh ∨ ∃ v ∈ old, ∃ f ∈ fresh, M v f u

theorem Meets.nil {α : Type} {M : α → α → α → Prop} : Meets M [] [] [] := ⟨by simp, by simp, by simp⟩

theorem Meets.app {α : Type} {M : α → α → α → Prop} {o f r o' f' r' : List α} (h : Meets M o f r) (h' : Meets M o' f' r') :
    Meets M (o ++ o') (f ++ f') (r ++ r') := by
  refine ⟨?_, ?_, ?_⟩
  · intro v hv
    rcases List.mem_append.1 hv with hv | hv
    · rcases h.olds v hv with h | ⟨f, hf, u, hu, hm⟩
      · exact .inl (by simp [h])
      · exact .inr ⟨f, by simp [hf], u, by simp [hu], hm⟩
    · rcases h'.olds v hv with h | ⟨f, hf, u, hu, hm⟩
      · exact .inl (by simp [h])
      · exact .inr ⟨f, by simp [hf], u, by simp [hu], hm⟩
  · intro v hv
    rcases List.mem_append.1 hv with hv | hv
    · rcases h.news v hv with h | ⟨f, hf, u, hu, hm⟩
      · exact .inl (by simp [h])
      · exact .inr ⟨f, by simp [hf], u, by simp [hu], hm⟩
    · rcases h'.news v hv with h | ⟨f, hf, u, hu, hm⟩
      · exact .inl (by simp [h])
      · exact .inr ⟨f, by simp [hf], u, by simp [hu], hm⟩
  · intro u hu
    rcases List.mem_append.1 hu with hu | hu
    · rcases h.all u hu with h | h | ⟨v, hv, f, hf, hm⟩
      · exact .inl (by simp [h])
      · exact .inr (.inl (by simp [h]))
      · exact .inr (.inr ⟨v, by simp [hv], f, by simp [hf], hm⟩)
    · rcases h'.all u hu with h | h | ⟨v, hv, f, hf, hm⟩
      · exact .inl (by simp [h])
      · exact .inr (.inl (by simp [h]))
      · exact .inr (.inr ⟨v, by simp [hv], f, by simp [hf], hm⟩)

theorem replaceE_ok {α ε : Type} {p : α → Bool} {f : α → Except ε α} {l r : List α} (hp : l.any p = true) (h : replaceE p f l = .ok r) :
    ∃ a v w b, l = a ++ v :: b ∧ r = a ++ w :: b ∧ p v = true ∧ f v = .ok w := by
  induction l generalizing r with
  | nil => cases hp
  | cons x l ih =>
    simp only [replaceE] at h
    split at h
    · rename_i hx
      split at h
      · cases h
      rename_i w hw
      cases h
      exact ⟨[], x, w, l, rfl, rfl, hx, hw⟩
    · rename_i hx
      split at h
      · cases h
      rename_i l' hl
      cases h
      obtain ⟨a, v, w, b, rfl, rfl, h1, h2⟩ := ih (by simpa [hx] using hp) hl
      exact ⟨x :: a, v, w, b, rfl, rfl, h1, h2⟩

/-- an old object and a new one of the same name and class are merged -/
def Merged (rd : Key → Xml → Except RErr (MObj py.F)) (into : Key → Option (MObj py.F) → Xml → Except RErr (MObj py.F)) (v f u : MObj py.F) : Prop :=
  v.name = f.name ∧ u.name = f.name ∧ v.cls = f.cls ∧ u.cls = f.cls ∧ ∃ k y, rd k y = .ok f ∧ into k (some v) y = .ok u

theorem fold_meets {rd : Key → Xml → Except RErr (MObj py.F)} {into : Key → Option (MObj py.F) → Xml → Except RErr (MObj py.F)} {s : RSlot}
    {alts : List (Key × Key)} (ha : AltsOk T alts) (hrd : ∀ k y o, rd k y = .ok o → into k none y = .ok o)
    (hname : ∀ k b y v o, T k = some b → nameOk b = true → into k v y = .ok o → o.name = elemName y ∧ o.cls = b.cls)
    {ys : List Xml} {ls : List (List (MObj py.F))} (h : mapE (readItem py strict rd (.objs alts)) ys = .ok ls)
    (hn : (ls.flatten.map MObj.name).Nodup) {old r : List (MObj py.F)} (hr : foldE (putNamed py T into s alts) old ys = .ok r) :
    Meets (Merged rd into) old ls.flatten r := by
  induction ys generalizing old ls with
  | nil => cases h; cases hr; exact ⟨fun v hv => .inl hv, by simp, fun u hu => .inl hu⟩
  | cons y ys ih =>
    simp only [mapE] at h
    split at h
    · cases h
    rename_i l hl
    split at h
    · cases h
    rename_i ls' hls
    cases h
    simp only [foldE] at hr
    split at hr
    · cases hr
    rename_i old1 hput
    simp only [List.flatten_cons] at hn ⊢
    have hn' : (ls'.flatten.map MObj.name).Nodup := by
      rw [List.map_append] at hn; exact (List.nodup_append.1 hn).2.1
    have IH := ih hls hn' hr
    simp only [readItem] at hl
    cases hk : altOf alts y.tag with
    | none =>
      rw [hk] at hl
      cases hl
      simp only [putNamed, hk] at hput
      cases hput
      exact IH
    | some k =>
      rw [hk] at hl
      simp only at hl
      split at hl
      · cases hl
      rename_i f hf
      cases hl
      obtain ⟨t', ht'⟩ := altOf_mem' hk
      obtain ⟨b, hb, hnb⟩ := ha _ ht'
      have hi := hrd _ _ _ hf
      obtain ⟨hnm, hc⟩ := hname k b y none f hb hnb hi
      have hfn : ∀ f' ∈ ls'.flatten, f.name ≠ f'.name := by
        intro f' hf' he
        rw [List.map_append] at hn
        exact (List.nodup_append.1 hn).2.2 f.name (by simp) f'.name (List.mem_map_of_mem hf') he
      simp only [putNamed, hk, hb] at hput
      split at hput
      · rename_i hany
        split at hput
        · cases hput
        obtain ⟨a, v0, u0, c, rfl, rfl, hp, hu0⟩ := replaceE_ok hany hput
        rw [isIt_iff] at hp
        obtain ⟨hun, huc⟩ := hname k b y (some v0) u0 hb hnb hu0
        have hM : Merged rd into v0 f u0 := ⟨by rw [hp.2, hnm], by rw [hun, hnm], by rw [hp.1, hc], by rw [huc, hc], k, y, hf, hu0⟩
        have hu0r : u0 ∈ r := by
          rcases IH.olds u0 (by simp) with h | ⟨f', hf', u, hu, hm⟩
          · exact h
          · exact absurd (by rw [← hnm, ← hun] at *; exact hm.1) (by rw [hnm, ← hun] at hfn; exact hfn f' hf')
        refine ⟨?_, ?_, ?_⟩
        · intro v hv
          by_cases hv1 : v ∈ a ++ u0 :: c
          · rcases IH.olds v hv1 with h | ⟨f', hf', u, hu, hm⟩
            · exact .inl h
            · exact .inr ⟨f', by simp [hf'], u, hu, hm⟩
          · have : v = v0 := by
              simp only [List.mem_append, List.mem_cons, not_or] at hv hv1
              rcases hv with hv | hv | hv
              · exact absurd hv hv1.1
              · exact hv
              · exact absurd hv hv1.2.2
            subst this
            exact .inr ⟨f, by simp, u0, hu0r, hM⟩
        · intro f' hf'
          simp only [List.cons_append, List.nil_append, List.mem_cons] at hf'
          rcases hf' with rfl | hf'
          · exact .inr ⟨v0, by simp, u0, hu0r, hM⟩
          · rcases IH.news f' hf' with h | ⟨v, hv, u, hu, hm⟩
            · exact .inl h
            · refine .inr ⟨v, ?_, u, hu, hm⟩
              simp only [List.mem_append, List.mem_cons] at hv ⊢
              rcases hv with hv | rfl | hv
              · exact .inl hv
              · exact absurd hm.1 (by rw [hun, ← hnm]; exact hfn f' hf')
              · exact .inr (.inr hv)
        · intro u hu
          rcases IH.all u hu with h | h | ⟨v, hv, f', hf', hm⟩
          · simp only [List.mem_append, List.mem_cons] at h ⊢
            rcases h with h | rfl | h
            · exact .inl (.inl h)
            · exact .inr (.inr ⟨v0, by simp, f, by simp, hM⟩)
            · exact .inl (.inr (.inr h))
          · exact .inr (.inl (by simp [h]))
          · refine .inr (.inr ⟨v, ?_, f', by simp [hf'], hm⟩)
            simp only [List.mem_append, List.mem_cons] at hv ⊢
            rcases hv with hv | rfl | hv
            · exact .inl hv
            · exact absurd hm.1 (by rw [hun, ← hnm]; exact hfn f' hf')
            · exact .inr (.inr hv)
      · split at hput
        · cases hput
        rename_i o ho
        rw [hi] at ho
        cases ho
        cases hput
        have hfr : f ∈ r := by
          rcases IH.olds f (by simp) with h | ⟨f', hf', u, hu, hm⟩
          · exact h
          · exact absurd hm.1 (hfn f' hf')
        refine ⟨?_, ?_, ?_⟩
        · intro v hv
          rcases IH.olds v (by simp [hv]) with h | ⟨f', hf', u, hu, hm⟩
          · exact .inl h
          · exact .inr ⟨f', by simp [hf'], u, hu, hm⟩
        · intro f' hf'
          simp only [List.cons_append, List.nil_append, List.mem_cons] at hf'
          rcases hf' with rfl | hf'
          · exact .inl hfr
          · rcases IH.news f' hf' with h | ⟨v, hv, u, hu, hm⟩
            · exact .inl h
            · simp only [List.mem_append, List.mem_singleton] at hv
              rcases hv with hv | rfl
              · exact .inr ⟨v, hv, u, hu, hm⟩
              · exact absurd hm.1 (hfn f' hf')
        · intro u hu
          rcases IH.all u hu with h | h | ⟨v, hv, f', hf', hm⟩
          · simp only [List.mem_append, List.mem_singleton] at h
            rcases h with h | rfl
            · exact .inl h
            · exact .inr (.inl (by simp))
          · exact .inr (.inl (by simp [h]))
          · simp only [List.mem_append, List.mem_singleton] at hv
            rcases hv with hv | rfl
            · exact .inr (.inr ⟨v, hv, f', by simp [hf'], hm⟩)
            · exact absurd hm.1 (hfn f' hf')

theorem zip_meets {rd : Key → Xml → Except RErr (MObj py.F)} {into : Key → Option (MObj py.F) → Xml → Except RErr (MObj py.F)} {over : List Key} {x : Xml}
    (hrd : ∀ k y o, rd k y = .ok o → into k none y = .ok o)
    (hname : ∀ k b y v o, T k = some b → nameOk b = true → into k v y = .ok o → o.name = elemName y ∧ o.cls = b.cls)
    {slots : List RSlot} {vss olds rs : List (List (MObj py.F))} (hok : ∀ s ∈ slots, slotOk T s = true)
    (hn : ∀ s vs, (s, vs) ∈ slots.zip vss → s.named = true → (vs.map MObj.name).Nodup)
    (h : mapE (readSlot py strict rd x) slots = .ok vss) (hl : olds.length = slots.length)
    (hz : zipE (intoSlot py strict T into over x) slots olds = .ok rs) {g : Key} (hg : g = k!"arPackages" ∨ g = k!"elements") :
    Meets (Merged rd into) (shown g ((slots.map RSlot.key).zip olds)) (shown g ((slots.map RSlot.key).zip vss)) (shown g ((slots.map RSlot.key).zip rs)) := by
  induction slots generalizing vss olds rs with
  | nil => exact Meets.nil
  | cons s slots ih =>
    simp only [mapE] at h
    split at h
    · cases h
    rename_i vs hvs
    split at h
    · cases h
    rename_i vss' hvss
    cases h
    obtain ⟨old, olds', r, rs', rfl, rfl, hc, hr, hb⟩ := zipE_cons hl hz
    simp only [List.map_cons, List.zip_cons_cons, shown_cons]
    refine Meets.app ?_ (ih (fun a ha => hok a (by simp [ha])) (fun a us hm => hn a us (by simp [hm])) hvss hb hr)
    cases hnm : s.named with
    | false =>
      rw [slotOk_other (hok s (by simp)) hnm hg]
      exact Meets.nil
    | true =>
      split
      swap
      · exact Meets.nil
      obtain ⟨alts, hi, halts, hreq, hlast, _⟩ := slotOk_named (hok s (by simp)) hnm
      obtain ⟨ls, hls, hv, _⟩ := readSlot_ok hvs
      rw [hlast] at hv
      simp only [Bool.false_eq_true, if_false] at hv
      rw [hi] at hls
      unfold intoSlot at hc
      rw [hnm, hi] at hc
      simp only at hc
      split at hc
      · cases hc
      rename_i us hus
      split at hc
      · cases hc
      cases hc
      rw [← hv]
      exact fold_meets halts hrd hname hls (by rw [hv]; exact hn s vs (by simp) hnm) hus

/-- the members of an object after reading an element into it -/
theorem into_meets (hT : SlotsOk T) {over : Key → List Key} {n : Nat} {k : Key} {o f r : MObj py.F} {x : Xml}
    (hr : intoObj py strict T over (n + 1) k (some o) x = .ok r) (hf : readObj py strict T (n + 1) k x = .ok f) (g : Role) :
    o.cls = f.cls ∧ r.cls = f.cls ∧ Meets (Merged (readObj py strict T n) (intoObj py strict T over n)) (held o g) (held f g) (held r g) := by
  obtain ⟨m, b, vss, hm, hb, hvss, rfl, hnm⟩ := readObj_succ hf
  cases hm
  obtain ⟨m, b', hm, hb', hr⟩ := intoObj_succ hr
  cases hm
  rw [hb] at hb'; cases hb'
  obtain ⟨olds, rs, ho, hlen, hz, rfl, _⟩ := intoBody_ok hr
  simp only [Option.getD_some] at ho
  subst ho
  refine ⟨rfl, rfl, ?_⟩
  have := fun g hg => zip_meets (T := T) (g := g) (over := over k) (fun k y o h => into_fresh hT h) (fun k b y v o hb hn h => intoObj_name hb hn h) (hT k b hb)
      (fun s vs hm hs => nodup_slot hnm hm hs) hvss hlen hz hg
  cases g with
  | package => exact this _ (.inl rfl)
  | element => exact this _ (.inr rfl)

theorem _root_.Verif.Spec.Reaches.via {F : Type} {o v w : MObj F} {g : Role} {p : List (Role × Str)} {n : Str} (hv : v ∈ held o g) (hn : v.name = n) (h : Reaches v p w) :
    Reaches o ((g, n) :: p) w := hn ▸ Reaches.step o v w g p hv h

/-- what an object holds after reading an element into it -/
theorem into_reaches (hT : SlotsOk T) {over : Key → List Key} {n : Nat} {k : Key} {o f r : MObj py.F} {x : Xml}
    (hr : intoObj py strict T over n k (some o) x = .ok r) (hf : readObj py strict T n k x = .ok f) (p : List (Role × Str)) (w : MObj py.F) :
    (Reaches o p w → Reaches r p w ∨ ∃ w' u, Reaches f p w' ∧ Reaches r p u ∧ w'.cls = w.cls ∧ u.cls = w.cls) ∧
    (Reaches f p w → Reaches r p w ∨ ∃ w' u, Reaches o p w' ∧ Reaches r p u ∧ w'.cls = w.cls ∧ u.cls = w.cls) ∧
    (Reaches r p w → Reaches o p w ∨ Reaches f p w ∨ ∃ w' u, Reaches o p w' ∧ Reaches f p u ∧ w'.cls = w.cls ∧ u.cls = w.cls) := by
  induction n generalizing k o f r x p w with
  | zero => cases hr
  | succ n ih =>
    cases p with
    | nil =>
      have hm := into_meets hT hr hf .package
      refine ⟨?_, ?_, ?_⟩
      · intro h
        cases h
        exact .inr ⟨f, r, .here _, .here _, hm.1.symm, by rw [hm.2.1, hm.1]⟩
      · intro h
        cases h
        exact .inr ⟨o, r, .here _, .here _, hm.1, hm.2.1⟩
      · intro h
        cases h
        exact .inr (.inr ⟨o, f, .here _, .here _, by rw [hm.2.1, hm.1], hm.2.1.symm⟩)
    | cons st p =>
      obtain ⟨g, nm⟩ := st
      have hm := (into_meets hT hr hf g).2.2
      refine ⟨?_, ?_, ?_⟩
      · intro h
        cases h with
        | step _ v _ _ _ hv h =>
          rcases hm.olds v hv with hv' | ⟨f', hf', u, hu, h1, h2, _, _, k', y, hrd, hin⟩
          · exact .inl (.step _ _ _ _ _ hv' h)
          · rcases (ih hin hrd p w).1 h with h' | ⟨w', u', hw', hu', hc⟩
            · exact .inl (.via hu (by rw [h2, h1]) h')
            · exact .inr ⟨w', u', .via hf' h1.symm hw', .via hu (by rw [h2, h1]) hu', hc⟩
      · intro h
        cases h with
        | step _ v _ _ _ hv h =>
          rcases hm.news v hv with hv' | ⟨f', hf', u, hu, h1, h2, _, _, k', y, hrd, hin⟩
          · exact .inl (.step _ _ _ _ _ hv' h)
          · rcases (ih hin hrd p w).2.1 h with h' | ⟨w', u', hw', hu', hc⟩
            · exact .inl (.via hu h2 h')
            · exact .inr ⟨w', u', .via hf' h1 hw', .via hu h2 hu', hc⟩
      · intro h
        cases h with
        | step _ v _ _ _ hv h =>
          rcases hm.all v hv with hv' | hv' | ⟨v', hv', f', hf', h1, h2, _, _, k', y, hrd, hin⟩
          · exact .inl (.step _ _ _ _ _ hv' h)
          · exact .inr (.inl (.step _ _ _ _ _ hv' h))
          · rcases (ih hin hrd p w).2.2 h with h' | h' | ⟨w', u', hw', hu', hc⟩
            · exact .inl (.via hv' (by rw [h2, h1]) h')
            · exact .inr (.inl (.via hf' h2.symm h'))
            · exact .inr (.inr ⟨w', u', .via hv' (by rw [h2, h1]) hw', .via hf' h2.symm hu', hc⟩)

/-! ## names are unique in a loaded document -/

/-- the packages and the elements of a container have different names -/
def Uniq {F : Type} (o : MObj F) : Prop := ∀ p w, Reaches o p w → ∀ g, ((held w g).map MObj.name).Nodup

theorem Uniq.kid {F : Type} {o v : MObj F} {g : Role} (h : Uniq o) (hv : v ∈ held o g) : Uniq v :=
  fun p w hw => h _ w (.step o v w g p hv hw)

theorem uniq_of {F : Type} {o : MObj F} (h : ∀ g, ((held o g).map MObj.name).Nodup) (hk : ∀ g, ∀ v ∈ held o g, Uniq v) : Uniq o := by
  intro p w hw
  cases hw with
  | here => exact h
  | step _ v _ g p hv hw => exact hk g v hv p w hw

theorem shown_mem {F : Type} {g : Key} {keys : List (Key × Bool)} {vss : List (List (MObj F))} {v : MObj F} (h : v ∈ shown g (keys.zip vss)) :
    ∃ k vs, (k, vs) ∈ keys.zip vss ∧ hits g k = true ∧ v ∈ vs := by
  obtain ⟨⟨k, vs⟩, he, hv⟩ := List.mem_flatMap.1 h
  simp only at hv
  split at hv
  · rename_i hh
    exact ⟨k, vs, he, hh, hv⟩
  · cases hv

theorem nodup_held {b : RBody} {r : MObj py.F} {vss : List (List (MObj py.F))} (hok : ∀ s ∈ b.slots, slotOk T s = true)
    (hr : r = .mk b.cls ((b.slots.map RSlot.key).zip vss)) (hn : namesOk b.slots r = true) (g : Role) : ((held r g).map MObj.name).Nodup := by
  by_cases he : held r g = []
  · rw [he]; exact List.nodup_nil
  obtain ⟨v, hv⟩ := List.exists_mem_of_ne_nil _ he
  have key : ∀ gk : Key, (gk = k!"arPackages" ∨ gk = k!"elements") → v ∈ r.get gk → ((r.get gk).map MObj.name).Nodup := by
    intro gk hg hv
    subst hr
    rw [get_mk] at hv
    obtain ⟨k, vs, hk, hh, hvs⟩ := shown_mem hv
    obtain ⟨s, hs, rfl⟩ := List.mem_map.1 (List.of_mem_zip hk).1
    cases hnm : s.named with
    | false => rw [slotOk_other (hok s hs) hnm hg] at hh; cases hh
    | true =>
      obtain ⟨alts, hi, halts, hreq, hlast, hel⟩ := slotOk_named (hok s hs) hnm
      have h1 := List.all_eq_true.1 hn s hs
      simp only [Bool.and_eq_true, Bool.or_eq_true, Bool.not_eq_true', decide_eq_true_eq, hnm, Bool.true_eq_false, false_or] at h1
      have hgk : gk = if s.elems then k!"elements" else s.field := by
        simp only [hits, RSlot.key, Bool.or_eq_true, beq_iff_eq, Bool.and_eq_true] at hh
        rcases hh with hh | ⟨hh, hg'⟩
        · rcases hg with rfl | rfl
          · rw [hel hh]; exact hh.symm
          · split
            · rfl
            · exact hh.symm
        · rw [hg', if_pos hh]
      rw [hgk]
      exact h1.1
  cases g with
  | package => exact key _ (.inl rfl) hv
  | element => exact key _ (.inr rfl) hv

theorem fold_mem {into : Key → Option (MObj py.F) → Xml → Except RErr (MObj py.F)} {s : RSlot} {alts : List (Key × Key)}
    {ys : List Xml} {old r : List (MObj py.F)} (hr : foldE (putNamed py T into s alts) old ys = .ok r) {P : MObj py.F → Prop} (hold : ∀ v ∈ old, P v)
    (hnew : ∀ k y u, into k none y = .ok u → P u) (hint : ∀ k y v u, P v → into k (some v) y = .ok u → P u) : ∀ v ∈ r, P v := by
  induction ys generalizing old with
  | nil => cases hr; exact hold
  | cons y ys ih =>
    simp only [foldE] at hr
    split at hr
    · cases hr
    rename_i old1 hput
    refine ih hr ?_
    unfold putNamed at hput
    split at hput
    · cases hput; exact hold
    rename_i k hk
    split at hput
    · cases hput
    split at hput
    · rename_i hany
      split at hput
      · cases hput
      obtain ⟨a, v0, u0, c, rfl, rfl, hp, hu0⟩ := replaceE_ok hany hput
      intro v hv
      simp only [List.mem_append, List.mem_cons] at hv
      rcases hv with hv | rfl | hv
      · exact hold v (by simp [hv])
      · exact hint k y v0 v (hold v0 (by simp)) hu0
      · exact hold v (by simp [hv])
    · split at hput
      · cases hput
      rename_i o ho
      cases hput
      intro v hv
      simp only [List.mem_append, List.mem_singleton] at hv
      rcases hv with hv | rfl
      · exact hold v hv
      · exact hnew k y v ho

theorem zip_mem {into : Key → Option (MObj py.F) → Xml → Except RErr (MObj py.F)} {over : List Key} {x : Xml} {slots : List RSlot}
    {olds rs : List (List (MObj py.F))} (hok : ∀ s ∈ slots, slotOk T s = true) (hl : olds.length = slots.length)
    (hz : zipE (intoSlot py strict T into over x) slots olds = .ok rs) {g : Key} (hg : g = k!"arPackages" ∨ g = k!"elements") {P : MObj py.F → Prop}
    (hold : ∀ v ∈ shown g ((slots.map RSlot.key).zip olds), P v)
    (hnew : ∀ k y u, into k none y = .ok u → P u) (hint : ∀ k y v u, P v → into k (some v) y = .ok u → P u) :
    ∀ v ∈ shown g ((slots.map RSlot.key).zip rs), P v := by
  induction slots generalizing olds rs with
  | nil => intro v hv; cases hv
  | cons s slots ih =>
    obtain ⟨old, olds', r, rs', rfl, rfl, hc, hr, hb⟩ := zipE_cons hl hz
    simp only [List.map_cons, List.zip_cons_cons, shown_cons] at hold ⊢
    intro v hv
    rcases List.mem_append.1 hv with hv | hv
    · cases hnm : s.named with
      | false =>
        rw [slotOk_other (hok s (by simp)) hnm hg] at hv
        cases hv
      | true =>
        split at hv
        swap
        · cases hv
        rename_i hh
        obtain ⟨alts, hi, _⟩ := slotOk_named (hok s (by simp)) hnm
        unfold intoSlot at hc
        rw [hnm, hi] at hc
        simp only at hc
        split at hc
        · cases hc
        rename_i us hus
        split at hc
        · cases hc
        cases hc
        exact fold_mem hus (fun v hv => hold v (by simp [hh, hv])) hnew hint v hv
    · exact ih (fun a ha => hok a (by simp [ha])) hb hr (fun v hv => hold v (by simp [hv])) v hv

theorem uniq_blank (b : RBody) : Uniq (blankOf py b) := by
  have h : ∀ g, held (blankOf py b) g = [] := by
    have : ∀ gk, (blankOf py b).get gk = [] := by
      intro gk
      simp [blankOf, MObj.get, MObj.fields, List.flatMap_map]
    intro g
    cases g <;> exact this _
  refine uniq_of (fun g => by rw [h]; exact List.nodup_nil) (fun g v hv => by rw [h] at hv; cases hv)

theorem into_uniq (hT : SlotsOk T) {over : Key → List Key} {n : Nat} {k : Key} {o : Option (MObj py.F)} {r : MObj py.F} {x : Xml}
    (hr : intoObj py strict T over n k o x = .ok r) (ho : ∀ v, o = some v → Uniq v) : Uniq r := by
  induction n generalizing k o r x with
  | zero => cases hr
  | succ n ih =>
    obtain ⟨m, b, hm, hb, hr⟩ := intoObj_succ hr
    cases hm
    have ho : Uniq (o.getD (blankOf py b)) := by
      cases o with
      | none => exact uniq_blank b
      | some v => exact ho v rfl
    obtain ⟨olds, rs, hod, hlen, hz, hrd, hn⟩ := intoBody_ok hr
    refine uniq_of (nodup_held (hT k b hb) hrd hn) ?_
    subst hrd
    rw [hod] at ho
    have := fun g hg hold => zip_mem (g := g) (P := Uniq) (hT k b hb) hlen hz hg hold
      (fun k y u h => ih h (fun v hv => by cases hv)) (fun k y v u hv h => ih h (fun w hw => by cases hw; exact hv))
    intro g
    cases g with
    | package => exact this k!"arPackages" (.inl rfl) (fun v hv => ho.kid (g := .package) hv)
    | element => exact this k!"elements" (.inr rfl) (fun v hv => ho.kid (g := .element) hv)

/-! ## finding by path -/

theorem find?_name {F : Type} {l : List (MObj F)} {v : MObj F} (hn : (l.map MObj.name).Nodup) (hv : v ∈ l) :
    l.find? (fun u => u.name == v.name) = some v := by
  induction l with
  | nil => cases hv
  | cons u l ih =>
    simp only [List.map_cons, List.nodup_cons] at hn
    rw [List.find?_cons]
    rcases List.mem_cons.1 hv with rfl | hv
    · simp
    · have : (u.name == v.name) = false := by
        rw [beq_eq_false_iff_ne]
        intro he
        exact hn.1 (he ▸ List.mem_map_of_mem hv)
      rw [this]
      exact ih hn.2 hv

theorem findIn_reaches {F : Type} {o w : MObj F} {ns : List Str} (h : findIn ns o = some w) : ∃ p, p.map Prod.snd = ns ∧ Reaches o p w := by
  induction ns generalizing o with
  | nil => cases h; exact ⟨[], rfl, .here _⟩
  | cons n ns ih =>
    simp only [findIn] at h
    split at h
    · cases h
    rename_i v hv
    obtain ⟨p, hp, hw⟩ := ih h
    unfold memberOf at hv
    split at hv
    · rename_i u hu
      cases hv
      have := List.find?_some hu
      exact ⟨(.package, n) :: p, by simp [hp], .via (List.mem_of_find?_eq_some hu) (by simpa using this) hw⟩
    · have := List.find?_some hv
      exact ⟨(.element, n) :: p, by simp [hp], .via (List.mem_of_find?_eq_some hv) (by simpa using this) hw⟩

theorem Apart.kid {F : Type} {o v : MObj F} {g : Role} (h : Apart o) (hv : v ∈ held o g) : Apart v := by
  intro p n a b hab
  exact h ((g, v.name) :: p) n a b ⟨.step _ _ _ _ _ hv hab.1, .step _ _ _ _ _ hv hab.2⟩

theorem reaches_findIn {F : Type} {o w : MObj F} {p : List (Role × Str)} (hu : Uniq o) (ha : Apart o) (h : Reaches o p w) :
    findIn (p.map Prod.snd) o = some w := by
  induction h with
  | here => rfl
  | step o v w g p hv _ ih =>
    simp only [List.map_cons, findIn]
    have hm : memberOf o v.name = some v := by
      unfold memberOf
      have hn := hu [] o (.here _) g
      cases g with
      | package => rw [find?_name (l := o.get k!"arPackages") hn hv]
      | element =>
        cases hf : (o.get k!"arPackages").find? (fun u => u.name == v.name) with
        | none => exact find?_name (l := o.get k!"elements") hn hv
        | some u =>
          exfalso
          have := List.find?_some hf
          exact ha [] v.name u v ⟨.via (List.mem_of_find?_eq_some hf) (by simpa using this) (.here _), .via hv rfl (.here _)⟩
    rw [hm]
    exact ih (hu.kid hv) (Apart.kid ha hv)

end

/-! ## documents -/

section
variable {py : Py} {strict : Bool}

theorem load_newDoc {x : Xml} {dx : MObj py.F} (h : load py strict x = .ok dx) : loadInto py strict (newDoc py) x = .ok dx := by
  unfold load at h
  split at h
  · cases h
  · rename_i hx
    unfold loadInto
    rw [if_neg hx]
    have := into_fresh slotsOk (over := overs) h
    obtain ⟨m, b, hm, hb, hr⟩ := intoObj_succ this
    rw [readers_load] at hb
    cases hb
    rw [hm] at this ⊢
    simp only [intoObj, readers_load, Option.getD_none, Option.getD_some] at this ⊢
    exact this

theorem loadInto_eq {d d' : MObj py.F} {x : Xml} (h : loadInto py strict d x = .ok d') :
    intoObj py strict readers overs x.depth k!"load" (some d) x = .ok d' := by
  unfold loadInto at h
  split at h
  · cases h
  · exact h

theorem load_reaches {d d' dx : MObj py.F} {x : Xml} (h : loadInto py strict d x = .ok d') (hx : load py strict x = .ok dx)
    (p : List (Role × Str)) (w : MObj py.F) :
    (Reaches d p w → Reaches d' p w ∨ ∃ w' u, Reaches dx p w' ∧ Reaches d' p u ∧ w'.cls = w.cls ∧ u.cls = w.cls) ∧
    (Reaches dx p w → Reaches d' p w ∨ ∃ w' u, Reaches d p w' ∧ Reaches d' p u ∧ w'.cls = w.cls ∧ u.cls = w.cls) ∧
    (Reaches d' p w → Reaches d p w ∨ Reaches dx p w ∨ ∃ w' u, Reaches d p w' ∧ Reaches dx p u ∧ w'.cls = w.cls ∧ u.cls = w.cls) :=
  into_reaches slotsOk (loadInto_eq h) (load_eq hx) p w

theorem load_holds {d d' dx : MObj py.F} {x : Xml} (h : loadInto py strict d x = .ok d') (hx : load py strict x = .ok dx)
    (p : List (Role × Str)) (c : Key) : Holds d' p c ↔ Holds d p c ∨ Holds dx p c := by
  constructor
  · rintro ⟨w, hw, rfl⟩
    rcases (load_reaches h hx p w).2.2 hw with h1 | h1 | ⟨w', u, h1, _, h2, _⟩
    · exact .inl ⟨w, h1, rfl⟩
    · exact .inr ⟨w, h1, rfl⟩
    · exact .inl ⟨w', h1, h2⟩
  · rintro (⟨w, hw, rfl⟩ | ⟨w, hw, rfl⟩)
    · rcases (load_reaches h hx p w).1 hw with h1 | ⟨w', u, _, h1, _, h2⟩
      · exact ⟨w, h1, rfl⟩
      · exact ⟨u, h1, h2⟩
    · rcases (load_reaches h hx p w).2.1 hw with h1 | ⟨w', u, _, h1, _, h2⟩
      · exact ⟨w, h1, rfl⟩
      · exact ⟨u, h1, h2⟩

theorem loadAll_uniq {xs : List Xml} {d d' : MObj py.F} (h : loadAll py strict d xs = .ok d') (hu : Uniq d) : Uniq d' := by
  induction xs generalizing d with
  | nil => cases h; exact hu
  | cons x xs ih =>
    simp only [loadAll, foldE] at h
    split at h
    · cases h
    rename_i d1 h1
    exact ih h (into_uniq slotsOk (loadInto_eq h1) (fun v hv => by cases hv; exact hu))

theorem newDoc_reaches {p : List (Role × Str)} {w : MObj py.F} (h : Reaches (newDoc py) p w) : p = [] := by
  cases h with
  | here => rfl
  | step _ v _ g p hv h =>
    have : held (newDoc py) g = [] := by
      have : ∀ gk, (newDoc py).get gk = [] := fun gk => by simp [newDoc, blankOf, MObj.get, MObj.fields, List.flatMap_map]
      cases g <;> exact this _
    rw [this] at hv
    cases hv

end

end Verif.Lemmas
