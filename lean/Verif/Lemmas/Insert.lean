import Verif.Spec.Insert
import Verif.Lemmas.Exchange
/-!
# Adding an element to a file: lemmas
-/
namespace Verif.Lemmas
open Verif Verif.Model Verif.Spec

/-- a step of a path in an element with the tag `c` (`0`: not known): the tag of which a new element would be met -/
def stepTags (c u : Key) : List Key := if u = 0 ∧ c ∈ singles then [] else [u]

/-- the tags met along `find("t1/t2/...")` -/
def walkTags : Key → List Key → List Key
  | _, [] => []
  | c, u :: ts => stepTags c u ++ walkTags u ts

/-- the tags met along a path -/
def tagsIn : Key → Path → List Key
  | _, .nil => []
  | c, .all u r => stepTags c u ++ tagsIn u r
  | c, .first ts r => walkTags c ts ++ tagsIn (ts.getLast?.getD c) r
  | c, .pick ts r => ts.flatMap (stepTags c) ++ tagsIn 0 r
  | c, .need p r | c, .lack p r | c, .alt p r => tagsIn c p ++ tagsIn c r

/-- the tags met along a path, but at the end of a list -/
def crossed : Key → Path → List Key
  | _, .nil => []
  | c, .all u r => if r = .nil then [] else stepTags c u ++ crossed u r
  | c, .first ts r => walkTags c ts ++ crossed (ts.getLast?.getD c) r
  | c, .pick ts r => ts.flatMap (stepTags c) ++ crossed 0 r
  | c, .need p r | c, .lack p r | c, .alt p r => tagsIn c p ++ crossed c r

/-- the tags of the members of a list -/
def listTags : Key → Path → List Key
  | _, .nil => []
  | c, .all u r => if r = .nil then stepTags c u else listTags u r
  | c, .first ts r => listTags (ts.getLast?.getD c) r
  | _, .pick _ r => listTags 0 r
  | c, .need _ r | c, .lack _ r | c, .alt _ r => listTags c r

/-- all objects are kept -/
def keepsAll (s : RSlot) : Bool := !s.last && match s.item with
  | .objs _ | .guard _ _ => true
  | _ => false

/-- the tags of which a new element would do something else than add an object -/
def disturbs (c : Key) (s : RSlot) : List Key := crossed c s.path ++ if keepsAll s then [] else listTags c s.path

/-- the tag of the elements a method is called with, where it matters -/
def tagFor (k : Key) : Key := if k = k!"getCompuConst_CompuConst" then k!"COMPU-CONST" else 0

/-- a new element with this tag adds objects and does nothing else -/
def Joins (t : Key) : Prop := ∀ k b, readers k = some b → ∀ s ∈ b.slots, t ∉ disturbs (tagFor k) s ∧ 0 ∉ disturbs (tagFor k) s ∧
  ∀ alts, s.item = .objs alts → ∀ a ∈ alts, tagFor a.2 ∈ singles → a.1 ∈ singles

section
variable {α β γ δ : Type} {R : α → β → Prop} {A : β → Prop}

theorem grown_mono {R' : α → β → Prop} {A' : β → Prop} {l : List α} {m : List β} (h : Grown R A l m) (hR : ∀ a ∈ l, ∀ b, R a b → R' a b)
    (hA : ∀ b ∈ m, A b → A' b) : Grown R' A' l m := by
  induction h with
  | nil => exact .nil
  | keep h1 _ ih => exact .keep (hR _ (by simp) _ h1) (ih (fun a ha => hR a (by simp [ha])) fun b hb => hA b (by simp [hb]))
  | add h1 _ ih => exact .add (hA _ (by simp) h1) (ih hR fun b hb => hA b (by simp [hb]))

theorem grown_none {l : List α} {m : List β} (h : Grown R A l m) (hA : ∀ b ∈ m, ¬ A b) : List.Forall₂ R l m := by
  induction h with
  | nil => exact .nil
  | keep h1 _ ih => exact .cons h1 (ih fun b hb => hA b (by simp [hb]))
  | add h1 _ _ => exact absurd h1 (hA _ (by simp))

theorem grown_of {l : List α} {m : List β} (h : List.Forall₂ R l m) : Grown R A l m := by
  induction h with
  | nil => exact .nil
  | cons h1 _ ih => exact .keep h1 ih

theorem grown_append {l l' : List α} {m m' : List β} (h : Grown R A l m) (h' : Grown R A l' m') : Grown R A (l ++ l') (m ++ m') := by
  induction h with
  | nil => exact h'
  | keep h1 _ ih => exact .keep h1 ih
  | add h1 _ ih => exact .add h1 ih

theorem grown_all {m : List β} (h : ∀ b ∈ m, A b) : Grown R A [] m := by
  induction m with
  | nil => exact .nil
  | cons b m ih => exact .add (h b (by simp)) (ih fun c hc => h c (by simp [hc]))

theorem grown_filter {p : α → Bool} {q : β → Bool} {l : List α} {m : List β} (h : Grown R A l m) (hR : ∀ a b, R a b → p a = q b) :
    Grown R A (l.filter p) (m.filter q) := by
  induction h with
  | nil => exact .nil
  | @keep a b l m h1 _ ih =>
    have := hR a b h1
    cases hq : q b with
    | true => rw [List.filter_cons_of_pos (this.trans hq), List.filter_cons_of_pos hq]; exact .keep h1 ih
    | false => rw [List.filter_cons_of_neg (by simp [this, hq]), List.filter_cons_of_neg (by simp [hq])]; exact ih
  | @add b l m h1 _ ih =>
    cases hq : q b with
    | true => rw [List.filter_cons_of_pos hq]; exact .add h1 ih
    | false => rw [List.filter_cons_of_neg (by simp [hq])]; exact ih

theorem grown_flat {S : γ → δ → Prop} {B : δ → Prop} {f : α → List γ} {g : β → List δ} {l : List α} {m : List β}
    (h : List.Forall₂ R l m) (hS : ∀ a b, R a b → Grown S B (f a) (g b)) : Grown S B (l.flatMap f) (m.flatMap g) := by
  induction h with
  | nil => exact .nil
  | cons h1 _ ih => simp only [List.flatMap_cons]; exact grown_append (hS _ _ h1) ih

theorem grown_flatten {S : γ → δ → Prop} {B : δ → Prop} {l : List (List γ)} {m : List (List δ)}
    (h : Grown (List.Forall₂ S) (fun ys => ∀ y ∈ ys, B y) l m) : Grown S B l.flatten m.flatten := by
  induction h with
  | nil => exact .nil
  | keep h1 _ ih => simp only [List.flatten_cons]; exact grown_append (grown_of h1) ih
  | add h1 _ ih => simp only [List.flatten_cons]; exact grown_append (l := []) (grown_all h1) ih

theorem mapE_grown {ε : Type} {S : γ → δ → Prop} {B : δ → Prop} {f : α → Except ε γ} {g : β → Except ε δ}
    (hR : ∀ a b x y, R a b → f a = .ok x → g b = .ok y → S x y) (hA : ∀ b y, A b → g b = .ok y → B y) {l : List α} {m : List β} (h : Grown R A l m)
    {xs : List γ} {ys : List δ} (h1 : mapE f l = .ok xs) (h2 : mapE g m = .ok ys) : Grown S B xs ys := by
  induction h generalizing xs ys with
  | nil => cases h1; cases h2; exact .nil
  | @keep a b l m hab _ ih =>
    unfold mapE at h1 h2
    cases hx : f a with
    | error e => rw [hx] at h1; cases h1
    | ok x =>
      cases hy : g b with
      | error e => rw [hy] at h2; cases h2
      | ok y =>
        rw [hx] at h1; rw [hy] at h2
        simp only at h1 h2
        split at h1
        · cases h1
        · rename_i xs' hxs
          split at h2
          · cases h2
          · rename_i ys' hys
            cases h1; cases h2
            exact .keep (hR a b x y hab hx hy) (ih hxs hys)
  | @add b l m hb _ ih =>
    unfold mapE at h2
    cases hy : g b with
    | error e => rw [hy] at h2; cases h2
    | ok y =>
      rw [hy] at h2
      simp only at h2
      split at h2
      · cases h2
      · rename_i ys' hys
        cases h2
        exact .add (hA b y hb hy) (ih h1 hys)

end

/-- two elements that are the same but for what was added inside -/
structure Kin (e x x' : Xml) : Prop where
  tag : x.tag = x'.tag
  attrs : x.attrs = x'.attrs
  text : x.text = x'.text
  kids : Grown (Inserted e) (fun y => y = e ∧ x.tag ∉ singles) x.kids x'.kids

section
variable {e : Xml}

theorem ins_kin {x x' : Xml} (h : Inserted e x x') : Kin e x x' := by
  cases h with
  | inside t as s ks ks' hk => exact ⟨rfl, rfl, rfl, grown_of hk⟩
  | here t as s ks ks' ht hk => exact ⟨rfl, rfl, rfl, grown_mono hk (fun _ _ _ h => h) fun _ _ h => ⟨h, ht⟩⟩

theorem ins_tagIs (u : Key) {x x' : Xml} (h : Inserted e x x') : tagIs u x = tagIs u x' := by
  unfold tagIs; rw [(ins_kin h).tag]

/-- what is known of the tag of the element -/
def Knows (c : Key) (x : Xml) : Prop := c ∈ singles → x.tag ∈ singles

theorem knows_zero (x : Xml) : Knows 0 x := fun h => absurd h (by decide)

theorem step_grown {c u : Key} {x x' : Xml} (h : Kin e x x') (hc : Knows c x) :
    Grown (Kin e) (fun y => y = e ∧ (e.tag ∈ stepTags c u ∨ 0 ∈ stepTags c u)) (x.kids.filter (tagIs u)) (x'.kids.filter (tagIs u)) := by
  refine grown_mono (grown_filter h.kids fun a b hab => ins_tagIs u hab) (fun a _ b hab => ins_kin hab) fun b hb hA => ⟨hA.1, ?_⟩
  obtain ⟨rfl, hs⟩ := hA
  have ht := (List.mem_filter.1 hb).2
  simp only [tagIs, Bool.or_eq_true, beq_iff_eq] at ht
  unfold stepTags
  have hno : ¬ (u = 0 ∧ c ∈ singles) := by
    rintro ⟨_, hcs⟩
    exact hs (hc hcs)
  rw [if_neg hno]
  exact ht.symm.imp (fun h => by simp [h]) fun h => by simp [h]

theorem filter_knows {u : Key} {x y : Xml} (h : y ∈ x.kids.filter (tagIs u)) : Knows u y := by
  have ht := (List.mem_filter.1 h).2
  simp only [tagIs, Bool.or_eq_true, beq_iff_eq] at ht
  intro hu
  rcases ht with rfl | rfl
  · exact absurd hu (by decide)
  · exact hu

/-- a pair of elements with a known tag -/
def KinAt (e : Xml) (c : Key) (x x' : Xml) : Prop := Kin e x x' ∧ Knows c x

theorem step_kin {c u : Key} {x x' : Xml} (h : Kin e x x') (hc : Knows c x) (h0 : 0 ∉ stepTags c u) (ht : e.tag ∉ stepTags c u) :
    List.Forall₂ (KinAt e u) (x.kids.filter (tagIs u)) (x'.kids.filter (tagIs u)) := by
  refine forall₂_there (grown_none (step_grown h hc) ?_) fun a ha b hab => ⟨hab, filter_knows ha⟩
  rintro b _ ⟨_, h | h⟩
  · exact ht h
  · exact h0 h

theorem walk_kin {c : Key} {ts : List Key} {x x' : Xml} (h : KinAt e c x x') (h0 : 0 ∉ walkTags c ts) (ht : e.tag ∉ walkTags c ts) :
    List.Forall₂ (KinAt e (ts.getLast?.getD c)) (walk ts x) (walk ts x') := by
  induction ts generalizing c x x' with
  | nil => exact .cons h .nil
  | cons u ts ih =>
    simp only [walkTags, List.mem_append, not_or] at h0 ht
    have hg : (u :: ts).getLast?.getD c = ts.getLast?.getD u := by
      cases ts with
      | nil => rfl
      | cons v ts => rw [List.getLast?_cons_cons, List.getLast?_cons]; rfl
    rw [hg]
    exact forall₂_flat (step_kin h.1 h.2 h0.1 ht.1) fun a b hab => ih hab h0.2 ht.2

theorem pick_kin {c : Key} {ts : List Key} {x x' : Xml} (h : KinAt e c x x') (h0 : 0 ∉ ts.flatMap (stepTags c)) (ht : e.tag ∉ ts.flatMap (stepTags c)) :
    List.Forall₂ (KinAt e 0) (pickKid ts x).toList (pickKid ts x').toList := by
  induction ts with
  | nil => exact .nil
  | cons u ts ih =>
    simp only [List.flatMap_cons, List.mem_append, not_or] at h0 ht
    have hk := step_kin h.1 h.2 h0.1 ht.1
    simp only [pickKid, find?_filter_head]
    cases hf : x.kids.filter (tagIs u) with
    | nil =>
      rw [hf] at hk; cases hf' : x'.kids.filter (tagIs u) with
      | nil => exact ih h0.2 ht.2
      | cons b m => rw [hf'] at hk; cases hk
    | cons a l =>
      rw [hf] at hk; cases hf' : x'.kids.filter (tagIs u) with
      | nil => rw [hf'] at hk; cases hk
      | cons b m =>
        rw [hf'] at hk
        cases hk with
        | cons h1 _ => exact .cons ⟨h1.1, knows_zero _⟩ .nil

theorem select_kin (p : Path) {c : Key} {x x' : Xml} (h : KinAt e c x x') (h0 : 0 ∉ tagsIn c p) (ht : e.tag ∉ tagsIn c p) :
    List.Forall₂ (Kin e) (select p x) (select p x') := by
  induction p generalizing c x x' with
  | nil => exact .cons h.1 .nil
  | all u r ih =>
    simp only [tagsIn, List.mem_append, not_or] at h0 ht
    exact forall₂_flat (step_kin h.1 h.2 h0.1 ht.1) fun a b hab => ih hab h0.2 ht.2
  | first ts r ih =>
    simp only [tagsIn, List.mem_append, not_or] at h0 ht
    have := walk_kin h h0.1 ht.1
    simp only [select]
    cases hw : walk ts x with
    | nil => rw [hw] at this; cases hw' : walk ts x' with
      | nil => exact .nil
      | cons b m => rw [hw'] at this; cases this
    | cons a l => rw [hw] at this; cases hw' : walk ts x' with
      | nil => rw [hw'] at this; cases this
      | cons b m => rw [hw'] at this; cases this with | cons h1 _ => exact ih h1 h0.2 ht.2
  | pick ts r ih =>
    simp only [tagsIn, List.mem_append, not_or] at h0 ht
    have := pick_kin h h0.1 ht.1
    simp only [select]
    cases hw : pickKid ts x with
    | none => rw [hw] at this; cases hw' : pickKid ts x' with
      | none => exact .nil
      | some b => rw [hw'] at this; cases this
    | some a => rw [hw] at this; cases hw' : pickKid ts x' with
      | none => rw [hw'] at this; cases this
      | some b => rw [hw'] at this; cases this with | cons h1 _ => exact ih h1 h0.2 ht.2
  | need p r ihp ih =>
    simp only [tagsIn, List.mem_append, not_or] at h0 ht
    simp only [select, rel_isEmpty (ihp h h0.1 ht.1)]
    split
    · exact .nil
    · exact ih h h0.2 ht.2
  | lack p r ihp ih =>
    simp only [tagsIn, List.mem_append, not_or] at h0 ht
    simp only [select, rel_isEmpty (ihp h h0.1 ht.1)]
    split
    · exact ih h h0.2 ht.2
    · exact .nil
  | alt p r ihp ih =>
    simp only [tagsIn, List.mem_append, not_or] at h0 ht
    simp only [select, rel_isEmpty (ihp h h0.1 ht.1)]
    split
    · exact ih h h0.2 ht.2
    · exact ihp h h0.1 ht.1

theorem select_grown (p : Path) {c : Key} {x x' : Xml} (h : KinAt e c x x') (h0 : 0 ∉ crossed c p) (ht : e.tag ∉ crossed c p) :
    Grown (Kin e) (fun y => y = e ∧ (e.tag ∈ listTags c p ∨ 0 ∈ listTags c p)) (select p x) (select p x') := by
  induction p generalizing c x x' with
  | nil => exact .keep h.1 .nil
  | all u r ih =>
    by_cases hr : r = .nil
    · subst hr
      simp only [listTags, if_true, select, List.flatMap_singleton']
      exact step_grown h.1 h.2
    · simp only [crossed, if_neg hr, List.mem_append, not_or] at h0 ht
      simp only [listTags, if_neg hr, select]
      exact grown_flat (step_kin h.1 h.2 h0.1 ht.1) fun a b hab => ih hab h0.2 ht.2
  | first ts r ih =>
    simp only [crossed, List.mem_append, not_or] at h0 ht
    have := walk_kin h h0.1 ht.1
    simp only [select, listTags]
    cases hw : walk ts x with
    | nil => rw [hw] at this; cases hw' : walk ts x' with
      | nil => exact .nil
      | cons b m => rw [hw'] at this; cases this
    | cons a l => rw [hw] at this; cases hw' : walk ts x' with
      | nil => rw [hw'] at this; cases this
      | cons b m => rw [hw'] at this; cases this with | cons h1 _ => exact ih h1 h0.2 ht.2
  | pick ts r ih =>
    simp only [crossed, List.mem_append, not_or] at h0 ht
    have := pick_kin h h0.1 ht.1
    simp only [select, listTags]
    cases hw : pickKid ts x with
    | none => rw [hw] at this; cases hw' : pickKid ts x' with
      | none => exact .nil
      | some b => rw [hw'] at this; cases this
    | some a => rw [hw] at this; cases hw' : pickKid ts x' with
      | none => rw [hw'] at this; cases this
      | some b => rw [hw'] at this; cases this with | cons h1 _ => exact ih h1 h0.2 ht.2
  | need p r ihp ih =>
    simp only [crossed, List.mem_append, not_or] at h0 ht
    simp only [select, listTags, rel_isEmpty (select_kin p h h0.1 ht.1)]
    split
    · exact .nil
    · exact ih h h0.2 ht.2
  | lack p r ihp ih =>
    simp only [crossed, List.mem_append, not_or] at h0 ht
    simp only [select, listTags, rel_isEmpty (select_kin p h h0.1 ht.1)]
    split
    · exact ih h h0.2 ht.2
    · exact .nil
  | alt p r ihp ih =>
    simp only [crossed, List.mem_append, not_or] at h0 ht
    simp only [select, listTags, rel_isEmpty (select_kin p h h0.1 ht.1)]
    split
    · exact ih h h0.2 ht.2
    · exact grown_of (select_kin p h h0.1 ht.1)

end

section
variable {py : Py} {strict : Bool} {e : Xml}

theorem alt_listed {alts : List (Key × Key)} {t k : Key} (h : altOf alts t = some k) : (t, k) ∈ alts := by
  induction alts with
  | nil => cases h
  | cons a alts ih =>
    obtain ⟨t', k'⟩ := a
    simp only [altOf] at h
    split at h
    · rename_i ht; cases h; subst ht; simp
    · exact List.mem_cons_of_mem _ (ih h)

theorem readItem_kin {i : Item} {rd rd' : Key → Xml → Except RErr (MObj py.F)} {P : MObj py.F → Prop}
    (halt : ∀ alts, i = .objs alts → ∀ a ∈ alts, tagFor a.2 ∈ singles → a.1 ∈ singles)
    (hrd : ∀ k y y' v v', KinAt e (tagFor k) y y' → rd k y = .ok v → rd' k y' = .ok v' → Gained P v v')
    {y y' : Xml} (hl : Kin e y y') {vs vs' : List (MObj py.F)} (h1 : readItem py strict rd i y = .ok vs)
    (h2 : readItem py strict rd' i y' = .ok vs') : List.Forall₂ (Gained P) vs vs' := by
  cases i with
  | prim k =>
    have : readKind py k y = readKind py k y' := by
      obtain ⟨t, as, s, ks⟩ := y
      obtain ⟨t', as', s', ks'⟩ := y'
      obtain ⟨q1, q2, q3, _⟩ := hl
      simp only [Xml.tag, Xml.attrs, Xml.text] at q1 q2 q3
      subst q1 q2 q3
      cases k <;> rfl
    simp only [readItem] at h1 h2
    rw [← this] at h2
    rw [h1] at h2; cases h2
    exact forall₂_same _ fun v hv => by obtain ⟨s, rfl⟩ := scalars_only h1 v hv; exact .scal s
  | attr n k =>
    simp only [readItem, Xml.attr, hl.attrs] at h1 h2
    rw [h1] at h2; cases h2
    split at h1
    · cases h1; exact .nil
    · exact forall₂_same _ fun v hv => by obtain ⟨s, rfl⟩ := scalars_only h1 v hv; exact .scal s
  | name =>
    simp only [readItem, hl.text] at h1 h2
    split at h1
    · cases h1
    · rename_i hn
      rw [if_neg hn] at h2
      cases h1; cases h2
      exact .cons (.scal _) .nil
  | objs alts =>
    simp only [readItem, ← hl.tag] at h1 h2
    split at h1
    · rename_i ha; rw [ha] at h2; cases h1; cases h2; exact .nil
    · rename_i k ha
      rw [ha] at h2
      simp only at h2
      split at h1
      · cases h1
      · rename_i v hv
        split at h2
        · cases h2
        · rename_i v' hv'
          cases h1; cases h2
          exact .cons (hrd k y y' v v' ⟨hl, halt alts rfl _ (alt_listed ha)⟩ hv hv') .nil
  | guard tags g =>
    have hz : ∀ {rd : Key → Xml → Except RErr (MObj py.F)} {y vs}, readItem py strict rd (.guard tags g) y = .ok vs → vs = [] := by
      intro rd y vs h
      simp only [readItem] at h
      split at h
      · cases h; rfl
      · split at h <;> cases h <;> rfl
    rw [hz h1, hz h2]; exact .nil
  | want t er =>
    have hz : ∀ {rd : Key → Xml → Except RErr (MObj py.F)} {y vs}, readItem py strict rd (.want t er) y = .ok vs → vs = [] := by
      intro rd y vs h
      simp only [readItem] at h
      split at h <;> cases h; rfl
    rw [hz h1, hz h2]; exact .nil
  | crash er => cases h1

theorem readItem_new {s : RSlot} (hs : keepsAll s = true) {rd : Key → Xml → Except RErr (MObj py.F)} {vs : List (MObj py.F)}
    (h : readItem py strict rd s.item e = .ok vs) : ∀ v ∈ vs, ∃ k, rd k e = .ok v := by
  unfold keepsAll at hs
  cases hi : s.item with
  | objs alts =>
    rw [hi] at h
    simp only [readItem] at h
    split at h
    · cases h; simp
    · rename_i k _
      split at h
      · cases h
      · rename_i v hv
        cases h
        intro w hw
        rw [List.mem_singleton] at hw
        subst hw
        exact ⟨k, hv⟩
  | guard tags g =>
    rw [hi] at h
    simp only [readItem] at h
    split at h
    · cases h; simp
    · split at h <;> cases h <;> simp
  | _ => rw [hi] at hs; simp at hs

theorem gainedIn_zip {F : Type} {P : MObj F → Prop} {ks : List (Key × Bool)} {vs vs' : List (List (MObj F))}
    (h : List.Forall₂ (Grown (Gained P) P) vs vs') : GainedIn P (ks.zip vs) (ks.zip vs') := by
  induction h generalizing ks with
  | nil => cases ks <;> exact .nil
  | cons h1 _ ih => cases ks with
    | nil => exact .nil
    | cons k ks => exact .cons _ _ _ _ _ h1 ih

theorem read_inserted (hw : Joins e.tag) (n n' : Nat) (k : Key) {x x' : Xml} (h : KinAt e (tagFor k) x x') {v v' : MObj py.F}
    (h1 : readObj py strict readers n k x = .ok v) (h2 : readObj py strict readers n' k x' = .ok v') : Gained (ReadFrom py strict e) v v' := by
  induction n generalizing n' k x x' v v' with
  | zero => cases h1
  | succ n ih =>
    cases n' with
    | zero => cases h2
    | succ n' =>
      simp only [readObj] at h1 h2
      cases hb : readers k with
      | none => rw [hb] at h1; cases h1
      | some b =>
        rw [hb] at h1 h2
        simp only [readBody] at h1 h2
        split at h1
        · cases h1
        · rename_i vs hvs
          split at h2
          · cases h2
          · rename_i vs' hvs'
            split at h1
            · split at h2
              · cases h1; cases h2
                refine .inside _ _ _ (gainedIn_zip ?_)
                refine mapE_pairs (R := fun s s' => s = s' ∧ s ∈ b.slots) (fun s s' ws ws' hs g1 g2 => ?_) (forall₂_same _ fun s hs => ⟨rfl, hs⟩) hvs hvs'
                obtain ⟨rfl, hs⟩ := hs
                obtain ⟨ls, f1, rfl, _⟩ := readSlot_ok g1
                obtain ⟨ls', f2, rfl, _⟩ := readSlot_ok g2
                obtain ⟨w1, w0, wa⟩ := hw k b hb s hs
                simp only [disturbs, List.mem_append, not_or] at w1 w0
                have hsel := select_grown s.path h w0.1 w1.1
                have hkin : ∀ y y' us us', Kin e y y' → readItem py strict (readObj py strict readers n) s.item y = .ok us →
                    readItem py strict (readObj py strict readers n') s.item y' = .ok us' → List.Forall₂ (Gained (ReadFrom py strict e)) us us' :=
                  fun y y' us us' hy q1 q2 => readItem_kin wa (fun k y y' v v' hy hv hv' => ih n' k hy hv hv') hy q1 q2
                cases ha : keepsAll s with
                | true =>
                  have hl : s.last = false := by
                    cases hl : s.last with
                    | false => rfl
                    | true => simp [keepsAll, hl] at ha
                  simp only [hl]
                  refine grown_flatten (mapE_grown hkin (fun y us hy q => ?_) hsel f1 f2)
                  intro v hv
                  obtain ⟨rfl, _⟩ := hy
                  obtain ⟨k, hk⟩ := readItem_new ha q v hv
                  exact ⟨n', k, hk⟩
                | false =>
                  rw [ha] at w1 w0
                  have hf := grown_none hsel (by rintro b _ ⟨_, h | h⟩; exact w1.2 h; exact w0.2 h)
                  have hls := mapE_pairs hkin hf f1 f2
                  have := List.rel_flatten hls
                  split
                  · exact grown_of (keepLast_rel this)
                  · exact grown_of this
              · cases h2
            · cases h1

theorem load_inserted (hw : Joins e.tag) {x x' : Xml} (h : Inserted e x x') {d d' : MObj py.F}
    (h1 : load py strict x = .ok d) (h2 : load py strict x' = .ok d') : Gained (ReadFrom py strict e) d d' := by
  unfold load at h1 h2
  split at h1
  · cases h1
  · split at h2
    · cases h2
    · exact read_inserted hw _ _ k!"load" ⟨ins_kin h, fun h => absurd h (by decide)⟩ h1 h2

end

end Verif.Lemmas
