import Verif.Spec.AdminFile
import Verif.Lemmas.AdminCheck
import Verif.Lemmas.AdminData
import Verif.Lemmas.Fuel
import Verif.Lemmas.Values
import Verif.Lemmas.Locate
/-!
# Saving a document without admin data
-/
namespace Verif.Lemmas
open Verif Verif.Model Verif.Gen Verif.Spec

section
variable {py : Py} {repr : py.F → Str} {strict : Bool} {wr : Key → MObj py.F → Except PyErr Out} {S B : List Key}

/-! ## attributes that are not used -/

theorem view_of_get {o o' : MObj py.F} {f : Key} (h : o'.get f = o.get f) (v : List Key) : o'.view f v = o.view f v := by
  unfold MObj.view
  rw [h]

theorem inst_of_cls {o o' : MObj py.F} (h : o'.cls = o.cls) (cs : List Key) : o'.inst cs = o.inst cs := by
  unfold MObj.inst
  rw [h]

theorem contains_false {l : List Key} {f : Key} (h : (!l.contains f) = true) : f ∉ l := by simpa using h

theorem cond_free {o o' : MObj py.F} (hc : o'.cls = o.cls) (hg : ∀ f, f ∉ S → o'.get f = o.get f) {c : Cond} (h : condFree S c = true) :
    c.holds o' = c.holds o := by
  cases c with
  | always => rfl
  | cls cs => exact inst_of_cls hc cs
  | notcls cs => simp only [Cond.holds, inst_of_cls hc cs]
  | any fs =>
    simp only [condFree, List.all_eq_true] at h
    simp only [Cond.holds]
    rw [Bool.eq_iff_iff, List.any_eq_true, List.any_eq_true]
    constructor
    · rintro ⟨s, hs, h'⟩; exact ⟨s, hs, by rw [← view_of_get (hg _ (contains_false (h s hs)))]; exact h'⟩
    · rintro ⟨s, hs, h'⟩; exact ⟨s, hs, by rw [view_of_get (hg _ (contains_false (h s hs)))]; exact h'⟩
  | none fs =>
    simp only [condFree, List.all_eq_true] at h
    simp only [Cond.holds]
    rw [Bool.eq_iff_iff, List.all_eq_true, List.all_eq_true]
    constructor
    · intro h' s hs; rw [← view_of_get (hg _ (contains_false (h s hs)))]; exact h' s hs
    · intro h' s hs; rw [view_of_get (hg _ (contains_false (h s hs)))]; exact h' s hs

theorem writeB_free {o o' : MObj py.F} (hc : o'.cls = o.cls) (hg : ∀ f, f ∉ S → o'.get f = o.get f) {W : WB} (h : wFree S W = true) :
    writeB py repr strict wr o' W = writeB py repr strict wr o W := by
  induction W with
  | nil => rfl
  | attr n k f r ih | text k f r ih | prim t k f r ih | oprim u t k f r ih =>
    simp only [wFree, Bool.and_eq_true] at h
    simp only [writeB, ih h.2, hg _ (contains_false h.1)]
  | each f v a cs ot r ih =>
    simp only [wFree, Bool.and_eq_true] at h
    simp only [writeB, ih h.2, view_of_get (hg _ (contains_false h.1))]
  | wrap c t b r ihb ihr =>
    simp only [wFree, Bool.and_eq_true] at h
    simp only [writeB, ihb h.1.2, ihr h.2, cond_free hc hg h.1.1]
  | «when» c b r ihb ihr =>
    simp only [wFree, Bool.and_eq_true] at h
    simp only [writeB, ihb h.1.2, ihr h.2, cond_free hc hg h.1.1]
  | fail e a r ih =>
    simp only [wFree] at h
    simp only [writeB, ih h]

/-! ## tags that are not added -/

theorem outs_flat (l : List Out) : (outs l).kids = l.flatMap Out.kids := by
  induction l with
  | nil => rfl
  | cons a l ih => simp only [outs, Out.app, List.flatMap_cons, ih]

theorem nest_tags {l : List Out} {y : Xml} (h : y ∈ (nest l).kids) : ∃ x ∈ l, ∃ z ∈ x.kids, y.tag = z.tag := by
  induction l with
  | nil => cases h
  | cons a l ih =>
    simp only [nest, Out.into] at h
    split at h
    · rename_i t as s ks hk
      simp only [List.mem_singleton] at h
      subst h
      exact ⟨a, by simp, .node t as s ks, by rw [hk]; simp, rfl⟩
    · rcases List.mem_append.1 h with h | h
      · exact ⟨a, by simp, y, h, rfl⟩
      · obtain ⟨x, hx, z, hz, e⟩ := ih h
        exact ⟨x, by simp [hx], z, hz, e⟩

theorem arr_tags {a : Arr} {l : List Out} {y : Xml} (h : y ∈ (a.outs l).kids) : ∃ x ∈ l, ∃ z ∈ x.kids, y.tag = z.tag := by
  have key : y ∈ (outs l).kids → ∃ x ∈ l, ∃ z ∈ x.kids, y.tag = z.tag := by
    intro h
    rw [outs_flat] at h
    obtain ⟨x, hx, h⟩ := List.mem_flatMap.1 h
    exact ⟨x, hx, y, h, rfl⟩
  cases a with
  | plain => exact key h
  | sorted => exact key h
  | nested => exact nest_tags h

theorem mapE_img {α β ε : Type} {f : α → Except ε β} {l : List α} {r : List β} (h : mapE f l = .ok r) {y : β} (hy : y ∈ r) : ∃ a ∈ l, f a = .ok y := by
  have := mapE_ok h
  clear h
  induction this with
  | nil => cases hy
  | @cons a b l r h1 _ ih =>
    rcases List.mem_cons.1 hy with rfl | hy
    · exact ⟨a, by simp, h1⟩
    · obtain ⟨a, ha, h⟩ := ih hy; exact ⟨a, by simp [ha], h⟩

theorem writePrim_tag {t : Key} {k : WKind} {v : MObj py.F} {y : Xml} (h : writePrim py repr t k v = .ok y) : y.tag = t := by
  cases v with
  | scal s => exact writeKind_tag h
  | mk c fs => cases h

theorem case_mem {cs : List Case} {ot : Other} {v : MObj py.F} {out : Out} (h : writeCase py strict wr cs ot v = .ok out) :
    (∃ c ∈ cs, wr c.body v = .ok out) ∨ out = {} := by
  unfold writeCase at h
  split at h
  · rename_i k hk
    exact .inl ⟨k, List.mem_of_find?_eq_some hk, h⟩
  · right
    split at h
    · cases h
    · cases h
    · cases h; rfl

theorem wQuiet_out {o : MObj py.F} (hq : ∀ k v out, quiet B k = true → wr k v = .ok out → ∀ y ∈ out.kids, y.tag ∉ B) {W : WB}
    (h : wQuiet B W = true) {out : Out} (hw : writeB py repr strict wr o W = .ok out) : ∀ y ∈ out.kids, y.tag ∉ B := by
  induction W generalizing out with
  | nil => cases hw; intro y hy; cases hy
  | attr n k f r ih =>
    simp only [writeB] at hw
    obtain ⟨a, b, ha, hb, rfl⟩ := seqE_ok hw
    intro y hy
    rcases List.mem_append.1 hy with hy | hy
    · unfold writeAttrOf at ha
      split at ha
      · split at ha <;> cases ha <;> cases hy
      · cases ha
      · cases ha; cases hy
    · exact ih h hb y hy
  | text k f r ih =>
    simp only [writeB] at hw
    obtain ⟨a, b, ha, hb, rfl⟩ := seqE_ok hw
    intro y hy
    rcases List.mem_append.1 hy with hy | hy
    · unfold writeTextOf at ha
      split at ha
      · split at ha <;> cases ha <;> cases hy
      · cases ha
      · cases ha; cases hy
    · exact ih h hb y hy
  | fail e a r ih =>
    simp only [writeB] at hw
    obtain ⟨a, b, ha, hb, rfl⟩ := seqE_ok hw
    intro y hy
    rcases List.mem_append.1 hy with hy | hy
    · split at ha
      · cases ha
      · cases ha; cases hy
    · exact ih h hb y hy
  | prim t k f r ih =>
    simp only [wQuiet, Bool.and_eq_true] at h
    simp only [writeB] at hw
    obtain ⟨a, b, ha, hb, rfl⟩ := seqE_ok hw
    intro y hy
    rcases List.mem_append.1 hy with hy | hy
    · obtain ⟨ys, h1, rfl⟩ := map_ok ha
      obtain ⟨v, _, h2⟩ := mapE_img h1 hy
      rw [writePrim_tag h2]
      exact contains_false h.1
    · exact ih h.2 hb y hy
  | oprim u t k f r ih =>
    simp only [wQuiet, Bool.and_eq_true] at h
    simp only [writeB] at hw
    obtain ⟨a, b, ha, hb, rfl⟩ := seqE_ok hw
    intro y hy
    rcases List.mem_append.1 hy with hy | hy
    · obtain ⟨ys, h1, rfl⟩ := map_ok ha
      obtain ⟨z, _, rfl⟩ := List.mem_map.1 hy
      exact contains_false h.1
    · exact ih h.2 hb y hy
  | each f v a cs ot r ih =>
    simp only [wQuiet, Bool.and_eq_true, List.all_eq_true] at h
    simp only [writeB] at hw
    obtain ⟨x, b, ha, hb, rfl⟩ := seqE_ok hw
    intro y hy
    rcases List.mem_append.1 hy with hy | hy
    · obtain ⟨os, h1, rfl⟩ := map_ok ha
      obtain ⟨x, hx, z, hz, e⟩ := arr_tags hy
      obtain ⟨v, _, h2⟩ := mapE_img h1 hx
      rw [e]
      rcases case_mem h2 with ⟨c, hc, h3⟩ | rfl
      · exact hq _ _ _ (h.1 c hc) h3 z hz
      · cases hz
    · exact ih h.2 hb y hy
  | wrap c t b r _ ih =>
    simp only [wQuiet, Bool.and_eq_true] at h
    simp only [writeB] at hw
    obtain ⟨x, b, ha, hb, rfl⟩ := seqE_ok hw
    intro y hy
    rcases List.mem_append.1 hy with hy | hy
    · split at ha
      · obtain ⟨w, _, rfl⟩ := map_ok ha
        simp only [List.mem_singleton] at hy
        subst hy
        exact contains_false h.1
      · cases ha; cases hy
    · exact ih h.2 hb y hy
  | «when» c b r ihb ih =>
    simp only [wQuiet, Bool.and_eq_true] at h
    simp only [writeB] at hw
    obtain ⟨x, b, ha, hb, rfl⟩ := seqE_ok hw
    intro y hy
    rcases List.mem_append.1 hy with hy | hy
    · split at ha
      · exact ihb h.1 ha y hy
      · cases ha; cases hy
    · exact ih h.2 hb y hy

/-- the table of tags is right for `B` -/
def TagsRight (B : List Key) : Prop := ∀ k b, writers k = some b → quiet B k = true → wQuiet B b = true

theorem tagsRight_of (h : writeTable.all (fun k b => !quiet B k || wQuiet B b) = true) (hs : quiet B k!"save" = false) : TagsRight B := by
  intro k b hb hq
  unfold writers at hb
  by_cases hk : k = k!"save"
  · subst hk; rw [hs] at hq; cases hq
  · rw [if_neg hk] at hb
    have := (Bst.all_toList _ _).1 h _ (Bst.find?_mem hb)
    simpa [hq] using this

theorem tags_admin : TagsRight [k!"ADMIN-DATA"] := tagsRight_of (by decide +kernel) (by decide +kernel)
theorem tags_pkg : TagsRight pkgTags := tagsRight_of (by decide +kernel) (by decide +kernel)

theorem quiet_out (hB : TagsRight B) (n : Nat) (k : Key) (o : MObj py.F) (out : Out) (hq : quiet B k = true)
    (h : writeObj py repr strict writers n k o = .ok out) : ∀ y ∈ out.kids, y.tag ∉ B := by
  induction n generalizing k o out with
  | zero => cases h
  | succ n ih =>
    simp only [writeObj] at h
    split at h
    · cases h
    · rename_i b hb
      exact wQuiet_out ih (hB k b hb hq) h

/-! ## methods that write the admin data -/

/-- without admin data -/
def keep (out : Out) : Out := { out with kids := out.kids.filter fun y => y.tag != k!"ADMIN-DATA" }

/-- every element changed -/
def mapped (g : Xml → Xml) (out : Out) : Out := { out with kids := out.kids.map g }

theorem keep_app (a b : Out) : keep (a.app b) = (keep a).app (keep b) := by
  simp only [keep, Out.app, List.filter_append]
  rfl

theorem keep_id {out : Out} (h : ∀ y ∈ out.kids, y.tag ≠ k!"ADMIN-DATA") : keep out = out := by
  unfold keep
  rw [List.filter_eq_self.2]
  intro y hy
  simpa using h y hy

theorem keep_node (t : Key) (out : Out) : (keep out).node t = dropAdmin (out.node t) := rfl

theorem outs_empty {l : List Out} (h : ∀ x ∈ l, x.attrs = [] ∧ x.text = []) : (outs l).attrs = [] ∧ (outs l).text = [] := by
  induction l with
  | nil => exact ⟨rfl, rfl⟩
  | cons a l ih =>
    obtain ⟨h1, h2⟩ := ih fun x hx => h x (by simp [hx])
    obtain ⟨h3, h4⟩ := h a (by simp)
    simp [outs, Out.app, h1, h2, h3, h4]

theorem setAdmin_out {n : Nat} {v : MObj py.F} {out : Out} (h : writeObj py repr strict writers n k!"setAdminData_AdminData" v = .ok out) :
    out.attrs = [] ∧ out.text = [] ∧ ∀ y ∈ out.kids, y.tag = k!"ADMIN-DATA" := by
  cases n with
  | zero => cases h
  | succ n =>
    have hb : writers k!"setAdminData_AdminData" = some W.setAdminData_AdminData := by
      unfold writers
      rw [if_neg (by decide)]
      rfl
    simp only [writeObj, hb, W.setAdminData_AdminData, writeB] at h
    obtain ⟨a, b, ha, hb, rfl⟩ := seqE_ok h
    cases hb
    rw [if_pos (show Cond.holds v Cond.always = true from rfl)] at ha
    obtain ⟨w, _, rfl⟩ := map_ok ha
    refine ⟨rfl, rfl, ?_⟩
    intro y hy
    have : y = w.node k!"ADMIN-DATA" := by simpa [Out.app] using hy
    subst this
    rfl

theorem wAdmin_out {o o' : MObj py.F} (hc : o'.cls = o.cls) (hg : ∀ f, f ∉ S → o'.get f = o.get f) (ha : o'.get k!"adminData" = [])
    (hB : k!"ADMIN-DATA" ∈ B) (hq : ∀ k v out, quiet B k = true → wr k v = .ok out → ∀ y ∈ out.kids, y.tag ∉ B)
    (hs : ∀ v out, wr k!"setAdminData_AdminData" v = .ok out → out.attrs = [] ∧ out.text = [] ∧ ∀ y ∈ out.kids, y.tag = k!"ADMIN-DATA")
    {W : WB} (h : wAdmin S B W = true) {out : Out} (hw : writeB py repr strict wr o W = .ok out) :
    writeB py repr strict wr o' W = .ok (keep out) ∧ ∀ y ∈ out.kids, y.tag ∈ B → y.tag = k!"ADMIN-DATA" := by
  have step : ∀ {X Y : Except PyErr Out} {V : WB} {out : Out}, seqE X (writeB py repr strict wr o V) = .ok out →
      (∀ a, X = .ok a → Y = .ok (keep a) ∧ ∀ y ∈ a.kids, y.tag ∈ B → y.tag = k!"ADMIN-DATA") →
      (∀ out, writeB py repr strict wr o V = .ok out → writeB py repr strict wr o' V = .ok (keep out) ∧
        ∀ y ∈ out.kids, y.tag ∈ B → y.tag = k!"ADMIN-DATA") →
      seqE Y (writeB py repr strict wr o' V) = .ok (keep out) ∧ ∀ y ∈ out.kids, y.tag ∈ B → y.tag = k!"ADMIN-DATA" := by
    intro X Y V out h hX hV
    obtain ⟨a, b, ha, hb, rfl⟩ := seqE_ok h
    obtain ⟨h1, h2⟩ := hX a ha
    obtain ⟨h3, h4⟩ := hV b hb
    refine ⟨?_, ?_⟩
    · rw [h1, h3, seqE, keep_app]
    · intro y hy
      rcases List.mem_append.1 hy with hy | hy
      · exact h2 y hy
      · exact h4 y hy
  have quietStep : ∀ {X : Except PyErr Out}, (∀ a, X = .ok a → ∀ y ∈ a.kids, y.tag ∉ B) →
      ∀ a, X = .ok a → X = .ok (keep a) ∧ ∀ y ∈ a.kids, y.tag ∈ B → y.tag = k!"ADMIN-DATA" := by
    intro X h a ha
    refine ⟨?_, fun y hy hb => absurd hb (h a ha y hy)⟩
    rw [keep_id fun y hy e => h a ha y hy (by rw [e]; exact hB)]
    exact ha
  induction W generalizing out with
  | nil => cases hw; exact ⟨rfl, by intro y hy; cases hy⟩
  | attr n k f r ih =>
    simp only [wAdmin, Bool.and_eq_true] at h
    simp only [writeB] at hw ⊢
    rw [hg _ (contains_false h.1)]
    refine step hw (quietStep ?_) fun out => ih h.2
    intro a ha y hy
    unfold writeAttrOf at ha
    split at ha
    · split at ha <;> cases ha <;> cases hy
    · cases ha
    · cases ha; cases hy
  | text k f r ih =>
    simp only [wAdmin, Bool.and_eq_true] at h
    simp only [writeB] at hw ⊢
    rw [hg _ (contains_false h.1)]
    refine step hw (quietStep ?_) fun out => ih h.2
    intro a ha y hy
    unfold writeTextOf at ha
    split at ha
    · split at ha <;> cases ha <;> cases hy
    · cases ha
    · cases ha; cases hy
  | fail e a r ih =>
    simp only [writeB] at hw ⊢
    refine step hw (quietStep ?_) fun out => ih h
    intro a ha y hy
    split at ha
    · cases ha
    · cases ha; cases hy
  | prim t k f r ih =>
    simp only [wAdmin, Bool.and_eq_true] at h
    simp only [writeB] at hw ⊢
    rw [hg _ (contains_false h.1.2)]
    refine step hw (quietStep ?_) fun out => ih h.2
    intro a ha y hy
    obtain ⟨ys, h1, rfl⟩ := map_ok ha
    obtain ⟨v, _, h2⟩ := mapE_img h1 hy
    rw [writePrim_tag h2]
    exact contains_false h.1.1
  | oprim u t k f r ih =>
    simp only [wAdmin, Bool.and_eq_true] at h
    simp only [writeB] at hw ⊢
    rw [hg _ (contains_false h.1.2)]
    refine step hw (quietStep ?_) fun out => ih h.2
    intro a ha y hy
    obtain ⟨ys, h1, rfl⟩ := map_ok ha
    obtain ⟨z, _, rfl⟩ := List.mem_map.1 hy
    exact contains_false h.1.1
  | each f v a cs ot r ih =>
    simp only [wAdmin, Bool.and_eq_true] at h
    simp only [writeB] at hw ⊢
    by_cases hf : f = k!"adminData"
    · rw [if_pos hf] at h
      simp only [Bool.and_eq_true, beq_iff_eq] at h
      obtain ⟨⟨⟨⟨rfl, rfl⟩, rfl⟩, rfl⟩, hr⟩ := h
      subst hf
      refine step hw ?_ fun out => ih hr
      intro x hx
      obtain ⟨os, h1, rfl⟩ := map_ok hx
      have hos : ∀ x ∈ os, x.attrs = [] ∧ x.text = [] ∧ ∀ y ∈ x.kids, y.tag = k!"ADMIN-DATA" := by
        intro x hx
        obtain ⟨v, _, h2⟩ := mapE_img h1 hx
        rcases case_mem h2 with ⟨c, hc, h3⟩ | rfl
        · simp only [adminCases, List.mem_singleton] at hc
          subst hc
          exact hs _ _ h3
        · exact ⟨rfl, rfl, by intro y hy; cases hy⟩
      have hk : ∀ y ∈ (Arr.outs .plain os).kids, y.tag = k!"ADMIN-DATA" := by
        intro y hy
        obtain ⟨x, hx, z, hz, e⟩ := arr_tags hy
        rw [e]; exact (hos x hx).2.2 z hz
      refine ⟨?_, fun y hy _ => hk y hy⟩
      have hv : o'.view k!"adminData" [] = [] := ha
      rw [if_neg (by decide), hv]
      have he := outs_empty fun x hx => ⟨(hos x hx).1, (hos x hx).2.1⟩
      have hf : (Arr.outs .plain os).kids.filter (fun y => y.tag != k!"ADMIN-DATA") = [] := by
        rw [List.filter_eq_nil_iff]
        intro y hy
        simp [hk y hy]
      show Except.ok (outs []) = .ok (keep (outs os))
      have : keep (outs os) = ⟨(outs os).attrs, (outs os).text, (outs os).kids.filter fun y => y.tag != k!"ADMIN-DATA"⟩ := rfl
      rw [this, he.1, he.2]
      have hf' : (outs os).kids.filter (fun y => y.tag != k!"ADMIN-DATA") = [] := hf
      rw [hf']
      rfl
    · rw [if_neg hf] at h
      simp only [Bool.and_eq_true, List.all_eq_true] at h
      rw [view_of_get (hg _ (contains_false h.1.1))]
      refine step hw (quietStep ?_) fun out => ih h.2
      intro x hx y hy
      obtain ⟨os, h1, rfl⟩ := map_ok hx
      obtain ⟨x, hx, z, hz, e⟩ := arr_tags hy
      obtain ⟨v, _, h2⟩ := mapE_img h1 hx
      rw [e]
      rcases case_mem h2 with ⟨c, hc, h3⟩ | rfl
      · exact hq _ _ _ (h.1.2 c hc) h3 z hz
      · cases hz
  | wrap c t b r _ ih =>
    simp only [wAdmin, Bool.and_eq_true] at h
    simp only [writeB] at hw ⊢
    rw [cond_free hc hg h.1.1.2, writeB_free hc hg h.1.2]
    refine step hw (quietStep ?_) fun out => ih h.2
    intro a ha y hy
    split at ha
    · obtain ⟨w, _, rfl⟩ := map_ok ha
      simp only [List.mem_singleton] at hy
      subst hy
      exact contains_false h.1.1.1
    · cases ha; cases hy
  | «when» c b r _ ih =>
    simp only [wAdmin, Bool.and_eq_true] at h
    simp only [writeB] at hw ⊢
    rw [cond_free hc hg h.1.1.1, writeB_free hc hg h.1.1.2]
    refine step hw (quietStep ?_) fun out => ih h.2
    intro a ha
    split at ha
    · exact wQuiet_out hq h.1.2 ha
    · cases ha; intro y hy; cases hy

/-! ## elements -/

theorem mapped_app (g : Xml → Xml) (a b : Out) : mapped g (a.app b) = (mapped g a).app (mapped g b) := by
  simp only [mapped, Out.app, List.map_append]
  rfl

theorem mapped_outs (g : Xml → Xml) (l : List Out) : outs (l.map (mapped g)) = mapped g (outs l) := by
  induction l with
  | nil => rfl
  | cons a l ih => rw [List.map_cons, outs, outs, ih, mapped_app]

theorem element_out {o o' : MObj py.F} (hc : o'.cls = o.cls) (hg : ∀ f, f ≠ k!"adminData" → o'.get f = o.get f) (ha : o'.get k!"adminData" = [])
    {n : Nat} {W : WB} (h : elementBody W = true) {out : Out} (hw : writeB py repr strict (writeObj py repr strict writers n) o W = .ok out) :
    writeB py repr strict (writeObj py repr strict writers n) o' W = .ok (mapped dropAdmin out) := by
  have hg' : ∀ f, f ∉ [k!"adminData"] → o'.get f = o.get f := fun f hf => hg f (by simpa using hf)
  induction W generalizing out with
  | nil => cases hw; rfl
  | wrap c t b r _ ih =>
    simp only [elementBody, Bool.and_eq_true] at h
    simp only [writeB] at hw ⊢
    obtain ⟨x, y, hx, hy, rfl⟩ := seqE_ok hw
    rw [ih h.2 hy, mapped_app, cond_free hc hg' h.1.1]
    split at hx
    · rename_i hh
      obtain ⟨w, hw', rfl⟩ := map_ok hx
      have := (wAdmin_out hc hg' ha (by simp) (fun k v out hq he => quiet_out tags_admin n k v out hq he) (fun v out he => setAdmin_out he) h.1.2 hw').1
      rw [this, if_pos hh]
      rfl
    · rename_i hh
      cases hx
      rw [if_neg hh]
      rfl
  | attr _ _ _ _ _ | text _ _ _ _ | prim _ _ _ _ _ | oprim _ _ _ _ _ _ | each _ _ _ _ _ _ _ | «when» _ _ _ _ _ | fail _ _ _ _ => cases h

theorem bare_out {o : MObj py.F} {n : Nat} {W : WB} (h : bareBody W = true) {out : Out}
    (hw : writeB py repr strict (writeObj py repr strict writers n) o W = .ok out) : mapped dropAdmin out = out := by
  induction W generalizing out with
  | nil => cases hw; rfl
  | wrap c t b r _ ih =>
    simp only [bareBody, Bool.and_eq_true] at h
    simp only [writeB] at hw ⊢
    obtain ⟨x, y, hx, hy, rfl⟩ := seqE_ok hw
    rw [mapped_app, ih h.2 hy]
    split at hx
    · obtain ⟨w, hw', rfl⟩ := map_ok hx
      have := wQuiet_out (fun k v out hq he => quiet_out tags_admin n k v out hq he) h.1 hw'
      have hk : keep w = w := keep_id fun y hy e => this y hy (by simp [e])
      have : mapped dropAdmin { kids := [w.node t] } = { kids := [(keep w).node t] } := rfl
      rw [this, hk]
    · cases hx; rfl
  | attr _ _ _ _ _ | text _ _ _ _ | prim _ _ _ _ _ | oprim _ _ _ _ _ _ | each _ _ _ _ _ _ _ | «when» _ _ _ _ _ | fail _ _ _ _ => cases h

theorem cases_right : elementCases.all (fun c => onMethod elementBody c.body && (takesIdentifiable c || onMethod bareBody c.body)) = true := by
  decide +kernel

theorem table_identifiable : classTable.all (fun _ as => as.all fun a => !armodel.sub a k!"Identifiable" || as.contains k!"Identifiable") = true := by
  decide +kernel

theorem sub_identifiable {c d : Key} (h : armodel.sub c d = true)
    (hi : armodel.sub d k!"Identifiable" = true) : armodel.sub c k!"Identifiable" = true := by
  cases hc : classTable.find? c with
  | some l =>
    have := (Bst.all_toList _ _).1 table_identifiable _ (Bst.find?_mem hc)
    have ha : ancestors c = l := by simp [ancestors, hc]
    have h : (ancestors c).contains d = true := h
    show (ancestors c).contains k!"Identifiable" = true
    rw [ha] at h ⊢
    simp only [List.all_eq_true] at this
    have := this d (by simpa using h)
    simpa [hi] using this
  | none =>
    have ha : ancestors c = [c] := by simp [ancestors, hc]
    have h : (ancestors c).contains d = true := h
    rw [ha] at h
    have e : d = c := by simpa using h
    subst e
    exact hi

theorem takes_identifiable {c : Case} {k : Key} (h : takesIdentifiable c = true) (ht : c.takes k = true) : armodel.sub k k!"Identifiable" = true := by
  unfold takesIdentifiable at h
  obtain ⟨p, hp, h⟩ := List.any_eq_true.1 h
  simp only [Case.takes, Bool.and_eq_true, List.all_eq_true] at ht
  obtain ⟨d, hd, h2⟩ := List.any_eq_true.1 (ht.1 p hp)
  have := List.all_eq_true.1 h d hd
  simp only [Bool.and_eq_true] at this
  split at h2
  · rw [beq_iff_eq] at h2
    subst h2
    exact this.2
  · exact sub_identifiable h2 this.2

theorem removeAdminData_cls {F : Type} (e : MObj F) : e.removeAdminData.cls = e.cls := by cases e <;> rfl

theorem removeAdminData_other {F : Type} {e : MObj F} (he : ∀ f ∈ e.fields, f.1 ≠ (k!"adminData", true)) {f : Key} (hf : f ≠ k!"adminData") :
    e.removeAdminData.get f = e.get f := by
  cases e with
  | scal s => rfl
  | mk c fs =>
    simp only [MObj.get, MObj.fields, MObj.removeAdminData] at he ⊢
    induction fs with
    | nil => rfl
    | cons x fs ih =>
      rw [List.map_cons, List.flatMap_cons, List.flatMap_cons, ih fun f hf => he f (by simp [hf])]
      congr 1
      by_cases hx : x.1.1 = k!"adminData"
      · rw [if_pos hx]
        have h2 : x.1.2 = false := by
          have := he x (by simp)
          by_contra hn
          refine this ?_
          rw [← hx]
          exact Prod.ext rfl (by simpa using hn)
        have : hits f x.1 = false := by simp [hits, hx, h2, Ne.symm hf]
        simp [this]
      · rw [if_neg hx]

theorem processElement_cls {F : Type} (e : MObj F) : (processElement e).cls = e.cls := by
  unfold processElement
  split
  · exact removeAdminData_cls e
  · split
    · exact removeAdminData_cls e
    · rfl

/-- an element of a package -/
theorem case_out {e : MObj py.F} (he : ∀ f ∈ e.fields, f.1 ≠ (k!"adminData", true)) {n : Nat} {ot : Other} {out : Out}
    (h : writeCase py strict (writeObj py repr strict writers n) elementCases ot e = .ok out) :
    writeCase py strict (writeObj py repr strict writers n) elementCases ot (processElement e) = .ok (mapped dropAdmin out) := by
  unfold writeCase at h ⊢
  rw [processElement_cls]
  cases hk : elementCases.find? (fun k => k.takes e.cls) with
  | none =>
    rw [hk] at h
    dsimp only at h ⊢
    split at h
    · cases h
    · cases h
    · cases h; rfl
  | some k =>
    rw [hk] at h
    dsimp only at h ⊢
    have hm := List.mem_of_find?_eq_some hk
    have ht : k.takes e.cls = true := by simpa using List.find?_some hk
    have hr := List.all_eq_true.1 cases_right k hm
    simp only [Bool.and_eq_true, Bool.or_eq_true] at hr
    cases n with
    | zero => cases h
    | succ n =>
      simp only [writeObj] at h ⊢
      cases hb : writers k.body with
      | none => rw [hb] at h; cases h
      | some b =>
        rw [hb] at h
        have h1 : elementBody b = true := by have := hr.1; unfold onMethod at this; rw [hb] at this; exact this
        dsimp only at h ⊢
        have rem : writeB py repr strict (writeObj py repr strict writers n) e.removeAdminData b = .ok (mapped dropAdmin out) :=
          element_out (removeAdminData_cls e) (fun f hf => removeAdminData_other he hf) (removeAdminData_get e) h1 h
        unfold processElement
        split
        · exact rem
        · split
          · exact rem
          · rename_i h2
            rcases hr.2 with h3 | h3
            · exact absurd (takes_identifiable h3 ht) h2
            · have h4 : bareBody b = true := by unfold onMethod at h3; rw [hb] at h3; exact h3
              rw [h, bare_out h4 h]

end

end Verif.Lemmas
