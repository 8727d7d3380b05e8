import Verif.Spec.Document
import Verif.Lemmas.Document
/-!
# What the writer methods for packages write
-/
namespace Verif.Lemmas
open Verif Verif.Model Verif.Spec

section
variable {py : Py} {repr : py.F → Str} {strict : Bool} {wr : Key → MObj py.F → Except PyErr Out}

theorem seqE_ok {a b : Except PyErr Out} {r : Out} (h : seqE a b = .ok r) : ∃ x y, a = .ok x ∧ b = .ok y ∧ r = x.app y := by
  unfold seqE at h
  split at h
  · cases h
  · rename_i x
    split at h
    · cases h
    · rename_i y
      cases h
      exact ⟨x, y, rfl, rfl, rfl⟩

theorem map_ok {α β ε : Type} {a : Except ε α} {f : α → β} {r : β} (h : a.map f = .ok r) : ∃ x, a = .ok x ∧ r = f x := by
  cases a with
  | error e => cases h
  | ok x => cases h; exact ⟨x, rfl, rfl⟩

theorem app_assoc_kids (a b : Out) : (a.app b).kids = a.kids ++ b.kids := rfl

/-- the elements written by one method followed by another -/
theorem writeB_app {o : MObj py.F} {V W : WB} {r : Out} (h : writeB py repr strict wr o (V.app W) = .ok r) :
    ∃ a b, writeB py repr strict wr o V = .ok a ∧ writeB py repr strict wr o W = .ok b ∧ r.kids = a.kids ++ b.kids := by
  induction V generalizing r with
  | nil => exact ⟨{}, r, rfl, h, rfl⟩
  | attr n k f rest ih | text k f rest ih | prim t k f rest ih | oprim u t k f rest ih | fail e a rest ih | each f v s c ot rest ih =>
    simp only [WB.app, writeB] at h ⊢
    obtain ⟨x, y, hx, hy, rfl⟩ := seqE_ok h
    obtain ⟨a, b, ha, hb, hk⟩ := ih hy
    refine ⟨x.app a, b, ?_, hb, ?_⟩
    · simp only [hx, ha, seqE]
    · simp only [Out.app, hk, List.append_assoc]
  | wrap c t b rest _ ih | «when» c b rest _ ih =>
    simp only [WB.app, writeB] at h ⊢
    obtain ⟨x, y, hx, hy, rfl⟩ := seqE_ok h
    obtain ⟨a, b, ha, hb, hk⟩ := ih hy
    refine ⟨x.app a, b, ?_, hb, ?_⟩
    · rw [hx, ha]; rfl
    · simp only [Out.app, hk, List.append_assoc]

/-- the short name comes first -/
def firstName : WB → Bool
  | .attr _ _ _ r => firstName r
  | .prim t k f _ => t == k!"SHORT-NAME" && k == .raw && f == k!"short_name"
  | _ => false

theorem firstName_sound {o : MObj py.F} {b : WB} (hb : firstName b = true) {v : Str} (ho : o.get k!"short_name" = [.scal (.str v)])
    {r : Out} (h : writeB py repr strict wr o b = .ok r) (t : Key) : shownName (r.node t) = some v := by
  induction b generalizing r with
  | attr n k f rest ih =>
    simp only [writeB] at h
    obtain ⟨x, y, hx, hy, rfl⟩ := seqE_ok h
    have := ih hb hy
    have hk : x.kids = [] := by
      unfold writeAttrOf at hx
      split at hx
      · split at hx <;> cases hx <;> rfl
      · cases hx
      · cases hx; rfl
    simpa only [shownName, Out.node, Xml.kids, Out.app, hk, List.nil_append] using this
  | prim t' k f rest _ =>
    simp only [firstName, Bool.and_eq_true, beq_iff_eq] at hb
    obtain ⟨⟨rfl, rfl⟩, rfl⟩ := hb
    simp only [writeB, ho, mapE, writePrim] at h
    obtain ⟨x, y, hx, hy, rfl⟩ := seqE_ok h
    cases hx
    rfl
  | _ => cases hb

/-- the writer method writes one element with this tag that shows the short name of the object -/
def oneElement (t : Key) : WB → Bool
  | .wrap .always t' b .nil => t' == t && firstName b
  | _ => false

theorem oneElement_sound {o : MObj py.F} {W : WB} {t : Key} (hW : oneElement t W = true) {v : Str}
    (ho : o.get k!"short_name" = [.scal (.str v)]) {r : Out} (h : writeB py repr strict wr o W = .ok r) :
    ∃ y, r = { kids := [y] } ∧ y.tag = t ∧ shownName y = some v := by
  unfold oneElement at hW
  split at hW
  · simp only [Bool.and_eq_true, beq_iff_eq] at hW
    obtain ⟨rfl, hf⟩ := hW
    simp only [writeB, Cond.holds, if_true] at h
    obtain ⟨x, y, hx, hy, rfl⟩ := seqE_ok h
    obtain ⟨z, hz, rfl⟩ := map_ok hx
    cases hy
    exact ⟨_, rfl, rfl, firstName_sound hf ho hz _⟩
  · cases hW

theorem outs_each {l : List Out} {ys : List Xml} (h : List.Forall₂ (fun o y => o = { kids := [y] }) l ys) : outs l = { kids := ys } := by
  induction h with
  | nil => rfl
  | cons h1 _ ih => subst h1; rw [outs, ih]; rfl

theorem mapE_forall₂ {α β γ ε : Type} {f : α → Except ε β} {R : α → γ → Prop} {Q : β → γ → Prop} {l : List α} {r : List β}
    (h : mapE f l = .ok r) (hR : ∀ x ∈ l, ∀ y, f x = .ok y → ∃ z, Q y z ∧ R x z) : ∃ zs, List.Forall₂ Q r zs ∧ List.Forall₂ R l zs := by
  have hall := mapE_ok h
  clear h
  induction hall with
  | nil => exact ⟨[], .nil, .nil⟩
  | cons h1 _ ih =>
    obtain ⟨zs, h2, h3⟩ := ih fun x hx => hR x (by simp [hx])
    obtain ⟨z, h4, h5⟩ := hR _ (by simp) _ h1
    exact ⟨z :: zs, .cons h4 h2, .cons h5 h3⟩

theorem forall₂_map_eq {α β γ : Type} {f : α → γ} {g : β → γ} {l : List α} {r : List β} (h : List.Forall₂ (fun x y => g y = f x) l r) :
    r.map g = l.map f := by
  induction h with
  | nil => rfl
  | cons h1 _ ih => simp only [List.map_cons, h1, ih]

end
end Verif.Lemmas
