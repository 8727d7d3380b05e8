import Verif.Gen.Witness
import Verif.Props.Codec
/-!
# C33, C34, C37: what is lost by saving

None of the conditions of `Spec/Defects.lean` can be dropped.
-/
namespace Verif.Props
open Verif Verif.Model Verif.Spec Verif.Lemmas

/-! ## Counting what is in an object -/

/-- the size of a text -/
def len (o : Option Str) : Nat := match o with
  | none => 0
  | some s => s.length + 1

/-- the size of a value -/
def weigh {F : Type} : Scalar F → Nat
  | .lit t u v => 1 + len t + len u + v.length
  | .num _ t u sl o => 1 + len t + len u + len sl + len o.text
  | .bool t u _ => 1 + len t + len u
  | .limit t u iv v => 1 + len t + len u + len iv + v.length
  | .ref b d v => 1 + len b + len d + v.length
  | .str v => 1 + v.length

mutual
/-- the size of an object -/
def size {F : Type} : MObj F → Nat
  | .scal s => weigh s
  | .mk _ fs => sizeF fs + 1
def sizeF {F : Type} : List ((Key × Bool) × List (MObj F)) → Nat
  | [] => 0
  | (_, vs) :: fs => sizeL vs + sizeF fs
def sizeL {F : Type} : List (MObj F) → Nat
  | [] => 0
  | v :: vs => size v + sizeL vs
end

theorem sizeL_perm {F : Type} {l r : List (MObj F)} (h : l.Perm r) : sizeL l = sizeL r := by
  induction h with
  | nil => rfl
  | cons x _ ih => simp only [sizeL, ih]
  | swap x y l => simp only [sizeL]; omega
  | trans _ _ h1 h2 => exact h1.trans h2

mutual
theorem same_size {F : Type} {S : Key → Key → Bool} : ∀ {o o' : MObj F}, Same S o o' → size o = size o'
  | _, _, .scal _ => rfl
  | _, _, .mk c fs fs' h => by simp only [size, same_sizeF h]
theorem same_sizeF {F : Type} {S : Key → Key → Bool} : ∀ {c : Key} {fs fs' : List ((Key × Bool) × List (MObj F))}, SameFields S c fs fs' →
    sizeF fs = sizeF fs'
  | _, _, _, .nil _ => rfl
  | _, _, _, .same c k vs us fs fs' h1 h2 => by simp only [sizeF, same_sizeL h1, same_sizeF h2]
  | _, _, _, .sorted c k vs us fs fs' _ h1 h2 => by
    simp only [sizeF, same_sizeL h1, same_sizeF h2]
    congr 1
    exact (sizeL_perm (sortBy_perm _ _)).symm
theorem same_sizeL {F : Type} {S : Key → Key → Bool} : ∀ {l r : List (MObj F)}, SameAll S l r → sizeL l = sizeL r
  | _, _, .nil => rfl
  | _, _, .cons v u vs us h1 h2 => by simp only [sizeL, same_size h1, same_sizeL h2]
end

/-! ## The conditions that are not met -/

/-- sufficient for `¬ Need.ok` -/
def failsB {F : Type} (strict : Bool) : Need → MObj F → Bool
  | .empty f, o => !(o.get f).isEmpty
  | .never f c, o => (o.get f).any fun v => v.cls == c
  | .oneOf fs, o => fs.all fun f => (o.get f).isEmpty
  | .notBoth f g, o => !(o.get f).isEmpty && !(o.get g).isEmpty
  | .single f, o => Nat.blt 1 (o.get f).length
  | .along f g, o => !(o.get f).isEmpty && (o.get g).isEmpty
  | .same f g, o => (o.get f).length != (o.get g).length
  | .full f, o => (o.get f).any fun v => match v with
    | .scal (.num _ _ _ _ p) => p.text.isNone
    | _ => false
  | .plain f, o => (o.get f).any fun v => match v with
    | .scal (.lit t u _) => t.isSome || u.isSome
    | _ => false
  | .inside f n, o => (o.get f).any fun v => failsB strict n v
  | .strict n, o => strict && failsB strict n o

theorem failsB_sound {F : Type} {strict : Bool} {n : Need} {o : MObj F} (h : failsB strict n o = true) : ¬ n.ok strict o := by
  induction n generalizing o with
  | empty f => simpa [failsB, Need.ok] using h
  | never f c =>
    obtain ⟨v, hv, hc⟩ := List.any_eq_true.1 h
    exact fun hn => hn v hv (by simpa using hc)
  | oneOf fs =>
    rintro ⟨f, hf, hne⟩
    exact hne (by simpa using List.all_eq_true.1 h f hf)
  | notBoth f g =>
    simp only [failsB, Bool.and_eq_true, Bool.not_eq_true', List.isEmpty_eq_false_iff] at h
    exact fun hn => hn.elim h.1 h.2
  | single f =>
    have := Nat.le_of_ble_eq_true h
    intro hn
    simp only [Need.ok] at hn
    omega
  | along f g =>
    simp only [failsB, Bool.and_eq_true, Bool.not_eq_true', List.isEmpty_eq_false_iff, List.isEmpty_iff] at h
    exact fun hn => hn h.1 h.2
  | same f g =>
    intro hn
    simp only [Need.ok] at hn
    simp [failsB, hn] at h
  | full f =>
    obtain ⟨v, hv, hc⟩ := List.any_eq_true.1 h
    intro hn
    have := hn v hv
    split at hc
    · obtain ⟨s, _, hs⟩ := this
      rw [hs] at hc; cases hc
    · cases hc
  | plain f =>
    obtain ⟨v, hv, hc⟩ := List.any_eq_true.1 h
    intro hn
    have := hn v hv
    split at hc
    · obtain ⟨h1, h2⟩ := this
      simp [h1, h2] at hc
    · cases hc
  | inside f n ih =>
    obtain ⟨v, hv, hc⟩ := List.any_eq_true.1 h
    exact fun hn => ih hc (hn v hv)
  | strict n ih =>
    simp only [failsB, Bool.and_eq_true] at h
    exact fun hn => ih h.2 (hn h.1)

/-! ## Elements that went through a file -/

mutual
/-- pretty printing puts a line break in every element with children -/
def broken : Xml → Xml
  | .node t a s [] => .node t a s []
  | .node t a s (x :: l) => .node t a (s ++ ['\n']) (broken x :: brokens l)
def brokens : List Xml → List Xml
  | [] => []
  | x :: l => broken x :: brokens l
end

mutual
theorem reload_broken : ∀ x : Xml, Reload x (broken x)
  | .node t a s [] => by rw [broken]; exact .leaf t a s
  | .node t a s (x :: l) => by rw [broken]; exact .node t a s _ x _ l _ (reload_broken x) (reload_brokens l)
theorem reload_brokens : ∀ l : List Xml, ReloadAll l (brokens l)
  | [] => by rw [brokens]; exact .nil
  | x :: l => by rw [brokens]; exact .cons x _ l _ (reload_broken x) (reload_brokens l)
end

/-! ## Every condition is needed -/

/-- the conditions without one of them -/
def without (e : Key × Need) (c : Key) : List Need := (defects.filter (· ≠ e)).filterMap fun d => if d.1 = c then some d.2 else none

/-- the check of an element (`w.2`) for an entry of the list of defects -/
def shows (py : Py) (repr : py.F → Str) (n : Nat) (e : Key × Need) (w : Pair × Xml) : Bool :=
  (pairs w.1.rk).contains w.1 && w.1.ex.isEmpty && w.2.tag == w.1.tag &&
  match readObj py true readers n w.1.rk w.2 with
  | .error _ => false
  | .ok o => o.cls == e.1 && failsB true e.2 o && cleanB (without e) true o &&
    match writeObj py repr true writers n w.1.wk o with
    | .error _ => true
    | .ok out => match out.kids with
      | [y] => match readObj py true readers n w.1.rk (broken y) with
        | .error _ => true
        | .ok o' => size o != size o'
      | _ => true

theorem shows_all : (defects.zip Gen.witnesses).all (fun e => shows Py.demo (fun _ => []) 12 e.1 e.2) = true := by decide +kernel

theorem shows_length : defects.length = Gen.witnesses.length := by decide

/-- **C33 fails** without any one of the conditions of `Spec/Defects.lean`: for each of them there is an element that can be
read in strict mode, such that the object made of it meets all other conditions, and that is not saved and loaded
without loss: the writer raises, or does not write one element, or what is read from the saved file is not the same. -/
theorem C33_broken : ∀ e ∈ defects, ∃ (p : Pair) (x : Xml) (n : Nat) (o : MObj Py.demo.F), p ∈ pairs p.rk ∧ p.ex = [] ∧ x.tag = p.tag ∧
    readObj Py.demo true readers n p.rk x = .ok o ∧ o.cls = e.1 ∧ ¬ e.2.ok true o ∧ Clean (without e) true o ∧
    ¬ ∃ y o', writeObj Py.demo (fun _ => []) true writers n p.wk o = .ok { kids := [y] } ∧
      (∀ y', Reload y y' → readObj Py.demo true readers n p.rk y' = .ok o') ∧ Same reordered o o' := by
  intro e he
  obtain ⟨w, hw⟩ : ∃ w, (e, w) ∈ defects.zip Gen.witnesses := by
    obtain ⟨i, hi, rfl⟩ := List.getElem_of_mem he
    have hi' : i < Gen.witnesses.length := shows_length ▸ hi
    refine ⟨Gen.witnesses[i], ?_⟩
    rw [← List.getElem_zip (h := by simp [hi, hi'])]
    exact List.getElem_mem _
  have h := List.all_eq_true.1 shows_all _ hw
  simp only [shows, Bool.and_eq_true, List.contains_iff_mem, beq_iff_eq, List.isEmpty_iff] at h
  obtain ⟨⟨⟨h1, h2⟩, h3⟩, h⟩ := h
  split at h
  · cases h
  rename_i o ho
  simp only [Bool.and_eq_true, beq_iff_eq] at h
  obtain ⟨⟨⟨h4, h5⟩, h6⟩, h⟩ := h
  refine ⟨w.1, w.2, 12, o, h1, h2, h3, ho, h4, failsB_sound h5, cleanB_sound o h6, ?_⟩
  rintro ⟨y, o', hy, hr, hs⟩
  simp only [hy, hr _ (reload_broken y), same_size hs, bne_self_eq_false] at h
  cases h

end Verif.Props
