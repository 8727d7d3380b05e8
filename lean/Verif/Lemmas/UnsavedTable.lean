import Verif.Lemmas.Unsaved
import Verif.Lemmas.Access
import Verif.Gen.Unsaved
/-!
# The table of the attributes that are not saved
-/
namespace Verif.Lemmas
open Verif Verif.Model Verif.Spec

/-! ## The table -/

theorem dotted (f : Nat) : (f * 256 + 46) % 256 = 46 ∧ (f * 256 + 46) / 256 = f ∧ f * 256 + 46 ≠ 0 := by omega


def concernsB (f g : Key) : Bool := g == f || (List.range 80).any fun n => g / 256 ^ n == f * 256 + 46

theorem concernsB_sound {f g : Key} (h : concernsB f g = true) : Concerns f g := by
  unfold concernsB at h
  rw [Bool.or_eq_true, beq_iff_eq, List.any_eq_true] at h
  rcases h with h | ⟨n, _, h⟩
  · exact .inl h
  · exact .inr ⟨n, by simpa using h⟩

/-- the attributes that begin the name of an attribute: `f` for `f.x` -/
def headsGo : Nat → Key → List Key
  | 0, _ => []
  | n + 1, g => if g = 0 then [] else if g % 256 = 46 then g / 256 :: headsGo n (g / 256) else headsGo n (g / 256)

/-- the attribute itself, and those that begin its name -/
def heads (g : Key) : List Key := g :: headsGo 80 g

theorem mem_headsGo {f : Nat} : ∀ (m n : Nat) (g : Nat), g < 256 ^ m → g / 256 ^ n = f * 256 + 46 → f ∈ headsGo m g := by
  intro m
  induction m with
  | zero =>
    intro n g hg h
    have : g = 0 := by omega
    rw [this, Nat.zero_div] at h
    exact absurd h.symm (dotted f).2.2
  | succ m ih =>
    intro n g hg h
    unfold headsGo
    split
    next h0 =>
      rw [h0, Nat.zero_div] at h
      exact absurd h.symm (dotted f).2.2
    next =>
      cases n with
      | zero =>
        rw [Nat.pow_zero, Nat.div_one] at h
        rw [if_pos (by rw [h]; exact (dotted f).1), h, (dotted f).2.1]
        exact List.mem_cons_self
      | succ n =>
        have hi : f ∈ headsGo m (g / 256) := by
          refine ih n (g / 256) ?_ ?_
          · rw [Nat.pow_succ] at hg; exact Nat.div_lt_of_lt_mul (by rw [Nat.mul_comm]; exact hg)
          · rw [Nat.div_div_eq_div_mul, Nat.mul_comm, ← Nat.pow_succ]; exact h
        split
        · exact List.mem_cons_of_mem _ hi
        · exact hi

theorem mem_heads {f g : Key} (hg : g < 256 ^ 80) (h : Concerns f g) : f ∈ heads g := by
  rcases h with h | ⟨n, hn⟩
  · exact h ▸ List.mem_cons_self
  · exact List.mem_cons_of_mem _ (mem_headsGo 80 n g hg hn)

/-- what a method sets -/
def accField : Acc → Option Key
  | .set f _ => some f
  | .add f _ _ => some f
  | _ => none

/-- the check of `C86_saved_partial` for one method of the reader -/
def savedB (k : Key) (b : RBody) : Bool := (methodsOf b.cls).all fun e => match accField e.2 with
  | none => true
  | some f => b.slots.any (fun s => s.field == f) || (unsaved k).contains f || b.slots.any fun s => concernsB f s.field

theorem savedB_all : (Gen.readTable.all savedB) = true := by decide +kernel

theorem savedB_load : savedB k!"load" loadBody = true := by decide +kernel

/-- the check of `C86_unsaved` for one method of the reader -/
def unsavedB (k : Key) (fs : List Key) : Bool := match readers k with
  | none => false
  | some b => (fs.all fun f => f != k!"elements" && (methodsOf b.cls).any (fun e => accField e.2 == some f && resolve b.cls e.1 == some e.2)) &&
      b.slots.all fun s => decide (s.field < 256 ^ 80) && (heads s.field).all fun h => !fs.contains h

theorem unsavedB_all : (Gen.unsavedTable.all unsavedB) = true := by decide +kernel

theorem settable_of {c m f : Key} {acc : Acc} (h : resolve c m = some acc) (hf : accField acc = some f) : Settable c f := by
  cases acc with
  | set g ign => cases hf; exact ⟨m, ign, .inl h⟩
  | add g ign dd => cases hf; exact ⟨m, ign, .inr ⟨dd, h⟩⟩
  | get g => cases hf
  | other => cases hf

theorem unsaved_cases {k f : Key} (h : f ∈ unsaved k) : ∃ b, readers k = some b ∧ f ≠ k!"elements" ∧ Settable b.cls f ∧
    ∀ s ∈ b.slots, ¬ Concerns f s.field := by
  unfold unsaved at h
  cases hk : Gen.unsavedTable.find? k with
  | none => rw [hk] at h; cases h
  | some fs =>
    rw [hk] at h
    have hB := (Bst.all_toList _ _).1 unsavedB_all _ (Bst.find?_mem hk)
    unfold unsavedB at hB
    split at hB
    · cases hB
    next b hb =>
      rw [Bool.and_eq_true] at hB
      have h1 := List.all_eq_true.1 hB.1 f h
      simp only [Bool.and_eq_true, bne_iff_ne, ne_eq, List.any_eq_true, beq_iff_eq] at h1
      obtain ⟨h1, e, _, h2, h3⟩ := h1
      refine ⟨b, hb, h1, settable_of h3 h2, fun s hs hc => ?_⟩
      have h4 := List.all_eq_true.1 hB.2 s hs
      rw [Bool.and_eq_true, decide_eq_true_eq] at h4
      have h4 := List.all_eq_true.1 h4.2 f (mem_heads h4.1 hc)
      rw [Bool.not_eq_true', List.contains_eq_mem, decide_eq_false_iff_not] at h4
      exact h4 h

/-- the check of `C86_unwritten` for the objects a writer method hands over -/
def quietB (b : WB) : Bool := (branches b).all fun e => match writers e.body with
  | none => true
  | some b' => (uses b').all fun g => decide (g < 256 ^ 80) && (heads g).all fun f => (quiet f).all fun c => !e.takes c

theorem quietB_all : (Gen.writeTable.all fun _ b => quietB b) = true := by decide +kernel

theorem quietB_save : quietB saveBody = true := by decide +kernel

theorem quiet_root : ((uses saveBody).all fun g => decide (g < 256 ^ 80) && (heads g).all fun f => (quiet f).isEmpty) = true ∧
    quiet k!"short_name" = [] := by decide +kernel

/-- the check of `C86_either` for one method of the reader -/
def eitherB (k : Key) (fs : List Key) : Bool := match readers k with
  | none => false
  | some b => fs.all fun f => (quiet f).contains b.cls || ((Gen.writtenOnly.find? b.cls).getD []).contains f

theorem eitherB_all : (Gen.unsavedTable.all eitherB) = true := by decide +kernel

end Verif.Lemmas
