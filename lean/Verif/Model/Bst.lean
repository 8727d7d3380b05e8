import Verif.Model.Key
/-!
# Search trees over keys

The generated tables are search trees, so that the kernel finds an entry with few comparisons.
-/
namespace Verif

inductive Bst (α : Type) where
  | nil
  | node (l : Bst α) (k : Key) (v : α) (r : Bst α)

namespace Bst
variable {α β : Type}

def find? : Bst α → Key → Option α
  | nil, _ => none
  | node l k v r, x => if x = k then some v else if Nat.blt x k then l.find? x else r.find? x

def toList : Bst α → List (Key × α)
  | nil => []
  | node l k v r => l.toList ++ (k, v) :: r.toList

/-- check on all entries -/
def all (p : Key → α → Bool) : Bst α → Bool
  | nil => true
  | node l k v r => l.all p && p k v && r.all p

theorem all_toList (p : Key → α → Bool) (t : Bst α) : t.all p = true ↔ ∀ e ∈ t.toList, p e.1 e.2 = true := by
  induction t with
  | nil => simp [all, toList]
  | node l k v r ihl ihr =>
    simp only [all, toList, Bool.and_eq_true, ihl, ihr, List.mem_append, List.mem_cons]
    constructor
    · rintro ⟨⟨h1, h2⟩, h3⟩ e (he | rfl | he)
      · exact h1 e he
      · exact h2
      · exact h3 e he
    · intro h
      exact ⟨⟨fun e he => h e (.inl he), h (k, v) (.inr (.inl rfl))⟩, fun e he => h e (.inr (.inr he))⟩

theorem find?_mem {t : Bst α} {k : Key} {v : α} (h : t.find? k = some v) : (k, v) ∈ t.toList := by
  induction t with
  | nil => cases h
  | node l k' v' r ihl ihr =>
    simp only [find?] at h
    simp only [toList, List.mem_append, List.mem_cons]
    split at h
    · rename_i e; cases h; subst e; exact .inr (.inl rfl)
    · split at h
      · exact .inl (ihl h)
      · exact .inr (.inr (ihr h))

end Bst
end Verif
