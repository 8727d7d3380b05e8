import Verif.Model.Plain
import Verif.Spec.Rename
/-!
# Lists of named objects
-/
namespace Verif.Spec.Plain
open Verif.Model.Plain

/-- the first object of the list that has the name now -/
def FirstNamed (s : Named) (n : Option String) (q : Nat) : Prop :=
  ∃ before after, s.items = before ++ q :: after ∧ s.names q = n ∧ ∀ x ∈ before, s.names x ≠ n

/-- What a list can go through: calls of the two create methods, which make new objects, and renamings to names that no object of the list has. -/
inductive Tidy : Named → Prop
  | new (names : Nat → Option String) : Tidy ⟨names, []⟩
  | query {s : Named} (n : Option String) (f : Nat) : Tidy s → f ∉ s.items → Tidy (s.createQuery n f).1
  | pinGroup {s : Named} (n : Option String) (f : Nat) : Tidy s → f ∉ s.items → Tidy (s.createPinGroup n f).1
  | rename {s : Named} (i : Nat) (n : Option String) : Tidy s → (∀ x ∈ s.items, s.names x ≠ n) → Tidy (s.rename i n)

end Verif.Spec.Plain
