/-!
# Python's `re` matching: greedy, ordered backtracking

The regular expressions of the code base are written with these combinators.  A matcher takes the rest of the
text and what to do with what follows it; trying the alternatives in order and giving back the last ones
first is exactly the behaviour of `re.match`.
-/
namespace Verif.Model.Re

/-- a matcher: rest of the text → continuation → result -/
abbrev M := List Char → {α : Type} → (List Char → Option α) → Option α

/-- one character of a class -/
def chr (p : Char → Bool) : M := fun s _ k =>
  match s with
  | [] => none
  | c :: s => if p c then k s else none

/-- a literal character -/
def lit (x : Char) : M := chr (· == x)

/-- `p*`, greedy -/
def starK (p : Char → Bool) {α : Type} : List Char → (List Char → Option α) → Option α
  | [], k => k []
  | c :: s, k => if p c then (starK p s k).or (k (c :: s)) else k (c :: s)

def star (p : Char → Bool) : M := fun s _ k => starK p s k

def seq (a b : M) : M := fun s _ k => a s fun s' => b s' k

/-- `p+`, greedy -/
def plus (p : Char → Bool) : M := seq (chr p) (star p)

/-- `r?`, greedy -/
def opt (r : M) : M := fun s _ k => (r s k).or (k s)

def alt (a b : M) : M := fun s _ k => (a s k).or (b s k)

/-- `$`: at the end, or before a final newline -/
def eol : M := fun s _ k => if s = [] ∨ s = ['\n'] then k s else none

/-- `(r)`: the text matched by `r` is handed on -/
def cap (r : M) (s : List Char) {α : Type} (k : List Char → List Char → Option α) : Option α :=
  r s fun s' => k (s.take (s.length - s'.length)) s'

/-- `re.match(r, s)` is not `None` -/
def test (r : M) (s : List Char) : Bool := (r s fun _ => some ()).isSome

infixr:60 " ⬝ " => seq

end Verif.Model.Re
