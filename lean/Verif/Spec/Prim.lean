import Verif.Model.Prim
/-!
# Specification vocabulary for numbers, references and labels

Texts of numbers are built from their parts, and the value is written as a sum of powers — nothing here uses the
regular expressions or the conversion of the model.
-/
namespace Verif.Spec
open Verif.Model

/-- the number denoted by digits in a base: `Σ dᵢ·bⁱ` with the last digit at `i = 0` -/
def number (b : Nat) (ds : List Nat) : Nat := (ds.reverse.zipIdx.map fun (d, i) => d * b ^ i).sum

/-- digit characters and their values -/
def Digits (py : Py) (s : List Char) (ds : List Nat) : Prop := s.map py.digit = ds.map some

/-- the hexadecimal digits, either case -/
def hexTable : List (Char × Nat) :=
  [('0', 0), ('1', 1), ('2', 2), ('3', 3), ('4', 4), ('5', 5), ('6', 6), ('7', 7), ('8', 8), ('9', 9),
   ('a', 10), ('b', 11), ('c', 12), ('d', 13), ('e', 14), ('f', 15),
   ('A', 10), ('B', 11), ('C', 12), ('D', 13), ('E', 14), ('F', 15)]

/-- hexadecimal digit characters and their values -/
def HexDigits (s : List Char) (ds : List Nat) : Prop := s.map (fun c => hexTable.lookup c) = ds.map some

inductive Sign
  | none | plus | minus
  deriving DecidableEq

def Sign.text : Sign → List Char
  | .none => []
  | .plus => ['+']
  | .minus => ['-']

def Sign.apply (s : Sign) (q : Rat) : Rat := if s = .minus then -q else q

/-- a decimal number `±iii.fffe±xxx`, in parts: characters of the digits and whether there is a point -/
structure Dec where
  sign : Sign
  ip : List Char
  point : Bool
  fp : List Char
  exp : Option (Char × Sign × List Char)

/-- the text of an exponent `e±xxx` -/
def expText : Option (Char × Sign × List Char) → List Char
  | none => []
  | some (e, s, x) => e :: (s.text ++ x)

def Dec.text (d : Dec) : List Char :=
  d.sign.text ++ d.ip ++ (if d.point then '.' :: d.fp else []) ++ expText d.exp

/-- the digits `ips fps xs` are those of `d`, and `d` is well formed -/
structure Dec.Wf (py : Py) (d : Dec) (ips fps : List Nat) (xs : List Nat) : Prop where
  ip : Digits py d.ip ips
  fp : Digits py d.fp fps
  noPoint : d.point = false → fps = []
  nonempty : ips ≠ [] ∨ fps ≠ []
  exp : match d.exp with | none => xs = [] | some (e, _, x) => (e = 'e' ∨ e = 'E') ∧ Digits py x xs ∧ xs ≠ []

def Dec.value (d : Dec) (ips fps xs : List Nat) : Rat :=
  d.sign.apply (number 10 ips + number 10 fps / 10 ^ fps.length) *
    (match d.exp with
      | some (_, .minus, _) => 1 / 10 ^ number 10 xs
      | some _ => 10 ^ number 10 xs
      | none => 1)

/-- an integer as Python's `int` reads it: digits, single underscores between them -/
inductive Underscored (py : Py) : List Char → List Nat → Prop
  | one {c d} : py.digit c = some d → Underscored py [c] [d]
  | cons {c d s ds} : py.digit c = some d → Underscored py s ds → Underscored py (c :: s) (d :: ds)
  | under {c d s ds} : py.digit c = some d → Underscored py s ds → Underscored py (c :: '_' :: s) (d :: ds)

/-- blanks around a signed integer -/
structure LooseInt (py : Py) (s : List Char) (sign : Sign) (ds : List Nat) : Prop where
  parts : ∃ pre body post, s = pre ++ sign.text ++ body ++ post ∧ (∀ c ∈ pre, py.space c = true)
    ∧ (∀ c ∈ post, py.space c = true) ∧ Underscored py body ds

/-- the documented numeric formats (`true`, `false`, hexadecimal, binary, decimal) -/
inductive Documented (py : Py) : List Char → Prop
  | tru : Documented py "true".toList
  | fls : Documented py "false".toList
  | hex {x s ds} : (x = 'x' ∨ x = 'X') → HexDigits s ds → s ≠ [] → Documented py ('0' :: x :: s)
  | bin {b s ds} : (b = 'b' ∨ b = 'B') → Digits py s ds → (∀ d ∈ ds, d < 2) → s ≠ [] → Documented py ('0' :: b :: s)
  | dec {d ips fps xs} : Dec.Wf py d ips fps xs → Documented py d.text

/-- the texts the code really accepts -/
inductive Accepted (py : Py) : List Char → Prop
  | doc {s} : Documented py s → Accepted py s
  /-- anything after a hexadecimal number -/
  | hexJunk {x s ds rest} : (x = 'x' ∨ x = 'X') → HexDigits s ds → s ≠ [] → Accepted py ('0' :: x :: s ++ rest)
  /-- anything that does not start with a digit after a binary number -/
  | binJunk {b s ds rest} : (b = 'b' ∨ b = 'B') → Digits py s ds → (∀ d ∈ ds, d < 2) → s ≠ [] →
      (∀ c r, rest = c :: r → py.digit c = none) → Accepted py ('0' :: b :: s ++ rest)
  | newline {d ips fps xs} : Dec.Wf py d ips fps xs → Accepted py (d.text ++ ['\n'])
  | loose {s sign ds} : LooseInt py s sign ds → Accepted py s

/-- ASCII lower case -/
def asciiLower (c : Char) : Char := if 65 ≤ c.toNat ∧ c.toNat ≤ 90 then Char.ofNat (c.toNat + 32) else c

/-- `s` is the word `w` in any mixture of upper and lower case -/
def CaseVariant (w : String) (s : List Char) : Prop := s.map asciiLower = w.toList

/-- the texts of truth values: the words in any letter case, and integers -/
inductive BoolText (py : Py) : List Char → Bool → Prop
  | tru {s} : CaseVariant "true" s → BoolText py s true
  | fls {s} : CaseVariant "false" s → BoolText py s false
  | int {s sg ds} : LooseInt py s sg ds → BoolText py s (number 10 ds != 0)

/-- no blank at the start or at the end -/
def Trimmed (py : Py) (s : List Char) : Prop :=
  (∀ c r, s = c :: r → py.space c = false) ∧ (∀ r c, s = r ++ [c] → py.space c = false)

/-- word characters: the segments of a plain absolute path -/
def WordSeg (py : Py) (s : List Char) : Prop := s ≠ [] ∧ ∀ c ∈ s, py.word c = true

/-- `/a/b/c` -/
def pathText : List (List Char) → List Char
  | [] => []
  | s :: r => '/' :: s ++ pathText r

/-- digits, a dot, digits, a dot, at least one digit -/
def MajorMinorPatch (s : List Char) : Prop :=
  ∃ a b c rest, s = a ++ '.' :: b ++ '.' :: c :: rest ∧ a ≠ [] ∧ b ≠ [] ∧ (∀ x ∈ a, asciiDigit x = true)
    ∧ (∀ x ∈ b, asciiDigit x = true) ∧ asciiDigit c = true

end Verif.Spec
