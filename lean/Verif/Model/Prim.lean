import Verif.Model.Py
import Verif.Model.Regex
/-!
# Primitive types

`GenericStructure/GeneralTemplateClasses/PrimitiveTypes.py`.
Simplification: Python's limit of 4300 digits for `int(str)` is ignored.
-/
namespace Verif.Model
open Re

/-- a Python number -/
inductive Num (F : Type)
  | int (i : Int)
  | flt (f : F)
  deriving DecidableEq, Repr

/-- exact value (`none`: infinite) -/
def Num.toRat (py : Py) : Num py.F → Option Rat
  | .int i => some i
  | .flt f => py.toRat f

/-- `[0-9a-f]` with `re.I` -/
def isHex (c : Char) : Bool := asciiDigit c || (97 ≤ c.toNat && c.toNat ≤ 102) || (65 ≤ c.toNat && c.toNat ≤ 70)

/-- the value of a hexadecimal digit -/
def hexVal (c : Char) : Nat :=
  if asciiDigit c then c.toNat - 48 else if 97 ≤ c.toNat then c.toNat - 87 else c.toNat - 55

/-- `\d` -/
def Py.isDigit (py : Py) (c : Char) : Bool := (py.digit c).isSome

/-- `re.match(r"0x([0-9a-f]+)", value, re.I)` -/
def reHex (s : List Char) : Option (List Char) :=
  (lit '0' ⬝ chr fun c => c == 'x' || c == 'X') s fun s => cap (plus isHex) s fun g _ => some g

/-- `re.match(r"0b([\d]+)", value, re.I)` -/
def reBin (py : Py) (s : List Char) : Option (List Char) :=
  (lit '0' ⬝ chr fun c => c == 'b' || c == 'B') s fun s => cap (plus py.isDigit) s fun g _ => some g

/-- `[-+]` -/
def isSign (c : Char) : Bool := c == '-' || c == '+'

/-- `^[-+]?(\d+(\.\d*)?|\.\d+)([eE][-+]?\d+)?$` -/
def reDec (py : Py) : M :=
  opt (chr isSign)
  ⬝ alt (plus py.isDigit ⬝ opt (lit '.' ⬝ star py.isDigit)) (lit '.' ⬝ plus py.isDigit)
  ⬝ opt ((chr fun c => c == 'e' || c == 'E') ⬝ opt (chr isSign) ⬝ plus py.isDigit)
  ⬝ eol

/-- `str.strip()` -/
def Py.strip (py : Py) (s : List Char) : List Char :=
  ((s.dropWhile py.space).reverse.dropWhile py.space).reverse

/-- digits to a number, most significant first; `none` for a character that is not a digit of the base -/
def horner (base : Nat) (dig : Char → Option Nat) : List Char → Nat → Option Nat
  | [], acc => some acc
  | c :: s, acc =>
    match dig c with
    | some d => if d < base then horner base dig s (acc * base + d) else none
    | none => none

/-- an optional sign: (is negative, rest) -/
def takeSign : List Char → Bool × List Char
  | '-' :: s => (true, s)
  | '+' :: s => (false, s)
  | s => (false, s)

/-- digits with single underscores between them (`int` literals): the digits -/
def underscored (py : Py) : List Char → Option (List Char)
  | [] => none
  | [c] => if py.isDigit c then some [c] else none
  | c :: '_' :: s => if py.isDigit c then (underscored py s).map (c :: ·) else none
  | c :: s => if py.isDigit c then (underscored py s).map (c :: ·) else none

/-- Python `int(s)` -/
def pyInt (py : Py) (s : List Char) : Option Int :=
  let (neg, ds) := takeSign (py.strip s)
  match underscored py ds with
  | none => none
  | some ds =>
    match horner 10 py.digit ds 0 with
    | none => none
    | some n => some (if neg then -(n : Int) else n)

/-- the digits after an optional decimal point: (digits, rest) -/
def takeFrac (py : Py) : List Char → List Char × List Char
  | '.' :: t => (t.takeWhile py.isDigit, t.dropWhile py.isDigit)
  | r => ([], r)

/-- Python `float(s)` before rounding.  Simplification: `inf`, `nan` and underscores are left out; `float` is only
called on texts matched by `reDec`, which exclude them. -/
def pyFloat (py : Py) (s : List Char) : Option Rat :=
  let (neg, s) := takeSign (py.strip s)
  let ip := s.takeWhile py.isDigit
  let r := s.dropWhile py.isDigit
  let (fp, r) := takeFrac py r
  match horner 10 py.digit (ip ++ fp) 0 with
  | none => none
  | some m =>
    if ip = [] ∧ fp = [] then none
    else
      let mant : Rat := (if neg then -(m : Rat) else m) / 10 ^ fp.length
      match r with
      | [] => some mant
      | e :: t =>
        if e == 'e' || e == 'E' then
          let (eneg, t) := takeSign t
          if t = [] then none
          else match horner 10 py.digit t 0 with
            | none => none
            | some x => some (if eneg then mant / 10 ^ x else mant * 10 ^ x)
        else none

/-- `ARNumerical._convertStringToNumberValue`, `PrimitiveTypes.py:96-126` (any exception becomes `ValueError`) -/
def convert (py : Py) (value : List Char) : Except PyErr (Num py.F) :=
  if value = "true".toList then .ok (.int 1)
  else if value = "false".toList then .ok (.int 0)
  else match reHex value with
    | some g => match horner 16 (fun c => if isHex c then some (hexVal c) else none) g 0 with
      | some n => .ok (.int n)
      | none => .error .valueError
    | none => match reBin py value with
      | some g => match horner 2 py.digit g 0 with
        | some n => .ok (.int n)
        | none => .error .valueError
      | none =>
        if test (reDec py) value then
          match pyFloat py value with
          | some q => .ok (.flt (py.ofRat q))
          | none => .error .valueError
        else match pyInt py value with
          | some i => .ok (.int i)
          | none => .error .valueError

/-! ## Objects -/

/-- a Python value as stored in `_value` -/
inductive PVal (F : Type)
  | none
  | bool (b : Bool)
  | num (n : Num F)
  deriving DecidableEq, Repr

/-- what is assigned -/
inductive PIn (F : Type)
  | none
  | bool (b : Bool)
  | int (i : Int)
  | flt (f : F)
  | str (s : List Char)
  /-- any other object -/
  | other

/-- the state of an `ARNumerical` / `ARFloat` / `ARPositiveInteger` / `ARBoolean` -/
structure PObj (F : Type) where
  value : PVal F
  text : Option (List Char)

namespace PObj
variable (py : Py)

/-- the numerical classes: `ARNumerical` (`:74-180`), `ARFloat` (`:183-224`), `ARPositiveInteger` (`:531-560`) -/
inductive Cls
  | numerical | float | positive
  deriving DecidableEq, Repr

/-- `__init__` -/
def new {F : Type} : PObj F := ⟨.none, none⟩

/-- `x.value = v`, `:134-142`, `:205-215`, `:549-560`; a `bool` is an `int` in Python.  The text is stored before it is
converted. -/
def assign (c : Cls) (o : PObj py.F) : PIn py.F → PObj py.F × Option PyErr
  | .str s =>
    match convert py s with
    | .ok n => (⟨.num n, some s⟩, none)
    | .error e => ({ o with text := some s }, some e)
  | .bool b =>
    match c with
    | .float => ({ o with value := .num (.flt (py.ofRat (if b then 1 else 0))) }, none)
    | _ => ({ o with value := .bool b }, none)
  | .int i =>
    match c with
    | .numerical => ({ o with value := .num (.int i) }, none)
    | .float => ({ o with value := .num (.flt (py.ofRat i)) }, none)
    | .positive => if i < 0 then (o, some .valueError) else ({ o with value := .num (.int i) }, none)
  | .flt f =>
    match c with
    | .float => ({ o with value := .num (.flt f) }, none)
    | _ => (o, some .valueError)
  | .none => (o, some .valueError)
  | .other => (o, some .valueError)

/-- `setValue`, `:52-65`: `None` is ignored -/
def setValue (c : Cls) (o : PObj py.F) : PIn py.F → PObj py.F × Option PyErr
  | .none => (o, none)
  | v => assign py c o v

/-- a sequence of assignments (with `setValue`), going on after exceptions -/
def assigns (c : Cls) (vs : List (PIn py.F)) : PObj py.F := vs.foldl (fun o v => (setValue py c o v).1) new

end PObj

/-- Python `str(i)` for an integer -/
def strInt (i : Int) : List Char :=
  if i < 0 then '-' :: Nat.toDigits 10 i.natAbs else Nat.toDigits 10 i.natAbs

/-- Python `str(value)`; `repr` renders floats -/
def strVal {F : Type} (repr : F → List Char) : PVal F → List Char
  | .none => "None".toList
  | .bool b => if b then "True".toList else "False".toList
  | .num (.int i) => strInt i
  | .num (.flt f) => repr f

/-- `__str__`, `:144-148`, `:217-221`: what `getText()` returns -/
def PObj.text' {F : Type} (repr : F → List Char) (o : PObj F) : List Char :=
  match o.text with
  | some t => t
  | none => strVal repr o.value

/-- `abstract_arxml_writer.py:89-98`: the text of the element written for a numerical (`none`: no text) -/
def PObj.writtenNumerical {F : Type} (repr : F → List Char) (o : PObj F) : Option (List Char) :=
  match o.text with
  | some t => some t
  | none => match o.value with
    | .none => none
    | v => some (strVal repr v)

namespace PBool
variable (py : Py)

/-- `str.lower()` -/
def lower (s : List Char) : List Char := s.flatMap py.lower

/-- `ARBoolean._convertStringToBoolean`, `:590-606` -/
def convert (s : List Char) : Except PyErr Bool :=
  let v := lower py s
  if v = "true".toList ∨ v = "1".toList then .ok true
  else if v = "false".toList ∨ v = "0".toList then .ok false
  else match pyInt py v with
    | some i => .ok (i != 0)
    | none => .error .valueError

structure BObj where
  value : Option Bool
  text : Option (List Char)
  deriving DecidableEq, Repr

def new : BObj := ⟨none, none⟩

/-- `ARBoolean.value = v`, `:613-624` -/
def assign (o : BObj) : PIn py.F → BObj × Option PyErr
  | .bool b => ({ o with value := some b }, none)
  | .int i => (⟨some (i != 0), some (strInt i)⟩, none)
  | .str s =>
    match convert py (py.strip s) with
    | .ok b => (⟨some b, some (py.strip s)⟩, none)
    | .error e => (o, some e)
  | _ => (o, some .valueError)

/-- `ARBoolean.__str__`, `:626-633` -/
def text' (o : BObj) : List Char :=
  match o.text with
  | some t => t
  | none => if o.value = some true then "true".toList else "false".toList

/-- `setValue`, `:52-65` -/
def setValue (o : BObj) : PIn py.F → BObj × Option PyErr
  | .none => (o, none)
  | v => assign py o v

end PBool

/-! ## References and labels -/

/-- `re.match(r"\/[\w\/]+\/(\w+)", value)` -/
def reShort (py : Py) (s : List Char) : Option (List Char) :=
  (lit '/' ⬝ plus (fun c => py.word c || c == '/') ⬝ lit '/') s fun s => cap (plus py.word) s fun g _ => some g

/-- `RefType.getShortValue`, `PrimitiveTypes.py:1098-1113` -/
def getShortValue (py : Py) : Option (List Char) → Except PyErr (List Char)
  | none => .error .valueError
  | some v =>
    match reShort py v with
    | some g => .ok g
    | none => .ok v

/-- `re.match(r"[0-9]+\.[0-9]+\.[0-9]+([\._;].*)?", text)`, `abstract_arxml_parser.py:150` (`.` excludes newline) -/
def reRevision : M :=
  plus asciiDigit ⬝ lit '.' ⬝ plus asciiDigit ⬝ lit '.' ⬝ plus asciiDigit
  ⬝ opt ((chr fun c => c == '.' || c == '_' || c == ';') ⬝ star (· != '\n'))

end Verif.Model
