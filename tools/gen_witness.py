"""Emit Verif/Gen/Witness.lean: for every entry of `Spec.defects` an element that shows that something is lost.

The elements are built from the slots of the reader methods; `Props/Defects.lean` checks them in the kernel.
"""
import os
import subprocess
import sys
import tempfile

sys.path.insert(0, os.path.dirname(__file__))
LEAN = os.path.join(os.path.dirname(__file__), '..', 'lean')
src = open(os.path.join(os.path.dirname(__file__), 'gen_pairs.py')).read()
HEAD = src[src.index('def showK'):src.index('def showEm')]

SEARCH = r'''
import Verif.Lemmas.PairTable
open Verif Verif.Model Verif.Spec Verif.Lemmas

''' + HEAD + r'''
structure Con where
  attrs : List (Key × String) := []
  text : String := ""
  kids : List (String) := []
  deriving Inhabited

def Con.app (a b : Con) : Con := ⟨a.attrs ++ b.attrs, if b.text = "" then a.text else b.text, a.kids ++ b.kids⟩

def Con.node (t : Key) (c : Con) : String :=
  s!".node k!\"{showK t}\" [{", ".intercalate (c.attrs.map fun a => s!"(k!\"{showK a.1}\", \"{a.2}\".toList)")}] {if c.text = "" then "[]" else s!"\"{c.text}\".toList"} [{", ".intercalate c.kids}]"

def hasAll : Path → Bool
  | .all _ _ => true
  | .first _ r | .pick _ r | .need _ r | .lack _ r => hasAll r
  | _ => false

partial def contrib (leaf : Key) (c : Con) (p : Path) (two : Bool := false) : Con := match p with
  | .nil => c
  | .all t r => { kids := List.replicate (if two && !hasAll r then 2 else 1) ((contrib leaf c r two).node (if t = 0 then leaf else t)) }
  | .first [] r => contrib leaf c r two
  | .first (t :: ts) r => { kids := [(contrib leaf c (.first ts r) two).node (if t = 0 then leaf else t)] }
  | .pick ts r => { kids := [(contrib leaf c r).node (match ts with | t :: _ => t | [] => 0)] }
  | .need p r => (contrib 0 {} p).app (contrib leaf c r two)
  | .lack _ r => contrib leaf c r two
  | .alt p _ => contrib leaf c p two

inductive Focus
  | mk (f : Key) (cls : Option Key) (inner : List Focus) (empty : Bool) (stamp : Bool) (two : Bool := false)

def sample : RKind → String
  | .revision => "1.0.0"
  | .float | .floats | .time | .numerical | .integer | .positive | .numericals => "1"
  | .boolean => "true"
  | _ => "x"

partial def content (rk : Key) (foci : List Focus) : Con := Id.run do
  let some b := readers rk | return {}
  let mut out : Con := {}
  for s in b.slots do
    match s.item with
    | .name => out := out.app (contrib 0 { text := "n" } s.path)
    | .want t _ => if s.path = .nil then out := out.app { kids := [({} : Con).node t] }
    | _ => pure ()
    let mut todo : List Focus := foci.filter fun (Focus.mk f c _ _ _ _) =>
      if f = k!"elements" ∧ s.field ≠ f then s.elems && (match s.item, c with
        | .objs alts, some c => alts.any fun a => (readers a.2).any (·.cls = c)
        | _, _ => false)
      else s.field == f
    if todo.isEmpty && s.req != .no then todo := [.mk s.field none [] false false]
    for Focus.mk _ c inner emp stamp two in todo do
      match s.item with
      | .prim k => out := out.app (contrib 0 { text := if emp then "" else sample k, attrs := if stamp then [(k!"T", "t")] else [] } s.path)
      | .attr n _ => out := out.app (contrib 0 { attrs := [(n, "x")] } s.path)
      | .objs alts => match alts.find? fun a => match c with
          | none => true
          | some c => (readers a.2).any (·.cls = c) with
        | some a => out := out.app (contrib a.1 (content a.2 inner) s.path two)
        | none => pure ()
      | _ => pure ()
  return out

def foci : Need → List Focus
  | .empty f => [.mk f none [] false false]
  | .never f c => [.mk f (some c) [] false false]
  | .oneOf _ => []
  | .notBoth f g => [.mk f none [] false false, .mk g none [] false false]
  | .along f _ => [.mk f none [] false false]
  | .same f _ => [.mk f none [] false false]
  | .single f => [.mk f none [] false false true]
  | .full f => [.mk f none [] true false]
  | .plain f => [.mk f none [] false true]
  | .inside f n => [.mk f none (foci n) false false]
  | .strict n => foci n

def pairTxt (p : Pair) : String :=
  s!"⟨k!\"{showK p.rk}\", k!\"{showK p.wk}\", k!\"{showK p.tag}\", [{", ".intercalate (p.ex.map showNeed)}]⟩"

def main : IO Unit := do
  let all := (Gen.pairTable.toList.map (·.2)).flatten
  for e in defects do
    match all.find? fun p => p.ex.isEmpty && (readers p.rk).any (·.cls = e.1) with
    | none => IO.println s!"ERROR {showK e.1} {showNeed e.2}"
    | some p =>
      IO.println s!"  -- {showK e.1} {showNeed e.2}"
      IO.println s!"  ({pairTxt p},"
      IO.println s!"    {(content p.rk (foci e.2)).node p.tag}),"
'''

with tempfile.TemporaryDirectory() as d:
    p = os.path.join(d, 'Search.lean')
    with open(p, 'w') as f:
        f.write(SEARCH.lstrip())
    r = subprocess.run(['lake', 'env', 'lean', '--run', p], cwd=LEAN, capture_output=True, text=True)
    if r.returncode:
        sys.exit(r.stdout + r.stderr)
lines = r.stdout.rstrip().rstrip(',')
for l in lines.splitlines():
    if l.startswith('ERROR'):
        print(l)
with open(os.path.join(LEAN, 'Verif', 'Gen', 'Witness.lean'), 'w') as f:
    f.write('''import Verif.Lemmas.PairTable
/-! Generated by `tools/gen_witness.py`: for every entry of `Spec.defects`, in the same order, a pair of a reader and a
writer method and an element that shows that something is lost. -/
namespace Verif.Gen
open Verif Verif.Model Verif.Lemmas

def witnesses : List (Pair × Xml) := [
%s]

end Verif.Gen
''' % lines)
