"""Find the pairs of reader and writer methods that are reachable from `load`/`save` and emit Verif/Gen/Pairs*.lean.

The search itself runs in Lean (it evaluates `Lemmas.check`), it is not trusted: the emitted modules check every pair
again in the kernel.  With `--explain` the slots and emitters for which the check fails are printed.
"""
import os
import subprocess
import sys
import tempfile

sys.path.insert(0, os.path.dirname(__file__))
from leanemit import emit_bst  # noqa: E402

LEAN = os.path.join(os.path.dirname(__file__), '..', 'lean')

SEARCH = r'''
import Verif.Lemmas.Check
import Verif.Spec.Defects
import Verif.Model.Document
open Verif Verif.Model Verif.Spec Verif.Lemmas

def invariants (c : Key) : List Need :=
  if c = k!"CompuScale" then [.notBoth k!"compuScaleContents.compuConst.compuConstContentType.vt" k!"compuScaleContents.compuRationalCoeffs"] else []
def conds (c : Key) : List Need := lossy c ++ invariants c

def showK (k : Key) : String := Id.run do
  let mut l : List Char := []
  let mut k := k
  while k > 0 do
    l := Char.ofNat (k % 256) :: l
    k := k / 256
  return String.ofList l

def showNeed : Need → String
  | .empty f => s!".empty k!\"{showK f}\""
  | .never f c => s!".never k!\"{showK f}\" k!\"{showK c}\""
  | .oneOf fs => s!".oneOf [{", ".intercalate (fs.map fun f => s!"k!\"{showK f}\"")}]"
  | .notBoth f g => s!".notBoth k!\"{showK f}\" k!\"{showK g}\""
  | .along f g => s!".along k!\"{showK f}\" k!\"{showK g}\""
  | .same f g => s!".same k!\"{showK f}\" k!\"{showK g}\""
  | .full f => s!".full k!\"{showK f}\""
  | .single f => s!".single k!\"{showK f}\""
  | .plain f => s!".plain k!\"{showK f}\""
  | .inside f n => s!".inside k!\"{showK f}\" ({showNeed n})"
  | .strict n => s!".strict ({showNeed n})"

def showEm : Em → String
  | .prim t _ f => s!"prim {showK t} {showK f}"
  | .oprim u t _ f => s!"oprim {showK u} {showK t} {showK f}"
  | .each f v _ _ _ => s!"each {showK f} {v.map showK}"
  | .wrap t _ => s!"wrap {showK t}"
def showSrc (l : List (Key × List Key)) : String := ", ".intercalate (l.map fun e => s!"{showK e.1}{e.2.map showK}")
def showCond : Cond → String
  | .always => "always"
  | .any f => s!"any {showSrc f}"
  | .none f => s!"none {showSrc f}"
  | .cls c => s!"cls {c.map showK}"
  | .notcls c => s!"notcls {c.map showK}"
def showLoc : Option Loc → String
  | none => "??"
  | some .none => "nothing"
  | some (.body cs _) => s!"body {cs.map showCond}"
  | some (.leaf cs e one) => s!"leaf {cs.map showCond} {showEm e} {one}"

partial def showPath : Path → String
  | .nil => "."
  | .all t r => s!"{showK t}*/{showPath r}"
  | .first ts r => s!"{ts.map showK}/{showPath r}"
  | .pick ts r => s!"pick{ts.map showK}/{showPath r}"
  | .need p r => s!"need({showPath p}){showPath r}"
  | .lack p r => s!"lack({showPath p}){showPath r}"
  | .alt p r => s!"alt({showPath p}|{showPath r})"

def itemName : Item → String
  | .prim _ => "prim"
  | .attr n _ => s!"attr {showK n}"
  | .name => "name"
  | .objs a => s!"objs {a.map (fun e => showK e.1)}"
  | .guard t _ => s!"guard {t.map showK}"
  | .want _ _ => "want"
  | .crash _ => "crash"

/-- explain a failing pair, and give the pairs that can be followed -/
def explain (C : Ctx) (W : WB) (tag : Key) : List String × List Pair := Id.run do
  match single C W with
  | some (.wrap t b) =>
    let mut out := []
    let mut ps := []
    if t != tag then out := out ++ [s!"tag {showK t} /= {showK tag}"]
    for s in C.slots do
      match C.chkSlot b s with
      | none =>
        let loc := if let .guard _ _ := s.item then s!"tags {((C.tagsAt s.path b).map (fun (l : List Key) => List.map showK l))}" else showLoc (C.locate s.path b)
        out := out ++ [s!"slot {showK s.field} {showPath s.path} {itemName s.item} :: {loc}"]
        if let .objs alts := s.item then
          if let some (.leaf _ (.each _ _ _ cases _) _) := C.locate s.path b then
            for a in alts do
              if let some c := C.cl a.2 then
               if !C.gone s c then
                match caseOf cases c with
                | none => out := out ++ [s!"   class {showK c} no case"]
                | some wk => ps := ⟨a.2, wk, a.1, C.innerNeeds s⟩ :: ps
      | some (.objs _ q) => ps := q ++ ps
      | some .same => pure ()
    if out.isEmpty then out := ["chkW"]
    return (out, ps)
  | some (.prim t _ _) => return ([s!"self {showK t}"], [])
  | _ => return ([s!"emission {(C.ats W).map fun a => (a.1.map showCond, showEm a.2)}"], [])

partial def explore (todo : List Pair) (seen : List Pair) (bad : Nat) : IO (List Pair × Nat) := do
  match todo with
  | [] => return (seen, bad)
  | p :: todo =>
    if seen.contains p then explore todo seen bad else
    let seen := p :: seen
    match readers p.rk with
    | none => do IO.println s!"BAD\tno reader {showK p.rk}"; explore todo seen (bad + 1)
    | some b => match writers p.wk with
      | none => do IO.println s!"BAD\tno writer {showK p.wk}"; explore todo seen (bad + 1)
      | some W =>
        let C := p.ctx readers conds reordered b
        match check C W p.tag with
        | some ps => explore (ps ++ todo) seen bad
        | none =>
          let (o, ps) := explain C W p.tag
          for l in o do IO.println s!"BAD\t{showK p.rk} {showK b.cls} | {showK p.wk} | {showK p.tag} | {p.ex.map showNeed} :: {l}"
          explore (ps ++ todo) seen (bad + 1)

def pairTxt (p : Pair) : String :=
  s!"⟨k!\"{showK p.rk}\", k!\"{showK p.wk}\", k!\"{showK p.tag}\", [{", ".intercalate (p.ex.map showNeed)}]⟩"

def main : IO Unit := do
  let root : Pair := ⟨k!"load", k!"save", k!"AUTOSAR", []⟩
  let (seen, bad) ← explore [root] [] 0
  for p in seen do IO.println s!"PAIR\t{showK p.rk}\t{pairTxt p}"
  IO.println s!"END\t{seen.length}\t{bad}"
'''


def search():
    with tempfile.TemporaryDirectory() as d:
        p = os.path.join(d, 'Search.lean')
        with open(p, 'w') as f:
            f.write(SEARCH.lstrip())
        return subprocess.run(['lake', 'env', 'lean', '--run', p], cwd=LEAN, check=True, capture_output=True, text=True).stdout


def main():
    pairs = {}
    for line in search().splitlines():
        f = line.split('\t')
        if f[0] == 'PAIR':
            pairs.setdefault(f[1], []).append(f[2])
        else:
            print(line)
    if '--explain' in sys.argv:
        return
    entries = [(k, '[%s]' % ',\n    '.join(sorted(v)), None) for k, v in pairs.items()]
    out = ['import Verif.Model.Bst', 'import Verif.Lemmas.Check', '/-! Generated by `tools/gen_pairs.py`: the pairs of reader and writer methods. -/',
           'namespace Verif.Gen', 'open Verif Verif.Lemmas', '']
    lines = emit_bst('pairTable', 'List Pair', entries, 'the pairs for a reader method')
    out += lines + ['end Verif.Gen', '']
    with open(os.path.join(LEAN, 'Verif', 'Gen', 'Pairs.lean'), 'w') as f:
        f.write('\n'.join(out))
    # the modules with the checks: one theorem per literal part of the table
    names = [l.split()[1] for l in lines if l.startswith('def pairTable')]
    leaves = [n for n, l in zip(names, lines) if '\n .node pairTable' not in l]
    inner = [(n, l) for n, l in zip(names, lines) if '\n .node pairTable' in l]
    nmod = 8
    per = (len(leaves) + nmod - 1) // nmod
    for i in range(nmod):
        o = ['import Verif.Gen.Pairs', 'import Verif.Lemmas.PairTable',
             '/-! Generated by `tools/gen_pairs.py`: the check of every pair, evaluated by the kernel. -/',
             'namespace Verif.Gen', 'open Verif Verif.Lemmas', '']
        for n in leaves[i * per:(i + 1) * per]:
            o.append('theorem %s_ok : %s.all pairsOk = true := by decide +kernel\n' % (n, n))
        o += ['end Verif.Gen', '']
        with open(os.path.join(LEAN, 'Verif', 'Gen', 'PairsOk%d.lean' % i), 'w') as f:
            f.write('\n'.join(o))
    o = ['import Verif.Gen.PairsOk%d' % i for i in range(nmod)]
    o += ['/-! Generated by `tools/gen_pairs.py`: all pairs are checked. -/', 'namespace Verif.Gen', 'open Verif Verif.Lemmas', '']
    for n, l in inner:
        left, right = l.split('\n .node ')[1].split()[0], l.rstrip().split()[-1]
        o.append('theorem %s_ok : %s.all pairsOk = true := Bst.all_node (by decide +kernel) %s_ok %s_ok\n' % (n, n, left, right))
    o += ['theorem pairTable_ok : pairTable.all pairsOk = true := %s_ok' % names[-1 if names[-1] != 'pairTable' else -2], '', 'end Verif.Gen', '']
    with open(os.path.join(LEAN, 'Verif', 'Gen', 'PairsOk.lean'), 'w') as f:
        f.write('\n'.join(o))


main()
