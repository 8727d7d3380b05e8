"""Collect the elements and XML attributes read for each attribute and emit Verif/Gen/Names.lean.

The search runs in Lean and is not trusted: Verif/Lemmas/TagsTable.lean checks the table in the kernel.
"""
import os
import subprocess
import sys
import tempfile

sys.path.insert(0, os.path.dirname(__file__))
from leanemit import emit_bst  # noqa: E402

LEAN = os.path.join(os.path.dirname(__file__), '..', 'lean')

SEARCH = r"""
import Verif.Spec.Tags
open Verif Verif.Model Verif.Spec

def showK (k : Key) : String := Id.run do
  let mut l : List Char := []
  let mut k := k
  while k > 0 do
    l := Char.ofNat (k % 256) :: l
    k := k / 256
  return String.ofList l

def routes : Path → List (List Key)
  | .nil => [[]]
  | .all t r => (routes r).map (t :: ·)
  | .first ts r => (routes r).map (ts ++ ·)
  | .pick ts r => ts.flatMap fun t => (routes r).map (t :: ·)
  | .need _ r => routes r
  | .lack _ r => routes r
  | .alt p q => routes p ++ routes q

def fits (f t : Key) : Bool := t != 0 && (stem f == stem t || otherNames.contains (f, t) || (f, t) == (k!"responseOnEventRef", k!"RESPONSE-REF"))

def main : IO Unit := do
  for (_, b) in (k!"load", loadBody) :: Gen.readTable.toList do
    for s in b.slots do
      match s.item with
      | .prim _ | .objs _ | .name =>
        for r in routes s.path do
          match r.reverse.find? (fits s.field) with
          | some t => IO.println s!"@ {showK s.field} {showK t}"
          | none => if !(r.isEmpty && ownText.contains s.field) && !kinds.contains s.field then IO.println s!"missing {showK s.field} {r.map showK}"
      | .attr a _ => if fits s.field a then IO.println s!"@ {showK s.field} {showK a}" else IO.println s!"missing {showK s.field} {showK a}"
      | _ => pure ()

#eval main
"""


def main():
    with tempfile.NamedTemporaryFile('w', suffix='.lean', delete=False) as h:
        h.write(SEARCH)
    out = subprocess.run(['lake', 'env', 'lean', h.name], cwd=LEAN, capture_output=True, text=True).stdout
    os.unlink(h.name)
    names = {}
    for line in out.splitlines():
        if line.startswith('@ '):
            _, f, t = line.split()
            names.setdefault(f, [])
            if t not in names[f]:
                names[f].append(t)
        else:
            print(line)
    src = ['import Verif.Model.Bst', 'import Verif.Model.Key',
           '/-! Generated by `tools/gen_names.py`; checked in `Verif/Lemmas/TagsTable.lean`. -/', 'namespace Verif.Gen', 'open Verif', '']
    src += emit_bst('nameTable', 'List Key', [(f, '[%s]' % ', '.join('k!"%s"' % t for t in ts), None) for f, ts in names.items()],
                    'for attributes: the elements and XML attributes of the same name that are read for them')
    src.append('end Verif.Gen')
    with open(os.path.join(LEAN, 'Verif', 'Gen', 'Names.lean'), 'w') as h:
        h.write('\n'.join(src) + '\n')
    print(len(names), 'attributes,', sum(map(len, names.values())), 'names')


main()
