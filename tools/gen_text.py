#!/usr/bin/env python3
"""Lists the tags of the elements whose text the reader methods read (Verif/Gen/TextTags.lean), from the reader table.
Lemmas/Order.lean proves that the list is complete."""
import os
import subprocess
import tempfile
from leanemit import emit_bst

LEAN = os.path.join(os.path.dirname(os.path.abspath(__file__)), '..', 'lean')
SRC = r'''
import Verif.Model.Document
open Verif Verif.Model
partial def dig (k : Nat) (acc : List Char) : List Char := if k = 0 then acc else dig (k / 256) (Char.ofNat (k % 256) :: acc)
def nm (k : Nat) : String := String.ofList (dig k [])
def ends (c : Key) : Path → List Key
  | .nil => [c]
  | .all t r => ends t r
  | .first ts r => ends (ts.getLastD c) r
  | .pick ts r => ts.flatMap fun t => ends t r
  | .need _ r | .lack _ r => ends c r
  | .alt p r => ends c p ++ ends c r
def main : IO Unit := do
  let all := Gen.readTable.toList ++ [(k!"load", loadBody)]
  let mut tags : List Key := []
  let mut bodies : List Key := []
  for (k, b) in all do
    for s in b.slots do
      match s.item with
      | .prim _ | .name =>
        for e in ends 1 s.path do
          if e = 0 then throw <| IO.userError s!"wildcard in {nm k}"
          else if e = 1 then bodies := k :: bodies
          else tags := e :: tags
      | _ => pure ()
  for (_, b) in all do
    for s in b.slots do
      match s.item with
      | .objs l => for (t, k) in l do if bodies.contains k then tags := t :: tags
      | _ => pure ()
  for t in tags do IO.println s!"TAG {nm t}"
  for t in bodies do IO.println s!"BODY {nm t}"
#eval main
'''
with tempfile.NamedTemporaryFile('w', suffix='.lean', delete=False) as f:
    f.write(SRC)
out = subprocess.run(['lake', 'env', 'lean', f.name], cwd=LEAN, capture_output=True, text=True)
os.unlink(f.name)
assert out.returncode == 0, out.stdout + out.stderr
tags = sorted({l[4:] for l in out.stdout.splitlines() if l.startswith('TAG ')})
bodies = sorted({l[5:] for l in out.stdout.splitlines() if l.startswith('BODY ')})
lines = ['import Verif.Model.Bst', '-- generated by tools/gen_text.py; do not edit', 'namespace Verif.Gen', 'open Verif', '']
lines += emit_bst('textTags', 'Unit', [(t, '()', None) for t in tags], 'The tags of the elements whose text is read by some method.', 60)
lines += ['/-- The methods that read the text of the element they are called with. -/', 'def textBodies : List Key :=\n  [%s]' % ',\n   '.join('k!"%s"' % b for b in bodies), '', 'end Verif.Gen']
open(os.path.join(LEAN, 'Verif', 'Gen', 'TextTags.lean'), 'w').write('\n'.join(lines) + '\n')
print(len(tags), len(bodies))
