#!/usr/bin/env python3
"""Lists the tags of the elements that hold other elements and whose own text is not read (Verif/Gen/Silent.lean), from the reader table.
Lemmas/RetellTable.lean checks the list in the kernel."""
import os
import subprocess
import tempfile
from leanemit import emit_bst

LEAN = os.path.join(os.path.dirname(os.path.abspath(__file__)), '..', 'lean')
SRC = r'''
import Verif.Lemmas.Retell
open Verif Verif.Model Verif.Spec Verif.Lemmas
partial def dig (k : Nat) (acc : List Char) : List Char := if k = 0 then acc else dig (k / 256) (Char.ofNat (k % 256) :: acc)
def nm (k : Nat) : String := String.ofList (dig k [])
def main : IO Unit := do
  let all := Gen.readTable.toList ++ [(k!"load", loadBody)]
  let mut tags : List Key := []
  for (_, b) in all do
    for s in b.slots do
      match s.item with
      | .objs l => for (t, _) in l do tags := t :: tags
      | _ => pure ()
      for t in stepsOf s.path do tags := t :: tags
  for t in tags do if !textual.contains t then IO.println s!"TAG {nm t}"
#eval main
'''
with tempfile.NamedTemporaryFile('w', suffix='.lean', delete=False) as f:
    f.write(SRC)
out = subprocess.run(['lake', 'env', 'lean', f.name], cwd=LEAN, capture_output=True, text=True)
os.unlink(f.name)
assert out.returncode == 0, out.stdout + out.stderr
tags = sorted({l[4:] for l in out.stdout.splitlines() if l.startswith('TAG ')})
lines = ['import Verif.Model.Bst', '-- generated by tools/gen_silent.py; do not edit', 'namespace Verif.Gen', 'open Verif', '']
lines += emit_bst('silentTags', 'Unit', [(t, '()', None) for t in tags], 'The tags of the elements that hold other elements and whose own text is not read.', 60)
lines += ['', 'end Verif.Gen']
open(os.path.join(LEAN, 'Verif', 'Gen', 'Silent.lean'), 'w').write('\n'.join(lines) + '\n')
print(len(tags))
