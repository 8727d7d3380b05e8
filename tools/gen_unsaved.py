"""Find the attributes that can be set but are not loaded and emit Verif/Gen/Unsaved.lean.

The search runs in Lean and is not trusted: Verif/Props/Unsaved.lean checks the tables in the kernel.
"""
import os
import subprocess
import sys
import tempfile

sys.path.insert(0, os.path.dirname(__file__))
from leanemit import emit_bst  # noqa: E402

LEAN = os.path.join(os.path.dirname(__file__), '..', 'lean')

SEARCH = r'''
import Verif.Spec.Unsaved
import Std.Data.HashMap
open Verif Verif.Model Verif.Spec

def showK (k : Key) : String := Id.run do
  let mut l : List Char := []
  let mut k := k
  while k > 0 do
    l := Char.ofNat (k % 256) :: l
    k := k / 256
  return String.ofList l

def concerns (f g : Key) : Bool := g == f || (List.range 80).any fun n => g / 256 ^ n == f * 256 + 46

def main : IO Unit := do
  let cases : List Case := Gen.writeTable.toList.flatMap fun e => branches e.2
  let cases := (cases ++ branches saveBody).eraseDups
  let heads := fun (g : Key) => g :: (List.range 80).filterMap fun n => if g / 256 ^ n % 256 == 46 then some (g / 256 ^ (n + 1)) else none
  let mut users : Std.HashMap Key (List Case) := {}
  for c in cases do
    match writers c.body with
    | some B =>
      for f in ((uses B).flatMap heads).eraseDups do
        users := users.insert f (c :: users.getD f [])
    | none => pure ()
  for (k, b) in (k!"load", loadBody) :: Gen.readTable.toList do
    let fs := (methodsOf b.cls).filterMap fun e => if resolve b.cls e.1 == some e.2 then (match e.2 with
      | .set f _ => some f
      | .add f _ _ => some f
      | _ => none) else none
    for f in fs.eraseDups do
      if !b.slots.any (fun s => concerns f s.field) then
        let w := (users.getD f []).any fun c => c.takes b.cls
        IO.println s!"@ {showK k} {showK b.cls} {showK f} {w}"

#eval main
'''


def main():
    with tempfile.NamedTemporaryFile('w', suffix='.lean', delete=False) as h:
        h.write(SEARCH)
    out = subprocess.run(['lake', 'env', 'lean', h.name], cwd=LEAN, capture_output=True, text=True).stdout
    os.unlink(h.name)
    rows = [l.split()[1:] for l in out.splitlines() if l.startswith('@ ')]
    by_reader, by_attr, written = {}, {}, {}
    for k, c, f, w in rows:
        by_reader.setdefault(k, []).append(f)
        d = (written.setdefault(c, []), f) if w == 'true' else (by_attr.setdefault(f, []), c)
        if d[1] not in d[0]:
            d[0].append(d[1])
    keys = lambda l: '[%s]' % ', '.join('k!"%s"' % x for x in l)
    src = ['import Verif.Model.Bst', 'import Verif.Model.Key',
           '/-! Generated by `tools/gen_unsaved.py`; checked in `Verif/Props/Unsaved.lean`. -/', 'namespace Verif.Gen', 'open Verif', '']
    src += emit_bst('unsavedTable', 'List Key', [(k, keys(v), None) for k, v in by_reader.items()],
                    'for methods of the reader: attributes for which the class has a set or add method, and that are not read')
    src += emit_bst('unwrittenBy', 'List Key', [(k, keys(v), None) for k, v in by_attr.items()],
                    'for such attributes: the classes whose objects are written without looking at them')
    src += emit_bst('writtenOnly', 'List Key', [(k, keys(v), None) for k, v in written.items()],
                    'for classes: such attributes that the writer looks at')
    src.append('end Verif.Gen')
    with open(os.path.join(LEAN, 'Verif', 'Gen', 'Unsaved.lean'), 'w') as h:
        h.write('\n'.join(src) + '\n')
    print(len(rows), 'attributes,', sum(map(len, written.values())), 'written')


main()
