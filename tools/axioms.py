#!/usr/bin/env python3
"""Writes lean/Verif/Audit.lean from MANIFEST.json and the axioms of each theorem to AXIOMS.txt. Run from /verif."""
import json, re, subprocess, collections
claims = json.load(open('MANIFEST.json'))['claims']
names = []
for c in claims:
    for t in c['theorems']:
        if t not in names:
            names.append(t)
mods = []
where = {}
for m in subprocess.run(['git', 'ls-files', 'lean/Verif/Props'], capture_output=True, text=True).stdout.split():
    mods.append(m[len('lean/'):-len('.lean')].replace('/', '.'))
body = '\n'.join('import ' + m for m in mods) + '''
import Lean.Util.CollectAxioms
/-! Checks that every theorem of `MANIFEST.json` depends on the three standard axioms at most. Written by `tools/axioms.py`. -/

open Lean

/-- Fails if the theorem depends on another axiom. -/
def Pica.audit (n : Name) : CoreM Unit := do
  let some (.thmInfo _) := (← getEnv).find? n | throwError "{n} is not a theorem"
  for a in (← collectAxioms n) do
    unless a ∈ [``propext, ``Classical.choice, ``Quot.sound] do
      throwError "{n} depends on {a}"

run_cmd for n in [
''' + ',\n'.join('    ``' + n for n in names) + '] do\n  Elab.Command.liftCoreM (Pica.audit n)\n'
open('lean/Verif/Audit.lean', 'w').write(body)
src = '\n'.join('import ' + m for m in mods) + '\n' + '\n'.join('#print axioms ' + n for n in names) + '\n'
open('/tmp/axioms.lean', 'w').write(src)
out = subprocess.run(['lake', 'env', 'lean', '/tmp/axioms.lean'], cwd='lean', capture_output=True, text=True).stdout
lines = re.findall(r"'(\S+)' (?:depends on axioms: \[([^\]]*)\]|does not depend on any axioms)", out)
assert len(lines) == len(names), (len(lines), len(names))
with open('AXIOMS.txt', 'w') as f:
    for n, a in lines:
        f.write(f"{n}: {', '.join(a.split()).replace(',,', ',') if a else 'none'}\n")
print(collections.Counter(a for _, a in lines))
