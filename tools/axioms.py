"""Write AXIOMS.md: the axioms of every theorem named in MANIFEST.json.  Needs a finished `lake build` in lean/."""
import json
import os
import subprocess
import tempfile

ROOT = os.path.dirname(os.path.dirname(os.path.abspath(__file__)))
LEAN = '''import Verif
open Lean
run_meta do
  let env ← getEnv
  for l in (← IO.FS.readFile "%s").splitOn "\\n" do
    if l.isEmpty then continue
    unless env.contains l.toName do throwError "missing {l}"
    let a ← collectAxioms l.toName
    IO.println (l ++ "\\t" ++ " ".intercalate ((a.toList.map toString).mergeSort (· ≤ ·)))
'''

claims = json.load(open(ROOT + '/MANIFEST.json'))['claims']
names = [t for c in claims for t in c['theorems']]
with tempfile.TemporaryDirectory() as d:
    open(d + '/names.txt', 'w').write('\n'.join(dict.fromkeys(names)) + '\n')
    open(d + '/ax.lean', 'w').write(LEAN % (d + '/names.txt'))
    r = subprocess.run(['lake', 'env', 'lean', d + '/ax.lean'], cwd=ROOT + '/lean', capture_output=True, text=True)
if r.returncode:
    raise SystemExit(r.stdout + r.stderr)
ax = dict(l.split('\t') for l in r.stdout.splitlines() if '\t' in l)
extra = set(' '.join(ax.values()).split()) - {'propext', 'Classical.choice', 'Quot.sound'}
assert not extra, extra
with open(ROOT + '/AXIOMS.md', 'w') as f:
    f.write('# Axioms of the property theorems\n\nWritten by `tools/axioms.py` (`Lean.collectAxioms`).\n\n')
    f.write('| property | theorem | axioms |\n|---|---|---|\n')
    for c in claims:
        for t in c['theorems']:
            f.write('| %s | `%s` | %s |\n' % (c['property'], t, ax[t].replace(' ', ', ') or 'none'))
print(len(ax))
