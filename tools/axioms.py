"""Write AXIOMS.md from the output of `#print axioms` for every theorem of MANIFEST.json.

Usage (from /verif, after `lake build` in lean/):  python3 tools/axioms.py
The scratch file is written outside the project.
"""
import json, re, subprocess, collections
M = json.load(open('MANIFEST.json'))
ths = list(dict.fromkeys(t for c in M['claims'] for t in c['theorems']))
open('/tmp/ax.lean', 'w').write('import Verif\n' + ''.join(f'#print axioms {t}\n' for t in ths))
out = subprocess.run(['lake', 'env', 'lean', '/tmp/ax.lean'], cwd='lean', capture_output=True, text=True).stdout
out = re.sub(r'\n\s+', ' ', out)
groups = collections.defaultdict(list)
for l in out.splitlines():
    m = re.match(r"'(\S+)' depends on axioms: \[(.*)\]", l)
    if m:
        groups[m.group(2)].append(m.group(1)); continue
    m = re.match(r"'(\S+)' does not depend on any axioms", l)
    if m:
        groups['none'].append(m.group(1)); continue
    raise SystemExit('unexpected: ' + l)
assert sum(map(len, groups.values())) == len(ths)
with open('AXIOMS.md', 'w') as f:
    f.write('# Axioms each theorem depends on\n\nGenerated by `tools/axioms.py` with `#print axioms`. All names are in namespace `Verif.Props`.\n')
    for k in sorted(groups, key=len):
        f.write(f'\n## {k} ({len(groups[k])} theorems)\n\n')
        f.write('\n'.join('* `' + t.replace('Verif.Props.', '') + '`' for t in groups[k]) + '\n')
print({k: len(v) for k, v in groups.items()})
