"""Writes AXIOMS.md from `#print axioms` of every theorem of MANIFEST.json; run after `lake build`."""
import collections, json, re, subprocess
claims = json.load(open('/verif/MANIFEST.json'))['claims']
names = [t for c in claims for t in c['theorems']]
open('/tmp/ax.lean', 'w').write('import Verif\n' + ''.join('#print axioms %s\n' % t for t in names))
text = subprocess.run(['lake', 'env', 'lean', '/tmp/ax.lean'], cwd='/verif/lean', capture_output=True, text=True).stdout
groups = collections.defaultdict(list)
pattern = r"'([^']+)' (?:does not depend on any axioms|depends on axioms: \[([^\]]*)\])"
for m in re.finditer(pattern, text):
    axioms = tuple(sorted(x.strip() for x in (m.group(2) or '').split(',') if x.strip()))
    groups[axioms].append(m.group(1))
print({k: len(v) for k, v in groups.items()}, set(names) - {x for v in groups.values() for x in v})
out = ['# Axioms of each theorem in MANIFEST.json', '', 'From `#print axioms`; written by `tools/axioms.py`.', '']
for axioms, ts in sorted(groups.items(), key=lambda p: len(p[0])):
    out += ['## ' + (', '.join('`%s`' % x for x in axioms) or 'none'), '', ', '.join('`%s`' % t for t in sorted(ts)), '']
open('/verif/AXIOMS.md', 'w').write('\n'.join(out))
