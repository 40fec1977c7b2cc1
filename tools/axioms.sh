#!/bin/sh
# Prints the axioms of every theorem named in MANIFEST.json that uses others than propext, Classical.choice, Quot.sound.
# Run in /verif/lean after `lake build`.
python3 - <<'PY' > /tmp/axioms.lean
import json
names = sorted({t for c in json.load(open('../MANIFEST.json'))['claims'] for t in c['theorems']})
print('import Verif')
for n in names:
    print('#print axioms', n)
PY
lake env lean /tmp/axioms.lean > /tmp/axioms.out 2>&1
python3 - <<'PY'
import re
txt = re.sub(r'\n ', ' ', open('/tmp/axioms.out').read())
n = bad = 0
for line in txt.splitlines():
    m = re.search(r"depends on axioms: \[(.*)\]", line)
    if m:
        n += 1
        if set(x.strip() for x in m.group(1).split(',')) - {'propext', 'Classical.choice', 'Quot.sound'}:
            bad += 1
            print(line)
    elif 'does not depend' in line:
        n += 1
    elif line.strip():
        print(line)
print(n, 'theorems,', bad, 'with other axioms')
PY
