#!/bin/bash
# Axioms of all theorems in the manifest: how many theorems depend on which set.
cd "$(dirname "$0")/../lean"
python3 - > /tmp/axioms_check.lean <<'PY'
import json
print('import Verif')
for c in json.load(open('../MANIFEST.json'))['claims']:
    for t in c['theorems']:
        print('#print axioms ' + t)
PY
lake env lean /tmp/axioms_check.lean | tr '\n' ' ' | sed "s/ '/\n'/g" | sed "s/^'[^']*' //" | sort | uniq -c
