#!/bin/sh
# Prints the axioms of every theorem named in MANIFEST.json.
cd "$(dirname "$0")/../lean" || exit 1
{
  echo "import Verif"
  python3 - <<'PY'
import json
for c in json.load(open('../MANIFEST.json'))['claims']:
    for t in c['theorems']:
        print('#print axioms', t)
PY
} > /tmp/axioms_check.lean
lake env lean /tmp/axioms_check.lean
