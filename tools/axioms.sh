#!/bin/sh
# Prints the axioms of every theorem named in MANIFEST.json (run after 'lake build' in ../lean).
cd "$(dirname "$0")/../lean"
t=$(mktemp --suffix=.lean)
echo "import Verif" > $t
python3 -c "
import json
for c in json.load(open('../MANIFEST.json'))['claims']:
    for n in c['theorems']: print('#print axioms', n)" >> $t
lake env lean $t
rm -f $t
