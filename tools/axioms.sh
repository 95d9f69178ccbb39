#!/bin/sh
# Print the axioms of every theorem of MANIFEST.json to AXIOMS.txt (run after `lake build` in lean/).
cd "$(dirname "$0")/.." || exit 1
f=$(mktemp /tmp/axXXXX.lean)
{ echo "import Verif"; python3 -c "
import json
for c in json.load(open('MANIFEST.json'))['claims']:
    for t in c['theorems']: print('#print axioms '+t)
"; } > "$f"
(cd lean && lake env lean "$f") | tr '\n' ' ' | sed "s/ '\(Verif\)/\n'\1/g; s/  */ /g" > AXIOMS.txt
echo >> AXIOMS.txt
rm -f "$f"
wc -l AXIOMS.txt
