#!/bin/sh
# Print the axioms used by every property theorem listed in MANIFEST.json.
cd "$(dirname "$0")/../lean" || exit 1
f=$(mktemp --suffix=.lean)
echo 'import Verif' > "$f"
python3 - "$f" <<'PY'
import json,sys
m=json.load(open('../MANIFEST.json'))
with open(sys.argv[1],'a') as o:
    for t in dict.fromkeys(t for c in m['claims'] for t in c['theorems']):
        o.write('#print axioms %s\n'%t)
PY
lake env lean "$f"
rm -f "$f"
