#!/bin/sh
# Prints, for each theorem of MANIFEST.json, the axioms it depends on.
cd /verif/lean
T=$(mktemp -d); python3 - > $T/ax.lean <<'P'
import json
print("import Verif")
for t in sorted({t for c in json.load(open('/verif/MANIFEST.json'))['claims'] for t in c['theorems']}): print("#print axioms",t)
P
lake env lean $T/ax.lean 2>&1 | tr '\n' ' ' | sed "s/'Serum/\n'Serum/g" | sed 's/  */ /g' | sort
