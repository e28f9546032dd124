#!/bin/sh
# Print the axioms every theorem of MANIFEST.json depends on (run in /verif/lean after lake build).
cd "$(dirname "$0")/../lean" || exit 1
t=$(mktemp --suffix .lean)
{ echo 'import Verif'; python3 -c '
import json
for c in json.load(open("../MANIFEST.json"))["claims"]:
    for t in c["theorems"]: print("#print axioms", t)'; } > "$t"
lake env lean "$t"
rm -f "$t"
