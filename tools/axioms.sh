#!/bin/sh
# Print the axioms of every theorem listed in MANIFEST.json that is not among the three standard ones.
cd "$(dirname "$0")/../lean" || exit 1
t=$(mktemp /tmp/axXXXX.lean)
python3 - > "$t" <<'PY'
import json
print("import Verif")
for c in json.load(open("../MANIFEST.json"))["claims"]:
    for t in c["theorems"]:
        print("#print axioms", t)
PY
lake env lean "$t" | tr '\n' ' ' | sed "s/'\([A-Za-z]\)/\n'\1/g" | grep -v "^$" | sed 's/ \+/ /g' > "$t.out"
echo "theorems: $(grep -c . "$t.out")"
echo "with other axioms or errors:"
grep -v "does not depend on any axioms" "$t.out" | sed "s/propext//; s/Classical.choice//; s/Quot.sound//" | grep -v "depends on axioms: \[[, ]*\]"
