#!/bin/sh
# prints every axiom used by a claimed theorem other than the three standard ones
cd "$(dirname "$0")/../lean" && python3 ../tools/gen_manifest.py && lake build >/dev/null && lake env lean /tmp/axioms.lean | \
 grep -v "does not depend on any axioms" | tr '\n' ' ' | sed "s/'Verif/\n'Verif/g" | grep -v "^$" | \
 sed "s/propext//;s/Classical.choice//;s/Quot.sound//" | grep -v "\[[, ]*\]"
echo "axioms check done"
