#!/bin/bash
# regenerate, build, check axioms, commit, vcheck:  tools/ci.sh "message"
set -o pipefail; cd /verif
python3 tools/gen_properties.py && python3 tools/gen_manifest.py && (cd lean && lake build 2>&1 | tail -8) && sh tools/axioms.sh && git add -A && git commit -qm "$1" && vcheck
