#!/bin/bash
# regenerate Verif.lean and MANIFEST.json, build, commit, vcheck
cd /verif
(cd lean && find Verif -name '*.lean' | sort | sed 's#/#.#g; s#\.lean$##; s#^#import #') > lean/Verif.lean
python3 tools/gen_properties.py >/dev/null; python3 tools/gen_manifest.py
python3 tools/gen_design.py
(cd lean && lake build 2>&1 | grep -E "error|Build completed") || exit 1
grep -rnE "sorry|#exit|#guard_msgs|native_decide|bv_decide|admit" lean/Verif && exit 1
git add -A && git commit -qm "$1" && vcheck
