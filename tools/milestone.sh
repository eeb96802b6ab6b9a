#!/bin/bash
# regenerate everything and commit: tools/milestone.sh "message"
cd /verif && bash tools/imports.sh && (cd lean && lake build 2>&1 | grep -E "error|Build completed" | tee /tmp/ms.build)
grep -q "Build completed" /tmp/ms.build || { echo BUILD FAILED; exit 1; }
python3 seeded/makelog.py | tail -1
for s in props manifest axioms design_plan; do python3 tools/$s.py | tail -1; done
if grep -rnE "sorry|#exit|#guard_msgs|native_decide|bv_decide" lean/Verif lean/Verif.lean; then echo FORBIDDEN; exit 1; fi
git add -A && git commit -qm "$1" && git log --oneline | head -1
