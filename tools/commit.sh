#!/bin/bash
# regenerate generated files, build, commit; usage: commit.sh message
cd /verif && python3 tools/props.py && python3 tools/manifest.py && bash tools/mkroot.sh && python3 tools/design_gen.py && (cd lean && lake build 2>&1 | tail -1 | tee /tmp/lb.log) && grep -q "completed successfully" /tmp/lb.log && git add -A && git commit -qm "$1" && git log --oneline | head -1
