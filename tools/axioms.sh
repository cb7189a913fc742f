#!/bin/sh
# prints the axioms of every theorem named in MANIFEST.json (needs a finished lake build)
python3 - <<'EOF'
import json
m=json.load(open('/verif/MANIFEST.json'))
open('/tmp/Ax.lean','w').write('import Verif\n'+'\n'.join('#print axioms '+t for c in m['claims'] for t in c['theorems'])+'\n')
EOF
cd /verif/lean && lake env lean /tmp/Ax.lean
