#!/bin/bash
# regenerates lean/Verif.lean from the module tree and MANIFEST.json
cd "$(dirname "$0")/../lean"
for f in $(find Verif -name '*.lean' | sort); do echo "import $(echo ${f%.lean} | tr / .)"; done > Verif.lean
python3 ../tools/manifest.py
python3 ../tools/dups.py
