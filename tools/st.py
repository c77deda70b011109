#!/usr/bin/env python3
"""Set the status of a property: st.py C29 partial "note"."""
import json, sys
p = '/verif/tools/status.json'
d = json.load(open(p))
d[sys.argv[1]] = [sys.argv[2], sys.argv[3]]
json.dump(dict(sorted(d.items())), open(p, 'w'), indent=1)
