#!/usr/bin/env python3
"""Names declared twice: modules that each build but cannot be imported together."""
import re, glob, collections, os
root = os.path.join(os.path.dirname(os.path.abspath(__file__)), '..', 'lean', 'Verif')
seen = collections.defaultdict(set)
for f in glob.glob(root + '/**/*.lean', recursive=True):
    ns = []
    for line in open(f):
        m = re.match(r'namespace (\S+)', line)
        if m: ns.append(m.group(1)); continue
        m = re.match(r'end (\S+)', line)
        if m and ns and ns[-1] == m.group(1): ns.pop(); continue
        m = re.match(r'(?:@\[[^\]]*\]\s*)?(?:noncomputable )?(?:theorem|def|structure|inductive|abbrev|instance) (\S+)', line)
        if m and m.group(1) not in (':', '('): seen['.'.join(ns + [m.group(1)])].add(os.path.relpath(f, root))
for k, v in sorted(seen.items()):
    if len(v) > 1: print(k, *sorted(v))
