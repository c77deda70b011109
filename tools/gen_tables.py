#!/usr/bin/env python3
"""Writes lean/Verif/Model/Tables/*.lean from the table files of /repo (database/devices.go,
database/mandatory.go, database/mandatory.txt, protocol/constants.go, commands/constants.go,
serialapi/types.go, database/json).  The Lean files are committed; the script documents how they were made."""
import re, os
OUT='/verif/lean/Verif/Model/Tables/'
os.makedirs(OUT,exist_ok=True)
def rd(p): return open('/repo/'+p,encoding='utf-8').read().split('\n')
def lit(s):
    out='"'
    for ch in s:
        out+={'\\':'\\\\','"':'\\"','\n':'\\n','\r':'\\r','\t':'\\t'}.get(ch,ch)
    return out+'"'
def gounq(s):
    "value of the body of a Go interpreted string literal (escapes used in devices.go only)"
    out='';i=0
    while i<len(s):
        if s[i]=='\\':
            out+={'\\':'\\','"':'"','r':'\r','n':'\n'}[s[i+1]]; i+=2
        else: out+=s[i]; i+=1
    return out
# ---------------------------------------------------------------- devices.go
src=rd('database/devices.go')
cases=[];funcs={};i=0
while i<len(src):
    m=re.match(r'\tcase "([^"]*)":$',src[i])
    if m:
        r=re.match(r'\t\treturn New(\w+)\(\)$',src[i+1]); cases.append((m.group(1),r.group(1),i+1))
    m=re.match(r'func New(\w+)\(\) \*Device\{$',src[i])
    if m:
        name=m.group(1); d={'line':i+1,'classes':[]}; i+=1; cur=None; params=False
        while src[i]!='}':
            l=src[i].strip()
            mm=re.match(r'(Brand|Product|Description|ManufacturerID|ProductType|ProductID): "(.*)",$',l)
            if mm and not params: d[mm.group(1)]=gounq(mm.group(2))
            elif l=='&CommandClass{' and not params: cur={}; d['classes'].append(cur)
            elif l.startswith('Parameters:'): params=True
            elif cur is not None and not params:
                mm=re.match(r'(\w+): (.*),$',l)
                if mm: cur[mm.group(1)]=mm.group(2)
            i+=1
        d['end']=i+1; funcs[name]=d
    i+=1
def code(c):
    v=c.get('Version'); v=0 if v is None else int(v[1:-1])+1
    assert v<16
    return hex(int(c['ID'],16)+256*((c.get('InNIF')=='true')+2*(c.get('Secure')=='true')+4*(c.get('NonSecure')=='true'))+4096*v)
N=60
chunks=[cases[k:k+N] for k in range(0,len(cases),N)]
per=4
files=[chunks[k:k+per] for k in range(0,len(chunks),per)]
c=0; names=[]
for fi,f in enumerate(files):
    with open(OUT+f'Devices{fi+1}.lean','w') as o:
        o.write('import Verif.Model.Tables.Row\n\n/-\nGenerated by tools/gen_tables.py from /repo/database/devices.go: the cases of the switch in `New`\n(lines 33-1446) with the device the called constructor returns.  Before each row: line of the case,\nlines of the constructor.  `Parameters` is left out (nothing reads it).\n-/\n\nnamespace Verif.Model.Tables\n\n')
        for ch in f:
            nm=f'devRows{c}'; names.append(nm); c+=1
            o.write(f'/-- database/devices.go {ch[0][2]}-{ch[-1][2]+1} -/\ndef {nm} : List DevRow := [\n')
            rows=[]
            for k,n,ln in ch:
                d=funcs[n]
                rows.append(f'  -- {ln}; {d["line"]}-{d["end"]}\n  ⟨cs! {lit(k)}, {lit(d["Brand"])}, {lit(d["Product"])}, {lit(d["Description"])}, cs! {lit(d["ManufacturerID"])}, cs! {lit(d["ProductType"])}, cs! {lit(d["ProductID"])},\n   ['+', '.join(code(x) for x in d['classes'])+']⟩')
            o.write(',\n'.join(rows)+']\n\n')
        o.write('end Verif.Model.Tables\n')
with open(OUT+'Devices.lean','w') as o:
    for fi in range(len(files)): o.write(f'import Verif.Model.Tables.Devices{fi+1}\n')
    o.write('\nnamespace Verif.Model.Tables\n\n/-- The cases of the switch in `New` in order, database/devices.go 33-1446. -/\ndef devRows : List DevRow :=\n  '+' ++ '.join(names)+'\n\nend Verif.Model.Tables\n')
# ---------------------------------------------------------------- mandatory
consts={}
for l in rd('protocol/constants.go'):
    m=re.match(r'\s*(?:const )?((?:GENERIC|SPECIFIC)_TYPE_\w+)\s*=\s*(0x[0-9A-Fa-f]+)',l)
    if m: consts[m.group(1)]=m.group(2)
ms=rd('database/mandatory.go'); defs=[]
for i,l in enumerate(ms):
    m=re.match(r'\t\tGeneric:  protocol\.(\w+),',l)
    if m: defs.append([m.group(1),None,[],i])
    m=re.match(r'\t\tSpecific: protocol\.(\w+),',l)
    if m: defs[-1][1]=m.group(1)
    m=re.match(r'\t\t\tID: (0x\w+),',l)
    if m: defs[-1][2].append(m.group(1))
used=sorted({x for d in defs for x in d[:2]})
with open(OUT+'Mandatory.lean','w') as o:
    o.write('import Verif.Model.Tables.Row\n\n/-\nGenerated by tools/gen_tables.py from /repo/database/mandatory.go, /repo/protocol/constants.go and\n/repo/database/mandatory.txt.\n-/\n\nnamespace Verif.Model.Tables\n\n')
    o.write('/-- The constants GENERIC_TYPE_* and SPECIFIC_TYPE_* used in database/mandatory.go, from\nprotocol/constants.go. -/\ndef typeConsts : List (List Char × UInt8) := [\n'+',\n'.join(f'  (cs! {lit(u)}, {consts[u]})' for u in used)+']\n\n')
    o.write('/-- The entries of the literal `definitions` in order, database/mandatory.go 7-1014: names of the two\nconstants, IDs of the command classes (the other fields of every class are zero). -/\ndef definitionRows : List ((List Char × List Char) × List UInt8) := [\n')
    o.write(',\n'.join(f'  -- {d[3]}\n  ((cs! {lit(d[0])}, cs! {lit(d[1])}), ['+', '.join(d[2])+'])' for d in defs)+']\n\n')
    tx=rd('database/mandatory.txt')
    assert tx[-1]==''; tx=tx[:-1]
    K=60; cs=[tx[k:k+K] for k in range(0,len(tx),K)]
    for j,ch in enumerate(cs):
        o.write(f'/-- database/mandatory.txt {j*K+1}-{j*K+len(ch)} -/\ndef mandatoryTxt{j} : List (List Char) := [\n'+',\n'.join('  cs! '+lit(x) for x in ch)+']\n\n')
    o.write('/-- The lines of database/mandatory.txt. -/\ndef mandatoryTxt : List (List Char) :=\n  '+' ++ '.join(f'mandatoryTxt{j}' for j in range(len(cs)))+'\n\nend Verif.Model.Tables\n')
# ---------------------------------------------------------------- names
def table(p):
    s=rd(p); cs=[]; st=[]; inc=False; pend=None
    for l in s:
        if l.startswith('const ('): inc=True
        elif l.startswith(')'): inc=False
        m=re.match(r'\t(\w+)\s*=\s*(0x\w+)',l)
        if inc and m: cs.append((m.group(1),m.group(2)))
        m=re.match(r'\tcase (0x\w+):',l)
        if m: pend=m.group(1)
        m=re.match(r'\t\tstr = "(\w+)"',l)
        if m: st.append((pend,m.group(1)))
    return cs,st
with open(OUT+'Names.lean','w') as o:
    o.write('import Verif.Model.Tables.Row\n\n/-\nGenerated by tools/gen_tables.py from /repo/commands/constants.go and /repo/serialapi/types.go.\n-/\n\nnamespace Verif.Model.Tables\n\n')
    for nm,p,a,b in (('command','commands/constants.go','108-161','163-258'),('function','serialapi/types.go','5-86','88-end')):
        cs,st=table(p)
        o.write(f'/-- The constants of {p} {a}. -/\ndef {nm}Consts : List (List Char × UInt8) := [\n'+',\n'.join(f'  (cs! {lit(x)}, {y})' for x,y in cs)+']\n\n')
        o.write(f'/-- The cases of `String` in order, {p} {b}. -/\ndef {nm}Cases : List (UInt8 × List Char) := [\n'+',\n'.join(f'  ({x}, cs! {lit(y)})' for x,y in st)+']\n\n')
        print(nm,len(cs),len(st))
    o.write('end Verif.Model.Tables\n')
print(len(cases),len(funcs),len(defs),len(chunks),len(files))
# ---------------------------------------------------------------- device files
import json
def fcode(c):
    v=0 if c['version']=='' else int(c['version'])+1
    assert v<16
    return hex(int(c['id'],16)+256*(c['nif']+2*c['secure']+4*c['nonsecure'])+4096*v)
fs=sorted(os.listdir('/repo/database/json'),key=lambda x:x.encode())   # ioutil.ReadDir sorts by name
assert all(f.endswith('.json') for f in fs)
K=50; ch=[fs[k:k+K] for k in range(0,len(fs),K)]
for i in range(0,len(ch),4):
    with open(OUT+f'Files{i//4+1}.lean','w') as o:
        o.write('import Verif.Model.Tables.FileRow\n\n/-\nGenerated by tools/gen_tables.py from the files of /repo/database/json in the order of their names: the\nfields the generator of devices.go reads, without the parameters.\n-/\n\nnamespace Verif.Model.Tables\n\n')
        for j in range(i,min(i+4,len(ch))):
            o.write(f'/-- database/json, files {j*K+1}-{j*K+len(ch[j])} -/\ndef devFiles{j} : List DevFile := [\n')
            rows=[]
            for f in ch[j]:
                d=json.load(open('/repo/database/json/'+f,encoding='utf-8'))
                eps=', '.join('['+', '.join(fcode(c) for c in e['commandclasses'])+']' for e in d['endpoints'])
                rows.append(f'  -- {f}\n  ⟨cs! {lit(d["manufacturer_id"])}, ['+', '.join('cs! '+lit(r) for r in d['device_ref'])+f'], {lit(d["manufacturer_name"])}, {lit(d["label"])}, {lit(d["decription"])},\n   [{eps}]⟩')
            o.write(',\n'.join(rows)+']\n\n')
        o.write('end Verif.Model.Tables\n')
n=(len(ch)+3)//4
with open(OUT+'Files.lean','w') as o:
    o.write(''.join(f'import Verif.Model.Tables.Files{i+1}\n' for i in range(n)))
    o.write('\nnamespace Verif.Model.Tables\n\n/-- The files of database/json in the order of their names. -/\ndef devFiles : List DevFile :=\n  '+' ++ '.join(f'devFiles{j}' for j in range(len(ch)))+'\n\nend Verif.Model.Tables\n')
print(len(fs),'files')
