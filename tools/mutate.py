#!/usr/bin/env python3
"""Mutation runs.  usage: mutate.py mutants.json
A mutant: {"id", "file" (relative to Verif/), "definition", "old", "new", "claim": "Cxx: ...", "targets": [modules]}.
Works in /tmp/mut, afterwards replaced by /tmp/mut_base (a built copy of /verif/lean).  Applies the edit, builds the targets; every declaration that
no longer compiles is recorded, its proof replaced by sorry and the build repeated, so that the set of
broken declarations is complete.  A property theorem counts as failed if it is broken or uses a broken
declaration (dependency table /tmp/t/deps.jsonl of the unmutated development).
Results are appended to /tmp/mut_results.jsonl."""
import json,sys,subprocess,re,os,shutil,time
M='/tmp/mut'
deps={};ranges={}
for l in open('/tmp/t/deps.jsonl'):
    d=json.loads(l); deps[d['n']]=set(d['u'])
    if d['a'] is not None: ranges.setdefault(d['m'],[]).append((d['a'],d['b'],d['n']))
def enclosing(mod,line):
    best=None
    for a,b,n in ranges.get(mod,[]):
        if a<=line<=b and (best is None or (b-a)<best[0] or ((b-a)==best[0] and len(n)<len(best[1]))): best=(b-a,n,a,b)
    return best
memo={}
def closure(n):
    seen={n};st=[n]
    while st:
        x=st.pop()
        for y in deps.get(x,()):
            if y not in seen: seen.add(y); st.append(y)
    return seen
props=[n for n in deps if re.match(r'Verif\.Props\.C\d+_[A-Za-z_0-9]+$',n)]
clos={p:closure(p) for p in props}
def build(targets):
    p=subprocess.run(['lake','build']+targets,cwd=M,capture_output=True,text=True)
    out=p.stdout+p.stderr
    errs=sorted({(m.group(1),int(m.group(2))) for m in re.finditer(r'error: (Verif/[\w/]+\.lean):(\d+):',out)})
    killed='exited with code 137' in out or 'code 134' in out
    return p.returncode,errs,killed,out
def sorry_block(path,a,b):
    L=open(path).read().split('\n')
    txt='\n'.join(L[a-1:b])
    # candidate positions of the proof
    m=None
    for pat in (r':=\s*by\b',r':=\s',r'\n  \| '):
        # skip matches inside brackets
        for mm in re.finditer(pat,txt):
            pre=txt[:mm.start()]
            depth=0; instr=False
            for ch in pre:
                if ch in '([{⟨': depth+=1
                elif ch in ')]}⟩': depth-=1
            if depth==0: m=mm; break
        if m: break
    if not m: return False
    head=txt[:m.start()]
    new=head.rstrip()+' := by sorry'
    pad=txt.count('\n')-new.count('\n')
    L[a-1:b]=(new+'\n'*pad).split('\n')
    open(path,'w').write('\n'.join(L))
    return True
def blank(path,a,b):
    L=open(path).read().split('\n')
    for i in range(a-1,b): L[i]=''
    open(path,'w').write('\n'.join(L))
def block_of(path,line):
    "block of an example or undeclared item around line"
    L=open(path).read().split('\n')
    a=line
    while a>1 and not re.match(r'(example|theorem|private theorem|def|instance|attribute|@\[|macro|open|/-- )',L[a-1]): a-=1
    b=a+1
    while b<=len(L) and (L[b-1]=='' or L[b-1][0] in ' ') : b+=1
    return a,b-1,L[a-1]
def run(mu):
    t0=time.time()
    touched={}
    def save(f):
        if f not in touched: touched[f]=open(f).read()
    f=f'{M}/Verif/{mu["file"]}'
    save(f)
    src=touched[f]
    assert src.count(mu['old'])>=1,(mu['id'],'old not found')
    if src.count(mu['old'])>1 and not mu.get('multi'): raise SystemExit(f"{mu['id']}: old not unique")
    open(f,'w').write(src.replace(mu['old'],mu['new']))
    broken=[];notes=[]
    try:
        for rnd in range(25):
            rc,errs,killed,out=build(mu.get('targets') or ['Verif'])
            if killed: notes.append('killed'); 
            if rc==0: break
            if not errs: notes.append('no errors parsed: '+out[-600:]); break
            done=set()
            for file,line in errs:
                mod=file[:-5].replace('/','.'); p=f'{M}/{file}'
                save(p)
                if p==f: notes.append(f'model error line {line}'); continue
                e=enclosing(mod,line)
                if e:
                    if e[1] in done: continue
                    done.add(e[1])
                    if e[1] in broken: blank(p,e[2],e[3]); notes.append('removed '+e[1]); continue
                    broken.append(e[1])
                    if not sorry_block(p,e[2],e[3]): blank(p,e[2],e[3]); notes.append('removed '+e[1])
                else:
                    a,b,h=block_of(p,line)
                    if (a,file) in done: continue
                    done.add((a,file))
                    broken.append(f'{h[:40].strip()} at {file}:{a}')
                    blank(p,a,b)
            if not done: break
            if mu.get('first_only'): notes.append('stopped after first round'); break
        else: notes.append('gave up after 25 rounds')
    finally:
        shutil.rmtree(M); subprocess.run(['cp','-a','/tmp/mut_base',M],check=True)
    bset=set(broken)
    failed=sorted(p.replace('Verif.Props.','') for p in props if clos[p]&bset)
    r={'id':mu['id'],'definition':mu['definition'],'edit':mu.get('edit') or f"{mu['old']} -> {mu['new']}",'claim':mu['claim'],'broken':broken,'failed':failed,'notes':notes,'secs':round(time.time()-t0)}
    open('/tmp/mut_results.jsonl','a').write(json.dumps(r,ensure_ascii=False)+'\n')
    hit=[x for x in failed if any(x.startswith(c) for c in re.findall(r'C\d+',mu['claim']))]
    print(mu['id'],mu['claim'][:60],'| claim theorems failed:',hit,'| others',len(failed)-len(hit),'| broken',len(broken),notes,r['secs'],flush=True)
if __name__=='__main__':
    ms=json.load(open(sys.argv[1]))
    only=set(sys.argv[2:])
    for mu in ms:
        if only and mu['id'] not in only: continue
        run(mu)
