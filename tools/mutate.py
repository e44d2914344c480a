#!/usr/bin/env python3
"""Mutation testing: run.py [files...]; edits a scratch copy of the model and rebuilds."""
import re,sys,os,subprocess,json,random,time,shutil,hashlib
SRC='/verif/lean'; W='/tmp/mut/lean'
OUT='/tmp/mut/results.jsonl'
def sync():
    os.makedirs(W,exist_ok=True)
    subprocess.run(['rsync','-a','--delete','--exclude','.lake',SRC+'/',W+'/'],check=True) if shutil.which('rsync') else (
      [shutil.rmtree(W+'/Verif',ignore_errors=True), shutil.copytree(SRC+'/Verif',W+'/Verif'),
       [shutil.copy2(SRC+'/'+f,W+'/'+f) for f in os.listdir(SRC) if os.path.isfile(SRC+'/'+f)]])
    # keep mtimes; memory limit
    t=open(W+'/lakefile.toml').read()
    if '-M' not in t:
        t=t.replace('[[lean_lib]]','[[lean_lib]]\nmoreLeanArgs = ["-M", "5000"]',1) 
        open(W+'/lakefile.toml','w').write(t)
def decls(path):
    res=[]
    for i,l in enumerate(open(path).read().split('\n'),1):
        m=re.match(r'\s*(?:@\[[^\]]*\]\s*)?(?:private |protected |noncomputable )*(theorem|def|example|instance|inductive|structure|abbrev)\s*(\S*)',l)
        if m: res.append((i,m.group(2) or m.group(1)))
    return res
def enclosing(path,line):
    n='?'
    for i,d in decls(path):
        if i<=line: n=d
    return n
def build(timeout=400):
    p=subprocess.Popen(['lake','build'],cwd=W,stdout=subprocess.PIPE,stderr=subprocess.STDOUT,text=True,start_new_session=True)
    import threading
    lines=[]; first=[None]
    def rd():
        for l in p.stdout:
            lines.append(l)
            if first[0] is None and re.match(r'error: \S+\.lean:',l): first[0]=time.time()
    th=threading.Thread(target=rd,daemon=True); th.start()
    s=time.time()
    while True:
        th.join(0.5)
        rc=p.poll()
        if rc is not None and not th.is_alive(): return rc,''.join(lines)
        if first[0] and time.time()-first[0]>6:
            try: os.killpg(p.pid,9)
            except Exception: pass
            p.wait(); th.join(2)
            return 1,''.join(lines)
        if time.time()-s>timeout:
            try: os.killpg(p.pid,9)
            except Exception: pass
            p.wait(); th.join(2)
            return -1,''.join(lines)
OPS=[
 (r' < ',' ≤ '),(r' ≤ ',' < '),(r' > ',' ≥ '),(r' ≥ ',' > '),
 (r' && ',' || '),(r' \|\| ',' && '),(r' ∨ ',' ∧ '),(r' ∧ ',' ∨ '),
 (r' \+ 1\b',' + 2'),(r' \+ 1\b',''),(r' - 1\b',''),(r' - 1\b',' - 2'),(r' \+ ',' - '),(r' - ',' + '),
 (r'\btrue\b','false'),(r'\bfalse\b','true'),(r'!',''),
 (r' = ',' ≠ '),(r' ≠ ',' = '),
 (r'\bpure none\b','pure (some [])'),(r'=> none\b','=> default'),
 (r'\.reverse\b',''),(r'\.fst\b','.snd'),
 (r'\b10\b','11'),(r'\b0\b','1'),(r'\b1\b','0'),(r'\b2\b','3'),
 (r'"([^"\\])([^"]+)"\.toList',r'"\2".toList'),
 (r'"([^"]+)"\.toList',r'"\1x".toList'),
 (r'\.foldl\b','.foldr'),(r'::','++'),
 (r'some \(','none -- ('),
]
def mutants(rel):
    t=open(W+'/'+rel).read()
    # mask comments
    mask=re.sub(r'/-.*?-/',lambda m:re.sub(r'[^\n]','\0',m.group(0)),t,flags=re.S)
    mask=re.sub(r'--[^\n]*',lambda m:'\0'*len(m.group(0)),mask)
    # skip theorem proofs inside models
    mask=re.sub(r'^(theorem|decreasing_by|termination_by|import|open|namespace|end|deriving|instance|attribute|set_option).*?(?=^\S|\Z)',lambda m:re.sub(r'[^\n]','\0',m.group(0)),mask,flags=re.S|re.M)
    res=[]
    for pat,rep in OPS:
        for m in re.finditer(pat,mask):
            # whole-line exclusions
            a,b=m.start(),m.end()
            ls=t.rfind('\n',0,a)+1; le=t.find('\n',a)
            line=t[ls:le]
            if re.match(r'\s*(def|abbrev|structure|inductive|mutual|where|\|\s*\w+\s*\()',line) and ':=' not in line: continue
            if pat==r'!' and t[b:b+1]=='=': continue
            new=t[:a]+m.expand(rep)+t[b:]
            res.append((ls,line,m.group(0),m.expand(rep),new))
    # drop whole match arms / statement lines
    pos=0
    lines=t.split('\n'); mlines=mask.split('\n')
    for i,(l,ml) in enumerate(zip(lines,mlines)):
        ls=sum(len(x)+1 for x in lines[:i])
        if re.match(r'\s+let \w+ ← .*',ml): pass
        m=re.match(r'(\s+)if (.*) then(.*)$',ml)
        if m and '\0' not in ml:
            new='\n'.join(lines[:i]+[f'{m.group(1)}if ¬ ({m.group(2)}) then{m.group(3)}']+lines[i+1:])
            if 'let' not in m.group(2) : res.append((ls,l,'if c','if ¬c',new))
    # swap adjacent arm bodies on single lines
    for i in range(len(lines)-1):
        a=re.match(r'(\s*\| .*=> )(.+)$',mlines[i]); b=re.match(r'(\s*\| .*=> )(.+)$',mlines[i+1])
        if a and b and a.group(2)!=b.group(2) and '\0' not in mlines[i]+mlines[i+1]:
            new='\n'.join(lines[:i]+[a.group(1)+b.group(2),b.group(1)+a.group(2)]+lines[i+2:])
            ls=sum(len(x)+1 for x in lines[:i])
            res.append((ls,lines[i]+' / '+lines[i+1],'arms','swapped arms',new))
    return t,res
def main():
    files=sys.argv[1:]
    sync()
    print('base build'); print(build(3000)[0])
    seen=set()
    if os.path.exists(OUT):
        for l in open(OUT):
            seen.add(json.loads(l)['key'])
    random.seed(1)
    for rel in files:
        orig,ms=mutants(rel)
        print(rel,len(ms),flush=True)
        random.shuffle(ms)
        ms=ms[:int(os.environ.get('LIMIT','30'))]
        for ls,line,old,new_s,new in ms:
            key=hashlib.md5((rel+line+old+new_s+str(ls)).encode()).hexdigest()
            if key in seen or new==orig: continue
            seen.add(key)
            open(W+'/'+rel,'w').write(new)
            s=time.time()
            rc,out=build()
            lineno=orig[:ls].count('\n')+1
            d=enclosing(SRC+'/'+rel,lineno)
            errs=re.findall(r'error: (\S+\.lean):(\d+):\d+',out)
            if rc==0: st='SURVIVED'
            elif any(e[0]==rel for e in errs) and all(e[0]==rel or '/Model/' in e[0] for e in errs): st='stillborn'
            elif rc==-1: st='timeout'
            else: st='killed'
            failed=[]
            for f,n in errs:
                x=enclosing(W+'/'+f,int(n))
                if x not in failed: failed.append(x)
            rec=dict(key=key,file=rel,line=lineno,decl=d,src=line.strip(),old=old,new=new_s,status=st,failed=failed,secs=round(time.time()-s,1))
            open(OUT,'a').write(json.dumps(rec,ensure_ascii=False)+'\n')
            if st=='SURVIVED': print(st,rel,lineno,d,'|',line.strip(),'|',old,'->',new_s,flush=True)
            open(W+'/'+rel,'w').write(orig)
    print('done')
if __name__=='__main__': main()
