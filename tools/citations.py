# Checks citations under Model/: the range exists, does not begin or end on a blank line or begin on a
# closing brace, and contains the function named right after it.
import re,glob,os
files={}
for f in glob.glob('/repo/oclint-*/**/*',recursive=True):
    if f.endswith(('.cpp','.h')) and '/test/' not in f: files[os.path.basename(f)]=open(f,errors='replace').read().split('\n')
n=bad=0
for m in sorted(glob.glob('/verif/lean/Verif/Model/*.lean')):
    t=open(m).read()
    for g in re.finditer(r'(\w+\.(?:cpp|h)):(\d+)(?:-(\d+))?((?:`?(?:,|\s|and)+`?\d+(?:-\d+)?(?![\w.]))*)`?(?:,\s+`([\w:]+)`)?',t):
        name=g.group(1); L=files.get(name); ln=t.count('\n',0,g.start())+1
        rs=[(int(g.group(2)),int(g.group(3) or g.group(2)))]+[(int(a),int(b or a)) for a,b in re.findall(r'(\d+)(?:-(\d+))?',g.group(4) or '')]
        why=[]
        if L is None: why.append('no such file'); rs=[]
        body=''
        for a,b in rs:
            n+=1
            if b>len(L) or a>b: why.append(f'{a}-{b} out of range'); continue
            if not L[a-1].strip(): why.append(f'{a} blank')
            if L[a-1].strip() in ('}','};'): why.append(f'{a} is closing brace')
            if not L[b-1].strip(): why.append(f'{b} blank')
            d=sum(l.count('{')-l.count('}') for l in L[a-1:b])
            if d: why.append(f'{a}-{b} braces {d:+d}')
            body+='\n'.join(L[a-1:b])
        fn=g.group(5)
        if fn and rs and fn.split('::')[-1] not in body: why.append(f'{fn} not in range')
        if why: bad+=1; print(f'{os.path.basename(m)}:{ln} {g.group(0)!r}: '+'; '.join(why))
print(n,'ranges',bad,'suspect')
