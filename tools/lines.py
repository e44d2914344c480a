# Lists, for each source file cited under Model/, the code lines no citation covers.
import re,glob,os,collections
cov=collections.defaultdict(set)
files={}
for f in glob.glob('/repo/oclint-*/**/*',recursive=True):
    if f.endswith(('.cpp','.h')) and '/test/' not in f: files.setdefault(os.path.basename(f),[]).append(f)
for m in glob.glob('/verif/lean/Verif/Model/*.lean'):
    t=open(m).read()
    for g in re.finditer(r'(\w+\.(?:cpp|h))((?:[:, `(]|and|lines?|\s)*\d+(?:\s*[-–]\s*\d+)?(?:(?:,|`|\s|and)+\d+(?:\s*[-–]\s*\d+)?)*)',t):
        for r in re.finditer(r'(\d+)(?:\s*[-–]\s*(\d+))?',g.group(2)):
            a=int(r.group(1)); b=int(r.group(2) or a); cov[g.group(1)].update(range(a,b+1))
for n in sorted(cov):
    for f in files.get(n,[]):
        L=open(f,errors='replace').read().split('\n'); miss=[]
        doc=False
        for i,l in enumerate(L,1):
            s=l.strip()
            if '#ifdef DOCGEN' in s: doc=True
            skip=doc or not s or re.search(r'(virtual )?(const )?(std::)?(string|int) (name|priority|category|since|description)\(|^return "[a-z ]+";$|^return \d;$|^static RuleSet rules|^extern|^std::string _|^typedef|^return new',s) or s in '{};' or s.startswith(('#','//','/*','*','using','namespace','class','public','private','protected'))
            if doc and '#endif' in s: doc=False
            if not skip and i not in cov[n]: miss.append(i)
        tot=len(L)
        rs=[]
        for i in miss:
            if rs and i<=rs[-1][1]+2: rs[-1][1]=i
            else: rs.append([i,i])
        print(f.replace('/repo/',''),f'{len(miss)}/{tot}',' '.join(f'{a}-{b}' for a,b in rs))
