import json,re,os
P={}
for l in open('/verif/properties.jsonl'):
    d=json.loads(l); P[d['id']]=d['title']
FILE={'Results':['C01','C02','C05'],'Registry':['C06','C07'],'Options':['C13','C14','C16'],'Loader':['C24'],'Main':['C17'],'RuleBase':['C09','C10'],'RulesetFilter':['C11'],'ShortNames':['C60'],'SortTable':['C59'],'SourceLines':['C32'],'Suppress':['C26','C28'],'Thresholds':['C38'],'Metrics':['C33','C34','C35','C36','C37'],'Driver':['C19','C21','C22'],'Reporters':['C54','C55'],'Text':['C08'],'Basic':['C08'],'Ast':['C33'],'RulesControl':['C39','C41'],'RulesExpr':['C46','C47','C50'],'RulesSwitch':['C49','C65'],'RulesNull':['C52','C66'],'FeatureEnvy':['C53']}
import glob,collections
body={}
for f in glob.glob('/verif/lean/Verif/**/*.lean',recursive=True):
    t=open(f).read(); t=re.sub(r'/-.*?-/','',t,flags=re.S)
    for ch in re.split(r'\n(?=(?:@\[[^\]]*\]\s*)?(?:private |protected |noncomputable )*(?:theorem|def|example|instance|inductive|structure|abbrev)\b)',t):
        m=re.match(r'\s*(?:@\[[^\]]*\]\s*)?(?:private |protected |noncomputable )*(?:theorem|def|inductive|structure|abbrev)\s+(\S+)',ch)
        if m: body[m.group(1)]=set(re.findall(r"[\w.'!?₁-₉]+",ch))
usedby=collections.defaultdict(set)
for n,ws in body.items():
    for w in ws:
        if w in body and w!=n: usedby[w].add(n)
def claimsfor(names):
    seen=set(names); level=list(names)
    while level:
        hit=sorted({re.match(r'C\d+',x).group(0) for x in level if re.match(r'C\d+_',x)})
        if hit: return hit
        nxt=[]
        for x in level:
            for y in usedby.get(x,()):
                if y not in seen: seen.add(y); nxt.append(y)
        level=nxt
    return []
REN={a:a+'_partial' for a in ('C13_precedence','C13_processing_succeeds','C14_rule_paths','C14_rule_configuration','C14_rule_selection','C17_always_exits')}
NOTE=json.load(open('/tmp/mut/survivors.json'))
out=[]
RC={}
for l in open('/tmp/mut/recheck.jsonl'):
    d=json.loads(l); RC[d['key']]=d
for l in open('/tmp/mut/results.jsonl'):
    r=json.loads(l)
    if r['status']=='stillborn': continue  # the edited model does not compile: not a wrong program
    again=r['status']=='SURVIVED' and RC.get(r['key'],{}).get('status')=='killed'
    if again: r['status']='killed'; r['failed']=RC[r['key']]['failed']
    r['failed']=[REN.get(f,f) for f in r['failed']]
    m=os.path.basename(r['file'])[:-5]
    cs=sorted({re.match(r'C\d+',f).group(0) for f in r['failed'] if re.match(r'C\d+_',f)}) or claimsfor([f for f in r['failed'] if f in body]) or claimsfor([r['decl']]) or FILE.get(m,[])[:1]
    rec=dict(definition=f"{r['decl']} ({r['file']}:{r['line']})",edit=f"`{r['src']}`: {r['old'].strip() or r['old']} -> {r['new'].strip() or '(removed)'}",
      claim='; '.join(c+': '+P[c] for c in cs), failed=r['failed'], tightened=[])
    if r['status']=='timeout': rec['evidence']='none: the build did not finish in time'
    elif any(re.match(r'C\d+_',f) for f in r['failed']): rec['evidence']='the proof of a property theorem failed'
    elif r['status']=='killed': rec['evidence']='only the proofs of lemmas were seen to fail (the build is stopped after the first errors); the claim is inferred from what uses them'
    if again:
        rec['evidence']='everything still proved at first; after theorems were added or tightened: '+rec['evidence']
        rec['tightened']=[f for f in r['failed'] if re.match(r'C\d+_',f)] or ['theorems of '+', '.join(cs)]
    if r['status']=='SURVIVED':
        rec['evidence']='everything still proves'
        k=r['decl']
        n=NOTE.get(k)
        if n is None:
            print('no note for survivor',k,r['line'],r['old'],r['new'])
            rec['claim']='not examined yet'
        else: rec['claim']=n['claim']; rec['tightened']=n['tightened']
    out.append(rec)
for e in ('/tmp/mut/manual.jsonl',):
    if os.path.exists(e): out+= [json.loads(l) for l in open(e)]
open('/verif/seeded/LOG.jsonl','w').write(''.join(json.dumps(x,ensure_ascii=False)+'\n' for x in out))
print(len(out))
