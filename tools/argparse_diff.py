import argparse, random, subprocess, io, contextlib, sys
random.seed(int(sys.argv[1]) if len(sys.argv)>1 else 1)
MOD=['core','metrics','rules','reporters','driver']
def build():
    a=argparse.ArgumentParser()
    a.add_argument('module_name', nargs='?', choices=['all'] + MOD, default='all')
    a.add_argument('-docgen', '--docgen', action='store_true')
    a.add_argument('-release', '--release', action="store_true")
    a.add_argument('-clean', '--clean', action="store_true")
    a.add_argument('-j', type=int, default=0)
    a.add_argument('-llvm-root', '--llvm-root', default='ROOT')
    a.add_argument('-no-ninja', '--no-ninja', action='store_true')
    a.add_argument('--use-llvm-clang', dest='use_llvm_clang', action='store_true')
    a.add_argument('--no-llvm-clang', dest='use_llvm_clang', action='store_false')
    a.set_defaults(use_llvm_clang=False)
    return a
def ci():
    a=argparse.ArgumentParser()
    a.add_argument('-reset', '--reset', action="store_true")
    a.add_argument('-setup', '--setup', action="store_true")
    a.add_argument('-release', '--release', action="store_true")
    a.add_argument('-archive', '--archive', action="store_true")
    a.add_argument('-j', type=int, default=0)
    return a
def rule():
    a=argparse.ArgumentParser()
    a.add_argument("class_name")
    a.add_argument("-t", "--type", dest='rule_type', choices=['Generic', 'SourceCodeReader', 'ASTVisitor', 'ASTMatcher'], default="Generic")
    a.add_argument("-c", "--category", dest='rule_category', default="custom")
    a.add_argument("-n", "--name", dest='rule_name', default="")
    a.add_argument("-p", "--priority", type=int, dest='rule_priority', choices=[1, 2, 3], default=3)
    a.add_argument(      "--test",    dest='generate_tests', action='store_true')
    a.add_argument(      "--no-test", dest='generate_tests', action='store_false')
    a.set_defaults(generate_tests=True)
    return a
B=lambda b:'true' if b else 'false'
def run(p,ws,show):
    try:
        with contextlib.redirect_stderr(io.StringIO()), contextlib.redirect_stdout(io.StringIO()):
            n=p.parse_args(ws)
        return 'P '+show(n)
    except SystemExit as e: return 'H' if e.code==0 else 'R'
sb=lambda n:'|'.join([n.module_name,B(n.docgen),B(n.release),B(n.clean),str(n.j),n.llvm_root,B(n.no_ninja),B(n.use_llvm_clang)])
sc=lambda n:'|'.join([B(n.reset),B(n.setup),B(n.release),B(n.archive),str(n.j)])
sr=lambda n:'|'.join([n.class_name,n.rule_type,n.rule_category,n.rule_name,str(n.rule_priority),B(n.generate_tests)])
common=['--','-','','-h','--help','-4','4','-j','-j4','-j=4','-j=','--j','-1.5','-.5','-x','--x','--x=1','-x y','--=','-=','=','--h','-he','-hj','-hj4','-hj=4','-hh','-hx','-h=','-h=x','-h-','a b','core','all','Foo',' 4 ','1_0','1__0','_1','-0','+3','- 3','-5\n','--=x','-hhj','-hhj=7']
vb=['-docgen','--docgen','-release','--rel','-r','-clean','--clean=x','-clean=','-c','-cl','-llvm-root','--llvm-root=/x','-llvm-root=/y z','--llvm-root','-l','-llvm','-n','-no','--no','--no-n','--no-ninja','--use','--use-llvm-clang','--no-llvm-clang','--llvm=','--llvm-r','driver','rules','-no-ninja','-d','--d','-docgenx','-rj4']
vc=['-reset','-re','-r','--re','--res','-setup','-s','--setup=1','-release','-archive','-a','-arj4','-aj4','--a']
vr=['-t','--type','--t','--ty','--te','--test','--no-test','-no-test','-n','-nfoo','-n=foo','--n','--na','--no','--name=','--name=-x','-c','-clean','--category=a=b','-p','-p3','-p=2','-p 1','--pri','--priority=03','Generic','ASTVisitor','-tASTMatcher','-t=Generic','3','2','1','-hp2','-hp','-hn=','-test','-hc=a']
def gen(v):
    k=random.choice([0,1,1,2,2,2,3,3,3,4,4,5,6])
    return [random.choice(v if random.random()<.65 else common) for _ in range(k)]
N=1200
cases=[]
for name,mk,show,v in (('b',build,sb,vb),('c',ci,sc,vc),('r',rule,sr,vr)):
    p=mk()
    for _ in range(N):
        ws=gen(v); cases.append((name,ws,run(p,ws,show)))
def lit(s): return '"'+s.replace('\\','\\\\').replace('"','\\"').replace('\n','\\n')+'"'
L=['import Verif.Model.Argparse','open Oclint','def st (s : Str) : String := String.ofList s',
'def mn : Option OclintModule → String | none => "all" | some m => st m.name',
'def jn (l : List String) : String := String.intercalate "|" l',
'def res {σ} (f : σ → String) : ParseResult σ → String | .parsed s => "P " ++ f s | .refused => "R" | .helped => "H"',
'def bp := { buildParser [] with defaults := { llvmRoot := "ROOT".toList } }',
'def fb (n : BuildArgs) := jn [mn n.moduleName, toString n.docgen, toString n.release, toString n.clean, toString n.j, st n.llvmRoot, toString n.noNinja, toString n.useLlvmClang]',
'def fc (n : CiArgs) := jn [toString n.reset, toString n.setup, toString n.release, toString n.archive, toString n.j]',
'def fr (n : RuleRequest) := jn [st n.className, st n.type.text, st n.category, st n.name, st n.priority.text, toString n.tests]',
'def goB (w : List String) := res fb (bp.parse (w.map (·.toList)))',
'def goC (w : List String) := res fc (ciParser.parse (w.map (·.toList)))',
'def goR (w : List String) := res fr (ruleParser.parse (w.map (·.toList)))']
for i in range(0,len(cases),100):
    ch=cases[i:i+100]
    L.append('def cs%d : List (String × List String × String) := ['%i+',\n'.join('("%s", [%s], %s)'%(n,', '.join(map(lit,w)),lit(r)) for n,w,r in ch)+']')
    L.append('#eval (cs%d.filterMap fun (k, w, r) => let g := if k == "b" then goB w else if k == "c" then goC w else goR w; if g == r then none else some (k, w, r, g))'%i)
open('/tmp/argparse_diff.lean','w').write('\n'.join(L)+'\n')
from collections import Counter
print(Counter((c[0],c[2][0]) for c in cases))
