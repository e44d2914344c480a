#!/usr/bin/env python3
"""Replays the repository's own tests against the model.

Reads the test files in /repo as text, lets clang (the one of the Lean toolchain) parse the snippets
in them, translates the syntax trees into the terms of Model/Ast.lean and writes one Lean `example`
per test that compares what the model reports with what the test expects.  Nothing of the project is
built or run.
"""
import json, os, re, subprocess, sys, glob

CLANG = os.environ.get('CLANG', '/app/toolchains/lean-4.33.0-linux/bin/clang')
REPO = '/repo'
CACHE = '/tmp/ct/cache'
os.makedirs(CACHE, exist_ok=True)


# ---------------------------------------------------------------- test files

def strip_comments(s):
    out, i, n = [], 0, len(s)
    while i < n:
        if s.startswith('//', i):
            j = s.find('\n', i)
            i = n if j < 0 else j
        elif s.startswith('/*', i):
            i = s.index('*/', i) + 2
        elif s.startswith('R"END(', i):
            j = s.index(')END"', i) + 5
            out.append(s[i:j]); i = j
        elif s[i] == '"':
            j = i + 1
            while s[j] != '"':
                j += 2 if s[j] == '\\' else 1
            out.append(s[i:j + 1]); i = j + 1
        elif s[i] == "'":
            j = i + 1
            while s[j] != "'":
                j += 2 if s[j] == '\\' else 1
            out.append(s[i:j + 1]); i = j + 1
        else:
            out.append(s[i]); i += 1
    return ''.join(out)


TOK = re.compile(r'''\s*(R"END\((?:.|\n)*?\)END"|"(?:\\(?:.|\n)|[^"\\])*"|[A-Za-z_][A-Za-z_0-9:]*|-?\d+|[^\s])''')


def tokens(s):
    pos, out = 0, []
    while True:
        m = TOK.match(s, pos)
        if not m:
            return out
        out.append(m.group(1)); pos = m.end()


def unquote(lit):
    if lit.startswith('R"END('):
        return lit[6:-5]
    body = lit[1:-1].replace('\\\n', '')
    esc = {'n': '\n', 't': '\t', '"': '"', '\\': '\\', "'": "'", '0': '\0', 'r': '\r'}
    return re.sub(r'\\(.)', lambda m: esc[m.group(1)], body)


MARKS = {'VIOLATION_START': '\x01', 'VIOLATION_END': '\x02'}


class Skip(Exception):
    pass


def parse_args(ts, i):
    """Arguments of a call; ts[i] is behind the opening parenthesis."""
    args, cur, depth = [], [], 0
    while True:
        t = ts[i]
        if t in '({' :
            depth += 1; cur.append(t)
        elif t in ')}' and depth > 0:
            depth -= 1; cur.append(t)
        elif t == ')':
            if cur: args.append(cur)
            return args, i + 1
        elif t == ',' and depth == 0:
            args.append(cur); cur = []
        else:
            cur.append(t)
        i += 1


def text_of(ts, env):
    out = ''
    for t in ts:
        if t[0] == '"' or t.startswith('R"END('):
            out += unquote(t)
        elif t in MARKS:
            out += MARKS[t]
        elif t in env:
            out += env[t]
        elif t == '+' or t in ('std::string', 'string', '(', ')'):
            pass
        else:
            raise Skip('text ' + ' '.join(ts))
    return out


def test_cases(path):
    """Yields (test name, function, args, env) for each call of a testing function."""
    s = strip_comments(open(path).read())
    s = s.replace('\\\n', '\\\n')
    env = {}
    for m in re.finditer(r'(?:static )?(?:const )?(?:(?:std::)?string|char ?\*) ?(\w+)\s*=\s*((?:"(?:\\(?:.|\n)|[^"\\])*"|R"END\((?:.|\n)*?\)END"|\w+|\s|\+|VIOLATION_\w+)*);', s):
        try:
            env[m.group(1)] = text_of(tokens(m.group(2)), env)
        except Skip:
            pass
    heads = list(re.finditer(r'TEST(?:_F)?\(\s*(\w+)\s*,\s*(\w+)\s*\)', s))
    for k, h in enumerate(heads):
        body = s[h.end():heads[k + 1].start() if k + 1 < len(heads) else len(s)]
        yield h.group(2), body, env


# ---------------------------------------------------------------- clang

LANG = {'': ('c', []), 'CXX': ('cpp', []), 'CXX11': ('cpp', ['-std=c++11']),
        'ObjC': ('m', ['-fobjc-exceptions', '-fblocks', '-Wno-everything'])}


def clang_ast(lang, code):
    import hashlib
    key = hashlib.sha1((lang + '\0' + code).encode()).hexdigest()
    f = os.path.join(CACHE, key + '.json')
    if not os.path.exists(f):
        if lang not in LANG: raise Skip('language ' + lang)
        ext, flags = LANG[lang]
        src = os.path.join(CACHE, key + '.' + ext)
        open(src, 'w').write(code)
        r = subprocess.run([CLANG, '-fsyntax-only', '-w', *flags, '-Xclang', '-ast-dump=json', src],
                           capture_output=True, text=True)
        if r.returncode != 0:
            open(f, 'w').write(json.dumps({'error': r.stderr}))
        else:
            open(f, 'w').write(r.stdout)
    d = json.load(open(f))
    if 'error' in d:
        raise Skip('clang: ' + d['error'].split('\n')[0])
    return d


# ---------------------------------------------------------------- translation

BINOP = {'&&': '.land', '||': '.lor', '==': '.eq', '!=': '.ne', '<': '.lt', '>': '.gt', '<=': '.le',
         '>=': '.ge', '+': '.add', '-': '.sub', '*': '.mul', '/': '.div', '%': '.rem', '<<': '.shl',
         '>>': '.shr', '&': '.band', '|': '.bor', '^': '.bxor', '=': '.assign', ',': '.comma'}
COMPOUND = ['*=', '/=', '%=', '+=', '-=', '<<=', '>>=', '&=', '^=', '|=']
UNOP = {'!': '.lnot', '~': '.not', '+': '.plus', '-': '.minus', '*': '.deref', '&': '.addrOf'}
CASTK = {'NullToPointer': '.nullToPointer', 'BitCast': '.bitCast',
         'PointerToBoolean': '.pointerToBoolean', 'LValueToRValue': '.lvalueToRvalue'}


def lean_str(s):
    out = ''
    for c in s:
        if c == '"': out += '\\"'
        elif c == '\\': out += '\\\\'
        elif c == '\n': out += '\\n'
        elif c == '\t': out += '\\t'
        else: out += c
    return '"' + out + '"'


def own_children(n):
    """What is below a node: a method also lists the declarations in its body."""
    if n.get('kind') == 'ObjCMethodDecl':
        return [c for c in n.get('inner', []) if c.get('kind') in ('ParmVarDecl', 'CompoundStmt')]
    if n.get('kind') == 'OpaqueValueExpr':
        return []
    return n.get('inner', [])


class Tree:
    """A translation of one snippet."""

    def __init__(self, ast, code):
        self.ast, self.code = ast, code
        self.ids = {}
        self.placed = []      # (begin, end, term, kind) of translated nodes
        self.enums = {}
        self.decl_of = {}
        self.collect(ast)

    def collect(self, n):
        if not isinstance(n, dict):
            return
        if n.get('kind') == 'EnumDecl':
            self.enums[n.get('id')] = [c['name'] for c in n.get('inner', [])
                                       if c.get('kind') == 'EnumConstantDecl']
            self.enums[n.get('name')] = self.enums[n.get('id')]
        for c in n.get('inner', []):
            self.collect(c)

    def num(self, ident):
        return self.ids.setdefault(ident, len(self.ids))

    def decl_id(self, d):
        return '⟨%d, %s.toList⟩' % (self.num(d['id']), lean_str(d.get('name', '')))

    @staticmethod
    def off(loc, which):
        if 'offset' in loc:
            return loc['offset']
        return loc.get('expansionLoc', {}).get('offset')

    def opt(self, n):
        return 'none' if n is None or not n.get('kind') else '(some %s)' % self.tr(n)

    def lst(self, ns):
        return '[' + ', '.join(self.tr(n) for n in ns) + ']'

    def tr(self, n):
        if not n.get('kind'):
            raise Skip('null child')
        t = self.tr1(n)
        r = n.get('range', {})
        self.placed.append((self.off(r.get('begin', {}), 0), self.off(r.get('end', {}), 1), t, n['kind']))
        return t

    def kids(self, n):
        return [c for c in own_children(n) if not c.get('kind', '').endswith('Attr')
                and not c.get('kind', '').endswith('Comment')]

    def tr1(self, n):
        k = n['kind']
        inner = self.kids(n)
        if k == 'NullStmt': return '.nullS'
        if k == 'CompoundStmt': return '(.compound %s)' % self.lst(inner)
        if k == 'IfStmt':
            pre = []
            if n.get('hasInit'): pre.append(inner.pop(0))
            if n.get('hasVar'): pre.append(inner.pop(0))
            if len(pre) > 1: raise Skip('if with two')
            els = inner[2] if len(inner) > 2 else None
            p = self.opt(pre[0] if pre else None)
            c = self.tr(inner[0]); t = self.tr(inner[1])
            return '(.ifS %s %s %s %s)' % (p, c, t, self.opt(els))
        if k == 'WhileStmt':
            if n.get('hasVar'): raise Skip('while var')
            return '(.whileS %s %s)' % (self.tr(inner[0]), self.tr(inner[1]))
        if k == 'DoStmt': return '(.doS %s %s)' % (self.tr(inner[0]), self.tr(inner[1]))
        if k == 'ForStmt':
            i, v, c, inc, b = n['inner']
            if v.get('kind'): raise Skip('for var')
            return '(.forS %s %s %s %s)' % (self.opt(i), self.opt(c), self.opt(inc), self.tr(b))
        if k == 'CXXForRangeStmt':
            ch = n['inner']
            init, rng, beg, end, cond, inc, var, body = ch
            if init.get('kind'): raise Skip('range init')
            rinit = self.kids(self.kids(rng)[0])[-1]
            v = self.tr(var)
            return '(.forRange %s %s %s)' % (self.tr(rinit), v, self.tr(body))
        if k == 'ObjCForCollectionStmt':
            return '(.forIn %s %s %s)' % tuple(self.tr(c) for c in inner)
        if k == 'SwitchStmt':
            if n.get('hasInit') or n.get('hasVar'): raise Skip('switch init')
            return '(.switchS %s %s %s)' % (self.covered(n), self.tr(inner[0]), self.tr(inner[1]))
        if k == 'CaseStmt':
            if n.get('isGNURange'): raise Skip('case range')
            return '(.caseS %s %s)' % (self.tr(inner[0]), self.tr(inner[-1]))
        if k == 'DefaultStmt': return '(.defaultS %s)' % self.tr(inner[0])
        if k == 'LabelStmt': return '(.labelS %s.toList %s)' % (lean_str(n['name']), self.tr(inner[0]))
        if k == 'GotoStmt': return '(.gotoS [])'
        if k == 'IndirectGotoStmt': return '(.indirectGoto %s)' % self.tr(inner[0])
        if k == 'BreakStmt': return '.breakS'
        if k == 'ContinueStmt': return '.continueS'
        if k == 'ReturnStmt': return '(.returnS %s)' % self.opt(inner[0] if inner else None)
        if k == 'DeclStmt': return '(.declS %s)' % self.lst(inner)
        if k == 'VarDecl':
            init = inner[-1] if 'init' in n and inner else None
            return '(.varD %s %s)' % (self.decl_id(n), self.opt(init))
        if k.endswith('Decl'):
            return '(.otherD %s)' % ('none' if 'name' not in n else '(some %s)' % self.decl_id(n))
        if k == 'CXXTryStmt': return '(.cxxTry %s %s)' % (self.tr(inner[0]), self.lst(inner[1:]))
        if k == 'CXXCatchStmt':
            ch = n['inner']
            return '(.cxxCatch %s %s)' % (self.opt(ch[0]), self.tr(ch[1]))
        if k == 'ObjCAtTryStmt':
            fin = None
            rest = inner[1:]
            if rest and rest[-1]['kind'] == 'ObjCAtFinallyStmt': fin = rest.pop()
            return '(.atTry %s %s %s)' % (self.tr(inner[0]), self.lst(rest), self.opt(fin))
        if k == 'ObjCAtCatchStmt': return '(.atCatch %s)' % self.tr(inner[-1])
        if k == 'ObjCAtFinallyStmt': return '(.atFinally %s)' % self.tr(inner[0])
        if k == 'ObjCAtSynchronizedStmt':
            return '(.atSynchronized %s %s)' % (self.tr(inner[0]), self.tr(inner[1]))
        if k == 'ObjCAutoreleasePoolStmt': return '(.autoreleasePool %s)' % self.tr(inner[0])
        if k == 'ObjCAtThrowStmt': return '(.atThrow %s)' % self.opt(inner[0] if inner else None)
        if k.endswith('Stmt'): return '(.otherS %s)' % self.lst([c for c in inner if c.get('kind')])
        if k == 'IntegerLiteral': return '(.intLit %s)' % n['value']
        if k == 'CXXBoolLiteralExpr': return '(.boolLit %s)' % ('true' if n['value'] else 'false')
        if k == 'ObjCBoolLiteralExpr':
            return '(.objcBoolLit %s)' % ('true' if n['value'] in (True, '__objc_yes') else 'false')
        if k == 'FloatingLiteral': return '(.floatLit %d)' % (hash(float(n['value'])) % 1000003)
        if k == 'CharacterLiteral': return '(.charLit %s)' % n['value']
        if k == 'StringLiteral': return '(.strLit %s.toList)' % lean_str(json.loads(n['value']) if n['value'].startswith('"') else n['value'])
        if k == 'DeclRefExpr': return '(.declRef %s)' % self.decl_id(n['referencedDecl'])
        if k == 'UnaryOperator':
            op = n['opcode']
            if op == '++': o = '.postInc' if n['isPostfix'] else '.preInc'
            elif op == '--': o = '.postDec' if n['isPostfix'] else '.preDec'
            else: o = UNOP.get(op, '.other')
            return '(.unary %s %s)' % (o, self.tr(inner[0]))
        if k == 'BinaryOperator':
            return '(.binary %s %s %s)' % (BINOP.get(n['opcode'], '.other'), self.tr(inner[0]), self.tr(inner[1]))
        if k == 'CompoundAssignOperator':
            return '(.binary (.compoundAssign %d) %s %s)' % (COMPOUND.index(n['opcode']), self.tr(inner[0]), self.tr(inner[1]))
        if k == 'ConditionalOperator': return '(.condOp %s %s %s)' % tuple(self.tr(c) for c in inner)
        if k == 'ParenExpr': return '(.paren %s)' % self.tr(inner[0])
        if k == 'ImplicitCastExpr':
            return '(.cast .implicit %s %s)' % (CASTK.get(n['castKind'], '.other'), self.tr(inner[0]))
        if k == 'CStyleCastExpr':
            return '(.cast .cstyle %s %s)' % (CASTK.get(n['castKind'], '.other'), self.tr(inner[0]))
        if k in ('CXXStaticCastExpr', 'CXXReinterpretCastExpr', 'CXXConstCastExpr', 'CXXDynamicCastExpr',
                 'CXXFunctionalCastExpr', 'ObjCBridgedCastExpr'):
            return '(.cast .otherExplicit %s %s)' % (CASTK.get(n['castKind'], '.other'), self.tr(inner[0]))
        if k == 'MemberExpr':
            return '(.member %s %s %s.toList)' % ('true' if n['isArrow'] else 'false', self.tr(inner[0]), lean_str(n.get('name', '')))
        if k == 'ObjCMessageExpr':
            rk = n['receiverKind']
            recv = inner.pop(0) if rk == 'instance' else None
            cls = None
            if rk == 'class': cls = n['classType']['qualType']
            elif rk == 'instance':
                q = recv.get('type', {}).get('qualType', '')
                m = re.match(r'(\w+) \*$', q)
                if m: cls = m.group(1)
            return '(.message %s %s %s.toList %s)' % (
                'none' if cls is None else '(some %s.toList)' % lean_str(cls), self.opt(recv), lean_str(n['selector']), self.lst(inner))
        if k in ('CallExpr', 'CXXMemberCallExpr', 'CXXOperatorCallExpr', 'UserDefinedLiteral'):
            return '(.call %s %s)' % (self.tr(inner[0]), self.lst(inner[1:]))
        if k == 'CXXThrowExpr': return '(.throwE %s)' % self.opt(inner[0] if inner else None)
        if k == 'CXXDeleteExpr': return '(.deleteE %s)' % self.tr(inner[0])
        if k == 'ExprWithCleanups': return '(.cleanups %s)' % self.tr(inner[0])
        if k in ('CXXNullPtrLiteralExpr', 'GNUNullExpr'): return '.nullPtrLit'
        if k == 'BlockExpr':
            body = [c for c in inner if c.get('kind') == 'BlockDecl']
            stmts = [c for b in body for c in self.kids(b) if c.get('kind', '').endswith('Stmt')]
            return '(.otherE %s)' % self.lst(stmts)
        if k == 'LambdaExpr':
            return '(.otherE %s)' % self.lst([c for c in inner if c['kind'] == 'CompoundStmt'])
        return '(.otherE %s)' % self.lst([c for c in inner if c.get('kind')])

    def covered(self, n):
        """isAllEnumCasesCovered, which the dump does not show."""
        c = self.kids(n)[0]
        while c['kind'] in ('ImplicitCastExpr', 'ParenExpr'):
            c = c['inner'][0]
        q = c.get('type', {}).get('qualType', '')
        d = c.get('type', {}).get('desugaredQualType', q)
        names = None
        for t in (q, d):
            t = t.replace('enum ', '').strip()
            if t in self.enums: names = self.enums[t]
        if names is None and len([e for e in self.enums.values()]) and 'enum' in d:
            names = list(self.enums.values())[0]
        if names is None:
            return 'false'
        found = set()

        def walk(x):
            if x.get('kind') == 'SwitchStmt' and x is not n: return
            if x.get('kind') == 'CaseStmt':
                y = x['inner'][0]
                while y.get('inner'): y = y['inner'][0]
                if y.get('kind') == 'DeclRefExpr': found.add(y['referencedDecl']['name'])
            for z in x.get('inner', []): walk(z)
        walk(n)
        return 'true' if set(names) <= found else 'false'

    # -- bodies of functions, in order

    def bodies(self):
        out = []

        def walk(n):
            if n.get('isImplicit') or n.get('kind') in ('CXXDeductionGuideDecl',):
                return
            k = n.get('kind', '')
            if k.endswith('Stmt') or k.endswith('Expr') or k.endswith('Literal') or k.endswith('Operator'):
                out.append(n)
                return
            if k == 'FunctionTemplateDecl':
                # the pattern only; instantiations are not visited
                for c in n.get('inner', []):
                    if c.get('kind', '').endswith('FunctionDecl') or c.get('kind', '').startswith('CXX'):
                        walk(c); return
                return
            if k == 'ClassTemplateDecl':
                for c in n.get('inner', []):
                    if c.get('kind') == 'CXXRecordDecl':
                        walk(c); return
                return
            for c in own_children(n):
                if not c.get('kind', '').endswith('Attr') and not c.get('kind', '').endswith('Type') \
                        and not c.get('kind', '').endswith('Comment'):
                    walk(c)
        walk(self.ast)
        return out


def line_col(code, off):
    pre = code[:off]
    return pre.count('\n') + 1, off - (pre.rfind('\n') + 1) + 1


def extract_marks(code):
    """As extractViolationLocations."""
    starts, ranges, out = [], [], ''
    for c in code:
        if c == '\x01': starts.append(len(out))
        elif c == '\x02': ranges.append((starts.pop(), len(out)))
        else: out += c
    return out, sorted(ranges)


# ---------------------------------------------------------------- rules that report statements

def over(v):
    return 'overRoots (reportOver %s)' % v


STMT_RULES = {
    'BitwiseOperatorInConditionalRule': over('bitwiseInConditionalVisit'),
    'BrokenNilCheckRule': over('brokenNilVisit'),
    'BrokenNullCheckRule': over('brokenNullVisit'),
    'BrokenOddnessCheckRule': over('brokenOddnessVisit'),
    'CollapsibleIfStatementsRule': over('collapsibleIfVisit'),
    'ConstantConditionalOperatorRule': over('(constantConditionalVisit testEvaluate)'),
    'ConstantIfExpressionRule': over('(constantIfVisit testEvaluate)'),
    'DeadCodeRule': over('deadCodeVisit'),
    'DoubleNegativeRule': over('doubleNegativeVisit'),
    'ForLoopShouldBeWhileLoopRule': over('forShouldBeWhileVisit'),
    'GotoStatementRule': over('gotoVisit'),
    'JumbledIncrementerRule': over('jumbledIncrementerVisit'),
    'MisplacedNilCheckRule': over('misplacedNilVisit'),
    'MisplacedNullCheckRule': over('misplacedNullVisit'),
    'MultipleUnaryOperatorRule': over('multipleUnaryVisit'),
    'ReturnFromFinallyBlockRule': over('returnFromFinallyVisit'),
    'ThrowExceptionFromFinallyBlockRule': over('throwFromFinallyVisit'),
    'AvoidBranchingStatementAsLastInLoopRule': over('branchingLastVisit'),
    'CoveredSwitchStatementsDontNeedDefaultRule': over('coveredSwitchVisit'),
    'DefaultLabelNotLastInSwitchStatementRule': over('defaultNotLastVisit'),
    'InvertedLogicRule': over('invertedLogicVisit'),
    'MissingBreakInSwitchStatementRule': over('missingBreakVisit'),
    'NonCaseLabelInSwitchStatementRule': over('nonCaseLabelVisit'),
    'SwitchStatementsShouldHaveDefaultRule': over('missingDefaultVisit'),
    'EmptyCatchStatementRule': over('emptyCatchVisit'),
    'EmptyDoWhileStatementRule': over('emptyDoWhileVisit'),
    'EmptyElseBlockRule': over('emptyElseVisit'),
    'EmptyFinallyStatementRule': over('emptyFinallyVisit'),
    'EmptyForStatementRule': over('emptyForVisit'),
    'EmptyIfStatementRule': over('emptyIfVisit'),
    'EmptySwitchStatementRule': over('emptySwitchVisit'),
    'EmptyTryStatementRule': over('emptyTryVisit'),
    'EmptyWhileStatementRule': over('emptyWhileVisit'),
    'RedundantConditionalOperatorRule': over('redundantConditionalVisit'),
    'RedundantIfStatementRule': over('redundantIfVisit'),
    'RedundantLocalVariableRule': over('redundantLocalVisit'),
    'RedundantNilCheckRule': over('redundantNilVisit'),
    'UnnecessaryElseStatementRule': 'overRoots unnecessaryElse',
    'UnnecessaryNullCheckForCXXDeallocRule': over('(nullCheckDeallocVisit sameStmt)'),
    'UselessParenthesesRule': over('uselessParensVisit'),
}

CALL = re.compile(r'testRuleOn(ObjC|CXX11|CXX|CUDA|)Code\s*\(')
ALIASES = ['TAG_START', 'LOC_START', 'V_START']


def rule_calls(path):
    """(test name, rule, language, code, expected) for the calls of testRuleOn...Code.

    expected is ('none',), ('at', index, l, c, l, c, message) or ('all', [(l, c, l, c, message)])."""
    for a in ('TAG', 'LOC', 'V'):
        MARKS[a + '_START'] = '\x01'
        MARKS[a + '_END'] = '\x02'
    for name, body, env in test_cases(path):
        env = dict(env)
        for m in re.finditer(r'(?:const )?(?:(?:std::)?string|char ?\*) ?(\w+)\s*=\s*((?:"(?:\\(?:.|\n)|[^"\\])*"|R"END\((?:.|\n)*?\)END"|\w+|\s|\+)*);', body):
            try:
                env[m.group(1)] = text_of(tokens(m.group(2)), env)
            except Skip:
                pass
        for m in CALL.finditer(body):
            try:
                args, _ = parse_args(tokens(body[m.end():]), 0)
                rule = [t for t in args[0] if t.endswith('Rule') or t.startswith('Mock')]
                if args[0] == ['&', 'rule']:
                    rule = re.findall(r'(\w+Rule) rule;', body)
                    args[0] = ['new', rule[0]]
                if args[0][:2] == ['new', 'UnusedLocalVariableRuleTest']:
                    rule = [('UnusedLocalVariableRule', tuple(unquote(t) for t in args[0] if t[0] == '"'))]
                    args[0] = ['new', 'rule']
                if args[0][:2] in (['new', 'LanguageSelectionASTRule'], ['new', 'ExplicitCUDARule']):
                    rule = [(args[0][1], tuple(t for t in args[0][3:] if t.isidentifier()))]
                    args[0] = ['new', 'rule']
                if args[0][0] != 'new' or not rule:
                    raise Skip('rule ' + ' '.join(args[0]))
                if args[0][-2:] != ['(', ')'] and len(args[0]) > 2:
                    raise Skip('rule arguments')
                code = text_of(args[1], env)
                if len(args) > 2 and args[2][0].lstrip('-').isdigit():
                    nums = [int(''.join(a)) for a in args[2:7]]
                    msg = text_of(args[7], env) if len(args) > 7 else ''
                    exp = ('at', *nums, msg) if nums[0] >= 0 else ('none',)
                else:
                    msgs = []
                    if len(args) > 2:
                        inner = args[2]
                        if inner[0] != '{': raise Skip('messages')
                        msgs = [text_of(a, env) for a in parse_args(inner[1:-1] + [')'], 0)[0]]
                    clean, ranges = extract_marks(code)
                    if '\x01' in code or msgs:
                        code = clean
                        exp = ('all', [(*line_col(code, b), *line_col(code, e),
                                        msgs[i] if i < len(msgs) else '')
                                       for i, (b, e) in enumerate(ranges)])
                    else:
                        exp = ('none',)
                yield name, rule[0], m.group(1), code, exp, None
            except Skip as e:
                yield name, None, m.group(1), None, None, str(e)


def stmt_case(rule, lang, code, exp):
    """A Lean term of type Bool."""
    tree = Tree(clang_ast(lang, code), code)
    roots = [tree.tr(b) for b in tree.bodies()]
    rl = '[' + ',\n    '.join(roots) + ']'

    def cands(l1, c1, l2, c2):
        out = []
        for b, e, t, k in tree.placed:
            if b is None: continue
            if line_col(code, b) == (l1, c1) and line_col(code, e) == (l2, c2) and t not in out:
                out.append(t)
        if not out:
            raise Skip('no node at %d:%d-%d:%d' % (l1, c1, l2, c2))
        return '[' + ', '.join(out) + ']'
    f = STMT_RULES[rule]
    if exp[0] == 'none':
        return '(%s\n    %s).isEmpty' % (f, rl)
    if exp[0] == 'at':
        return 'reportedAt %d (%s\n    %s)\n    %s' % (exp[1], f, rl, cands(*exp[2:6]))
    return 'reportedAll (%s\n    %s)\n    [%s]' % (f, rl, ',\n     '.join(cands(*x[:4]) for x in exp[1]))



# ---------------------------------------------------------------- declarations

def preorder(tree):
    """The nodes with their parents, as RecursiveASTVisitor meets them: no implicit declarations, no
    instantiations of templates."""
    out = []

    def walk(n, parents):
        k = n.get('kind', '')
        if not k or k.endswith('Attr') or k.endswith('Comment') or k.endswith('Type'):
            return
        if n.get('isImplicit') and k.endswith('Decl') and k != 'TranslationUnitDecl':
            return
        out.append((n, parents))
        ch = own_children(n)
        if k == 'FunctionTemplateDecl':
            ch = [c for c in ch if 'FunctionDecl' in c.get('kind', '') or c.get('kind', '').startswith('CXX')][:1]
        if k == 'ClassTemplateDecl':
            ch = [c for c in ch if c.get('kind') == 'CXXRecordDecl'][:1]
        for c in ch:
            walk(c, parents + [n])
    walk(tree.ast, [])
    return out


FUNCTIONS = ('FunctionDecl', 'CXXMethodDecl', 'CXXConstructorDecl', 'CXXDestructorDecl', 'CXXConversionDecl',
             'ObjCMethodDecl')


def lines_of(code, node):
    r = node['range']
    return line_col(code, Tree.off(r['begin'], 0))[0], line_col(code, Tree.off(r['end'], 0))[0]


def bool_(b):
    return 'true' if b else 'false'


def chars(s):
    return lean_str(s) + '.toList'


def constructs(tree):
    """(node, Lean term of type Construct)."""
    code, out = tree.code, []
    for n, parents in preorder(tree):
        k = n['kind']
        inner = tree.kids(n)
        if k in FUNCTIONS:
            body = next((c for c in inner if c['kind'] in ('CompoundStmt', 'CXXTryStmt')), None)
            bt = tree.tr(body) if body else None
            b, e = lines_of(code, body if body else n)
            params = len([c for c in inner if c['kind'] == 'ParmVarDecl'])
            out.append((n, '.method ⟨%s, %s, %d, %d, %d, %s, %s⟩' % (
                '[%s]' % bt if bt else '[]', '(some %s)' % bt if bt else 'none', params, b, e,
                bool_(k.startswith('CXX')), bool_(parents[-1]['kind'] == 'CXXRecordDecl'))))
        elif k in ('ObjCInterfaceDecl', 'ObjCCategoryDecl', 'ObjCProtocolDecl', 'ObjCImplementationDecl',
                   'ObjCCategoryImplDecl', 'CXXRecordDecl'):
            kind = {'ObjCInterfaceDecl': '.objcInterface', 'ObjCCategoryDecl': '.objcCategory',
                    'ObjCProtocolDecl': '.objcProtocol', 'ObjCImplementationDecl': '.objcImpl',
                    'ObjCCategoryImplDecl': '.objcImpl', 'CXXRecordDecl': '.cxxRecord'}[k]
            b, e = lines_of(code, n)
            fields = len([c for c in inner if c['kind'] in ('FieldDecl', 'ObjCIvarDecl')])
            methods = len([c for c in inner if c['kind'] in FUNCTIONS])
            out.append((n, '.cls ⟨%s, %d, %d, %d, %d⟩' % (kind, b, e, fields, methods)))
        elif k == 'CompoundStmt':
            out.append((n, 'blockOf %s' % tree.tr(n)))
        elif k in ('VarDecl', 'ParmVarDecl'):
            out.append((n, '.variable %s' % chars(n.get('name', ''))))
    return out


def config_of(path):
    m = re.search(r'addConfiguration\("(\w+)", "(-?\d+)"\)', open(path).read())
    if not m:
        return 'none'
    return '(some [(%s, %s)])' % (chars(m.group(1)), chars(m.group(2)))


def tagged(tree, items, exp, visit, typ, rule=None):
    """items: (node or (begin, end), term); a Bool comparing the reports with the expectation."""
    code = tree.code

    def place(n):
        if isinstance(n, tuple):
            b, e = n
        else:
            b, e = Tree.off(n['range']['begin'], 0), Tree.off(n['range']['end'], 0)
        return None if b is None else line_col(code, b) + line_col(code, e)
    places = [place(n) for n, _ in items]

    def ids(x):
        r = [i for i, p in enumerate(places) if p == tuple(x)]
        if not r:
            raise Skip('no declaration at %s' % (x,))
        return str(r)
    if 'oclint:suppress' in code and rule:
        chains = {id(n): parents for n, parents in preorder(tree)}
        objc = ObjC(tree)
        items = [(n, '([%s], %s)' % (', '.join(objc.kind(x) for x in chains[id(n)] + [n]), t)) for n, t in items]
        reports = '(taggedReports (unsuppressed %s.toList (%s))\n    ([%s] : List (List NodeKind × %s)))' % (
            lean_str(RULE_NAMES[rule]), visit, ',\n      '.join(t for _, t in items), typ)
    else:
        reports = '(taggedReports (%s)\n    ([%s] : List %s))' % (visit, ',\n      '.join(t for _, t in items), typ)
    if exp[0] == 'none':
        return reports + '.isEmpty'
    if exp[0] == 'at':
        return 'taggedAt %d %s\n    %s %s' % (exp[1], reports, ids(exp[2:6]), chars(exp[6]))
    return 'taggedAll %s\n    [%s]' % (reports, ', '.join('(%s, %s)' % (ids(x[:4]), chars(x[4])) for x in exp[1]))


METRIC_RULES = {
    'CyclomaticComplexityRule': '.cyclomatic', 'NPathComplexityRule': '.npath',
    'NcssMethodCountRule': '.ncss', 'NestedBlockDepthRule': '.depth', 'LongMethodRule': '.longMethod',
    'LongClassRule': '.longClass', 'TooManyFieldsRule': '.fields', 'TooManyMethodsRule': '.methods',
    'TooManyParametersRule': '.parameters', 'LongVariableNameRule': '.longName',
}


def metric_case(rule, lang, code, exp, path):
    tree = Tree(clang_ast(lang, code), code)
    want = {'.depth': 'block', '.longClass': '.cls', '.fields': '.cls', '.methods': '.cls',
            '.longName': '.variable'}.get(METRIC_RULES[rule], '.method')
    items = [(n, t) for n, t in constructs(tree) if t.startswith(want)]
    return tagged(tree, items, exp, 'metricMessages %s %s' % (config_of(path), METRIC_RULES[rule]), 'Construct', rule)



# ---------------------------------------------------------------- Objective-C classes

def annotations(tree, n):
    out = []
    for c in n.get('inner', []):
        if c.get('kind') == 'AnnotateAttr':
            r = c['range']
            text = tree.code[Tree.off(r['begin'], 0):Tree.off(r['end'], 0) + 1]
            out.append(unquote(re.search(r'"(?:\\.|[^"\\])*"', text).group(0)))
    return out


class ObjC:
    """The classes, categories and protocols of a unit, and the lookups Clang makes in them."""

    def __init__(self, tree):
        self.tree = tree
        self.classes, self.protocols, self.home = {}, {}, {}
        for n in tree.ast.get('inner', []):
            k = n.get('kind')
            if k == 'ObjCInterfaceDecl':
                c = self.classes.setdefault(n['name'], {'node': n, 'cats': [], 'impls': []})
                if n.get('inner') or 'super' in n: c['node'] = n
            elif k == 'ObjCCategoryDecl':
                self.classes[n['interface']['name']]['cats'].append(n)
            elif k == 'ObjCProtocolDecl':
                self.protocols[n['name']] = n
            elif k in ('ObjCImplementationDecl', 'ObjCCategoryImplDecl'):
                self.classes.setdefault(n['interface']['name'], {'node': n, 'cats': [], 'impls': []})['impls'].append(n)
            if k and k.startswith('ObjC'):
                for m in n.get('inner', []):
                    self.home[m.get('id')] = n

    @staticmethod
    def methods(container):
        return [m for m in container.get('inner', []) if m.get('kind') == 'ObjCMethodDecl']

    def own(self, container, sel, inst):
        for m in self.methods(container):
            if m['name'] == sel and m.get('instance', False) == inst:
                return m

    def lookup_protocol(self, name, sel, inst):
        p = self.protocols.get(name)
        if not p: return None
        m = self.own(p, sel, inst)
        if m: return m
        for q in p.get('protocols', []):
            m = self.lookup_protocol(q['name'], sel, inst)
            if m: return m

    def lookup(self, cls, sel, inst):
        """ObjCInterfaceDecl::lookupMethod"""
        while cls in self.classes:
            c = self.classes[cls]
            m = self.own(c['node'], sel, inst)
            if m: return m
            for cat in c['cats']:
                m = self.own(cat, sel, inst)
                if m: return m
            for p in c['node'].get('protocols', []):
                m = self.lookup_protocol(p['name'], sel, inst)
                if m: return m
            for cat in c['cats']:
                for p in cat.get('protocols', []):
                    m = self.lookup_protocol(p['name'], sel, inst)
                    if m: return m
            cls = self.super_of(cls)
        return None

    def super_of(self, cls):
        return self.classes.get(cls, {}).get('node', {}).get('super', {}).get('name')

    def class_of(self, m):
        """getClassInterface()"""
        h = self.home.get(m['id'], {})
        if h.get('kind') in ('ObjCInterfaceDecl',): return h['name']
        if 'interface' in h: return h['interface']['name']
        return None

    def receiver_class(self, e, parents):
        """getReceiverInterface()"""
        rk = e['receiverKind']
        if rk == 'class': return e['classType']['qualType']
        if rk == 'instance':
            t = self.tree.kids(e)[0].get('type', {})
            for q in (t.get('qualType', ''), t.get('desugaredQualType', '')):
                m = re.match(r'(\w+)(<.*>)? \*$', q)
                if m and m.group(1) in self.classes: return m.group(1)
            if t.get('qualType') == 'Class': return None
            return None
        cls = None
        for p in parents:
            if p.get('kind') in ('ObjCImplementationDecl', 'ObjCCategoryImplDecl'): cls = p['interface']['name']
        return self.super_of(cls)

    def method_of(self, e, parents):
        """getMethodDecl()"""
        rk = e['receiverKind']
        inst = rk in ('instance', 'super (instance)')
        cls = self.receiver_class(e, parents)
        if cls is None:
            if rk == 'instance':
                q = self.tree.kids(e)[0].get('type', {}).get('qualType', '')
                m = re.match(r'id<(\w+)>$', q)
                if m: return self.lookup_protocol(m.group(1), e['selector'], True)
                if q == 'Class' or q.startswith('Class'):
                    for p in parents:
                        if p.get('kind') == 'ObjCImplementationDecl':
                            return self.find(p['interface']['name'], e['selector'], False)
            return None
        return self.find(cls, e['selector'], inst)

    def find(self, cls, sel, inst):
        m = self.lookup(cls, sel, inst)
        if m is None:
            for i in self.classes.get(cls, {}).get('impls', []):
                m = m or self.own(i, sel, inst)
        return m

    def info(self, m, deep=True):
        """DeclInfo of a declaration"""
        anns = '[%s]' % ', '.join(chars(a) for a in annotations(self.tree, m))
        if m.get('kind') != 'ObjCMethodDecl':
            return '(.plain %s)' % anns
        h = self.home.get(m['id'], {})
        accessor = bool(m.get('isImplicit'))
        prop = 'none'
        if accessor:
            for x in h.get('inner', []):
                if x.get('kind') == 'ObjCPropertyDecl' and m['name'] in (
                        x['name'], 'set' + x['name'][0].upper() + x['name'][1:] + ':'):
                    prop = '(some [%s])' % ', '.join(chars(a) for a in annotations(self.tree, x))
        k = h.get('kind')
        cats = []
        if k == 'ObjCProtocolDecl': ctx = '(.protocol (some %s))' % anns
        elif k == 'ObjCCategoryDecl': ctx = '.category'
        else:
            ctx = '.classWithInterface'
            for cat in self.classes[self.class_of(m)]['cats']:
                o = self.own(cat, m['name'], m.get('instance', False))
                cats.append('none' if o is None else '(some %s)' % self.info(o))
        return '(.method %s %s %s %s [%s])' % (anns, bool_(accessor), prop, ctx, ', '.join(cats))

    def kind(self, n):
        k = n['kind']
        if k == 'ObjCMethodDecl' and n['id'] in self.home: return '(.decl %s)' % self.info(n)
        if k.endswith('Decl'):
            return '(.decl (.plain [%s]))' % ', '.join(chars(a) for a in annotations(self.tree, n))
        return '.stmt'

    def cls(self, name):
        """ObjcClass"""
        s = self.super_of(name)
        return '(.mk %s %s)' % (chars(name), 'none' if s is None else '(some %s)' % self.cls(s))


def below(tree, n):
    """preorder below a node"""
    out = []

    def walk(x, parents):
        k = x.get('kind', '')
        if not k or k.endswith('Attr') or k.endswith('Comment'): return
        out.append((x, parents))
        for c in own_children(x): walk(c, parents + [x])
    walk(n, [])
    return out


RECEIVER = {'class': '.cls', 'instance': '.instance', 'super (class)': '.superClass', 'super (instance)': '.superInstance'}


def cocoa_case(rule, lang, code, exp, path):
    tree = Tree(clang_ast(lang, code), code)
    o = ObjC(tree)
    items = []
    if rule == 'ObjCVerifyIsEqualHashRule':
        for n, ps in preorder(tree):
            if n['kind'] == 'ObjCImplementationDecl':
                items.append((n, '[%s]' % ', '.join(chars(m['name']) for m in o.methods(n) if m.get('instance'))))
        return tagged(tree, items, exp, 'isEqualHashVisit', '(List Str)', rule)
    if rule == 'ObjCVerifyMustCallSuperRule':
        for n, ps in preorder(tree):
            if n['kind'] == 'ObjCMethodDecl':
                over, cls = [], o.class_of(n)
                h = o.home[n['id']]
                if h['kind'] == 'ObjCImplementationDecl':
                    own = o.own(o.classes[cls]['node'], n['name'], n.get('instance', False))
                    c = o.super_of(cls)
                    m = o.lookup(c, n['name'], n.get('instance', False)) if c else None
                    if m: over.append(m)
                sends = ['(%s, %s)' % (chars(x['selector']), RECEIVER[x['receiverKind']])
                         for x, _ in below(tree, n) if x['kind'] == 'ObjCMessageExpr']
                items.append((n, '⟨%s, true, %s, [%s], [%s]⟩' % (chars(n['name']), bool_(over),
                              ', '.join(o.info(m) for m in over), ', '.join(sends))))
        return tagged(tree, items, exp, 'mustCallSuperVisit', 'OverridingMethod', rule)
    if rule in ('ObjCVerifyProhibitedCallRule', 'AttributeHelperTestCallRule', 'AttributeHelperTestCallCommentRule'):
        funs = {}
        for n, ps in preorder(tree):
            if n['kind'] == 'FunctionDecl': funs[n['id']] = n
        for n, ps in preorder(tree):
            if n['kind'] == 'ObjCMessageExpr':
                m = o.method_of(n, ps)
                items.append((n, '.message %s %s' % (chars(n['selector']), 'none' if m is None else '(some %s)' % o.info(m))))
            if n['kind'] == 'CallExpr':
                c = n
                while c.get('kind') != 'DeclRefExpr' and c.get('inner'): c = c['inner'][0]
                f = funs.get(c.get('referencedDecl', {}).get('id'))
                items.append((n, '.function %s' % ('none' if f is None else '(some (%s, %s))' % (chars(f['name']), o.info(f)))))
        visit = {'ObjCVerifyProhibitedCallRule': 'prohibitedCallVisit',
                 'AttributeHelperTestCallRule': 'attributeTestVisit',
                 'AttributeHelperTestCallCommentRule': 'attributeCommentTestVisit'}[rule]
        return tagged(tree, items, exp, visit, 'AnyCall', rule)
    if rule == 'ObjCVerifySubclassMustImplementRule':
        for n, ps in preorder(tree):
            if n['kind'] == 'ObjCImplementationDecl':
                par = o.super_of(n['interface']['name'])
                pt = 'none'
                if par:
                    pt = '(some (%s, [%s]))' % (chars(par), ', '.join('⟨%s, %s, %s⟩' % (
                        chars(m['name']), bool_(m.get('instance')), o.info(m)) for m in o.methods(o.classes[par]['node'])))
                items.append((n, '(%s, [%s])' % (pt, ', '.join('(%s, %s)' % (chars(m['name']), bool_(m.get('instance')))
                                                               for m in o.methods(n)))))
        return tagged(tree, items, exp, 'fun x => subclassMustImplementVisit x.1 x.2',
                      '(Option (Str × List DeclaredMethod) × List (Str × Bool))', rule)
    if rule == 'ObjCVerifyProtectedMethodRule':
        for n, ps in preorder(tree):
            if n['kind'] == 'ObjCImplementationDecl':
                for x, xs in below(tree, n):
                    if x['kind'] != 'ObjCMessageExpr': continue
                    m = o.method_of(x, ps + xs)
                    mt = 'none'
                    if m:
                        c = o.class_of(m)
                        mt = '(some (%s, %s))' % (o.info(m), 'none' if c is None else '(some %s)' % o.cls(c))
                    r = o.receiver_class(x, ps + xs)
                    items.append((x, '(%s, ⟨%s, %s, %s⟩)' % (o.cls(n['interface']['name']), chars(x['selector']), mt,
                                  'none' if r is None else '(some %s)' % o.cls(r))))
        return tagged(tree, items, exp, 'protectedTestVisit', '(ObjcClass × ClassSend)', rule)
    if rule == 'FeatureEnvyRule':
        for n, ps in preorder(tree):
            if n['kind'] != 'ObjCMethodDecl': continue
            h = o.home[n['id']]
            owner = '.protocol' if h['kind'] == 'ObjCProtocolDecl' else '.interface (some %s)' % chars(o.class_of(n))
            uses = []
            for x, xs in below(tree, n):
                if x['kind'] == 'ObjCMessageExpr':
                    implicit = any(y['kind'] == 'PseudoObjectExpr' for y in xs[-1:])
                    rk = x['receiverKind']
                    c = o.receiver_class(x, ps + xs)
                    if rk == 'instance': r = '(.instance %s)' % ('none' if c is None else '(some %s)' % chars(c))
                    elif rk == 'class': r = '(.cls %s)' % chars(c)
                    else: r = '.super'
                    uses.append('.message %s %s' % (bool_(implicit), r))
                elif x['kind'] == 'ObjCIvarRefExpr':
                    d = x['decl']['id']
                    c = o.home.get(d, {})
                    nm = c.get('name') if c.get('kind') == 'ObjCInterfaceDecl' else c.get('interface', {}).get('name')
                    uses.append('.ivar %s' % ('none' if nm is None else '(some %s)' % chars(nm)))
                elif x['kind'] == 'ObjCPropertyRefExpr':
                    setter = bool(x.get('isMessagingSetter'))

                    def owner_of(m):
                        if m is None: return 'none'
                        if o.home[m['id']]['kind'] == 'ObjCProtocolDecl': return '(some .protocol)'
                        return '(some (.interface (some %s)))' % chars(o.class_of(m))
                    if x['propertyKind'] == 'explicit':
                        pr = x['property']
                        hh = o.home[pr['id']]
                        nm = pr['name']
                        g = o.own(hh, nm, True); st = o.own(hh, 'set' + nm[0].upper() + nm[1:] + ':', True)
                    else:
                        g = next((m for c in o.home.values() for m in o.methods(c) if m['id'] == x.get('getter', {}).get('id')), None)
                        st = next((m for c in o.home.values() for m in o.methods(c) if m['id'] == x.get('setter', {}).get('id')), None)
                    uses.append('.property %s (.%s %s %s)' % (bool_(setter), x['propertyKind'], owner_of(st), owner_of(g)))
            items.append((n, '(%s, %s, [%s])' % (chars(n['name']), owner, ', '.join(uses))))
        return tagged(tree, items, exp, 'fun x => featureEnvyVisit id x.1 x.2.1 x.2.2',
                      '(Str × MethodOwner × List ObjCUse)', rule)
    raise Skip('no translation for ' + rule)


COCOA_RULES = ['ObjCVerifyIsEqualHashRule', 'ObjCVerifyMustCallSuperRule', 'ObjCVerifyProhibitedCallRule',
               'AttributeHelperTestCallRule', 'AttributeHelperTestCallCommentRule',
               'ObjCVerifySubclassMustImplementRule', 'ObjCVerifyProtectedMethodRule', 'FeatureEnvyRule']

RULE_NAMES = {}
for _f in glob.glob(REPO + '/oclint-rules/rules/*/*.cpp'):
    _m = re.search(r'class (\w+) :(?:.|\n)*?name\(\) const override\s*\{\s*return "([^"]*)"', open(_f).read())
    _a = re.search(r'attributeName\(\) const override\s*\{\s*return "([^"]*)"', open(_f).read())
    if _m: RULE_NAMES[os.path.basename(_f)[:-4]] = (_a or _m).group(2 if not _a else 1)


# ---------------------------------------------------------------- migration

def typed(tree, e):
    k = e['kind']
    t = chars(e.get('type', {}).get('qualType', ''))
    ks = tree.kids(e)
    if k == 'ParenExpr': return '(.paren %s %s)' % (t, typed(tree, ks[0]))
    if k == 'ImplicitCastExpr': return '(.implicitCast %s %s)' % (t, typed(tree, ks[0]))
    if k == 'CStyleCastExpr': return '(.cStyleCast %s %s)' % (t, typed(tree, ks[0]))
    if k == 'DeclRefExpr': return '(.declRef %s %s)' % (t, bool_(e['referencedDecl']['kind'] == 'EnumConstantDecl'))
    if k in ('CallExpr', 'CXXMemberCallExpr', 'CXXOperatorCallExpr'): return '(.call %s)' % t
    if k == 'CharacterLiteral': return '(.charLit %s)' % t
    if k == 'IntegerLiteral': return '(.intLit %s)' % t
    if k == 'FloatingLiteral': return '(.floatLit %s)' % t
    if k == 'ObjCBoolLiteralExpr': return '(.objcBoolLit %s)' % t
    return '(.other %s)' % t


MIGRATION_RULES = {'ObjCBoxedExpressionsRule': 'boxedExpressionVisit', 'ObjCNSNumberLiteralsRule': 'numberLiteralVisit',
                   'ObjCContainerLiteralsRule': 'containerLiteralVisit', 'ObjCObjectSubscriptingRule': 'subscriptingVisit'}


def migration_case(rule, lang, code, exp, path):
    tree = Tree(clang_ast(lang, code), code)
    o = ObjC(tree)
    items = []
    for n, ps in preorder(tree):
        if n['kind'] == 'ObjCMessageExpr':
            ks = list(tree.kids(n))
            recv = ks.pop(0) if n['receiverKind'] == 'instance' else None
            c = o.receiver_class(n, ps)
            items.append((n, '⟨%s, %s, %s, [%s]⟩' % ('none' if c is None else '(some %s)' % chars(c),
                          'none' if recv is None else '(some %s)' % typed(tree, recv), chars(n['selector']),
                          ', '.join(typed(tree, a) for a in ks))))
    return tagged(tree, items, exp, 'fun m => if %s m then [[]] else []' % MIGRATION_RULES[rule], 'TypedMessage', rule)


# ---------------------------------------------------------------- C++ classes

ACCESS = {'public': '.pub', 'protected': '.prot', 'private': '.priv', None: '.none'}


def cxx_classes(tree):
    recs = {}
    for n, ps in preorder(tree):
        if n['kind'] == 'CXXRecordDecl' and n.get('completeDefinition'):
            scope = [p['name'] for p in ps if p.get('kind') in ('CXXRecordDecl', 'NamespaceDecl') and 'name' in p]
            recs['::'.join(scope + [n.get('name', '')])] = n
    return recs


def with_access(rec):
    """(member, access)"""
    cur = 'private' if rec.get('tagUsed') == 'class' else 'public'
    for c in rec.get('inner', []):
        if c.get('kind') == 'AccessSpecDecl': cur = c['access']
        else: yield c, ('public' if c.get('isImplicit') else cur)


def cxx_class(recs, n):
    d = n.get('definitionData', {})
    dtor = 'none'
    for c, acc in with_access(n):
        if c.get('kind') == 'CXXDestructorDecl':
            dtor = '(some ⟨%s, %s⟩)' % (bool_(is_virtual(recs, n, c)), ACCESS[acc])
    bases = '.nil'
    for b in reversed(n.get('bases', [])):
        t = b['type'].get('desugaredQualType', b['type']['qualType'])
        if t in recs: bases = '(.base %s %s %s)' % (ACCESS[b['access']], cxx_class(recs, recs[t]), bases)
        else: bases = '(.unknown %s %s)' % (ACCESS[b['access']], bases)
    return '(.mk %s %s %s %s %s)' % (chars(n.get('name', '')), bool_(n.get('completeDefinition')),
                                    bool_(d.get('isPolymorphic')), dtor, bases)


def is_virtual(recs, rec, m):
    if m.get('virtual'): return True
    for b in rec.get('bases', []):
        r = recs.get(b['type'].get('desugaredQualType', b['type']['qualType']))
        if r:
            for c in r.get('inner', []):
                if c.get('kind') == m['kind'] and (m['kind'] == 'CXXDestructorDecl' or c.get('name') == m.get('name')) \
                        and is_virtual(recs, r, c):
                    return True
    return False


def cxx_case(rule, lang, code, exp, path):
    tree = Tree(clang_ast(lang, code), code)
    recs = cxx_classes(tree)
    items = []
    if rule in ('BaseClassDestructorShouldBeVirtualOrProtectedRule', 'DestructorOfVirtualClassRule'):
        for n, ps in preorder(tree):
            if n['kind'] == 'CXXRecordDecl':
                items.append((n, cxx_class(recs, n)))
        if rule == 'DestructorOfVirtualClassRule':
            return tagged(tree, items, exp, 'fun c => (virtualClassVisit c).map Prod.snd', 'CxxClass', rule)
        # the violations are at the bases: compare by name
        def name_at(x):
            for n, _ in items:
                r = n['range']
                if line_col(code, Tree.off(r['begin'], 0)) + line_col(code, Tree.off(r['end'], 0)) == tuple(x):
                    return n['name']
            raise Skip('no class at %s' % (x,))
        reports = '(([%s] : List CxxClass).flatMap baseDestructorVisit).map (fun r => (r.1.name, r.2))' % (
            ',\n      '.join(t for _, t in items))
        if exp[0] == 'none': return '(%s).isEmpty' % reports
        if exp[0] == 'at': return '(%s)[%d]? == some (%s, %s)' % (reports, exp[1], chars(name_at(exp[2:6])), chars(exp[6]))
        return 'sameReports (%s)\n    [%s]' % (reports, ', '.join('(%s, %s)' % (chars(name_at(x[:4])), chars(x[4])) for x in exp[1]))
    i = 0
    for n, ps in preorder(tree):
        if n['kind'] == 'VarDecl' or n['kind'] in ('CXXMethodDecl', 'CXXConstructorDecl', 'CXXDestructorDecl', 'CXXConversionDecl'):
            rec = ps[-1] if ps[-1]['kind'] == 'CXXRecordDecl' else None
            acc = None
            first = n
            if 'previousDecl' in n:
                for r in recs.values():
                    for c, a in with_access(r):
                        if c.get('id') == n['previousDecl']: rec, first = r, c
            if rec is not None:
                acc = next((a for c, a in with_access(rec) if c is first), None)
            if n['kind'] == 'VarDecl':
                t = '.var %d %s %s' % (i, ACCESS[acc], bool_(rec is not None))
            else:
                args = [bool_('init' in p) for p in tree.kids(n) if p['kind'] == 'ParmVarDecl']
                t = '.method %d %s %s %s [%s]' % (i, ACCESS[acc], bool_(first.get('storageClass') == 'static'),
                                                 bool_(rec is not None and is_virtual(recs, rec, first)), ', '.join(args))
        else:
            if not n['kind'].endswith('Decl'): continue
            t = '.other %d' % i
        items.append((n, t)); i += 1
    f = {'AvoidDefaultArgumentsOnVirtualMethodsRule': 'defaultArgumentsRule',
         'AvoidPrivateStaticMembersRule': 'privateStaticRule'}[rule]
    msg = exp[6] if exp[0] == 'at' else ''
    return tagged(tree, items, exp, 'fun d => (%s [d]).map fun _ => %s' % (f, chars(msg)), 'MemberDecl', rule)


CXX_RULES = ['BaseClassDestructorShouldBeVirtualOrProtectedRule', 'DestructorOfVirtualClassRule',
             'AvoidDefaultArgumentsOnVirtualMethodsRule', 'AvoidPrivateStaticMembersRule']


# ---------------------------------------------------------------- unused

def in_function(ps):
    """if the context is a function, is it no template"""
    for i in range(len(ps) - 1, -1, -1):
        k = ps[i]['kind']
        if k in FUNCTIONS and k != 'ObjCMethodDecl':
            return not any(p['kind'] in ('FunctionTemplateDecl', 'ClassTemplateDecl') for p in ps[:i])
        if k in ('BlockDecl', 'ObjCMethodDecl'):
            return None
    return None


def canonical(t):
    return t.get('desugaredQualType', t.get('qualType', ''))


def unused_case(rule, lang, code, exp, path, suppress=None):
    tree = Tree(clang_ast(lang, code), code)
    o = ObjC(tree)
    items = []
    if rule == 'UnusedLocalVariableRule':
        for n, ps in preorder(tree):
            if n['kind'] not in ('VarDecl', 'ParmVarDecl'): continue
            f = in_function(ps)
            local = n['kind'] == 'VarDecl' and any(p['kind'] in FUNCTIONS or p['kind'] == 'BlockDecl' for p in ps)
            items.append((n, '⟨%s, %s, %s, %s, %s, %s, %s⟩' % (
                chars(n.get('name', '')), chars(canonical(n['type'])), bool_(n.get('isUsed')),
                bool_(n.get('isReferenced') or n.get('isUsed')), bool_(local), bool_(ps[-1]['kind'] == 'CXXRecordDecl'),
                'none' if f is None else '(some %s)' % bool_(f))))
        if suppress is None:
            visit = 'fun v => match unusedLocalRule none [v] with | .ok r => r.map Prod.snd | _ => []'
        else:
            visit = 'fun v => (unusedLocalVisit (resetSkippedTypes [%s]) v).map Prod.snd' % ', '.join(chars(x) for x in suppress)
        return tagged(tree, items, exp, visit, 'LocalVar', rule)
    for n, ps in preorder(tree):
        if n['kind'] != 'ParmVarDecl': continue
        ctxs = []
        for i in range(len(ps) - 1, -1, -1):
            p, k = ps[i], ps[i]['kind']
            if k == 'ObjCMethodDecl':
                h = o.home[p['id']]['kind']
                cont = {'ObjCInterfaceDecl': '.interface', 'ObjCProtocolDecl': '.protocol',
                        'ObjCCategoryDecl': '.category'}.get(h, '.implementation')
                c = o.class_of(p)
                ci = 'none'
                if c:
                    s = o.super_of(c)
                    look = lambda has: '⟨fun _ => %s, fun _ => false⟩' % bool_(has)
                    st = 'none' if s is None else '(some %s)' % look(o.lookup(s, p['name'], True))
                    prs = [look(o.lookup_protocol(q['name'], p['name'], True)) for q in o.classes[c]['node'].get('protocols', [])]
                    ci = '(some ⟨%s, [%s]⟩)' % (st, ', '.join(prs))
                ib = any(c.get('kind') == 'IBActionAttr' for c in p.get('inner', []))
                ctxs.append('.objcMethod ⟨%s, %s, %s, %s, %s⟩' % (chars(p['name']), bool_(p.get('instance')), cont, ci, bool_(ib)))
            elif k in FUNCTIONS:
                this = any(c['kind'] in ('CompoundStmt', 'CXXTryStmt') for c in tree.kids(p))
                nt = not any(q['kind'] in ('FunctionTemplateDecl', 'ClassTemplateDecl') for q in ps[:i])
                recs = cxx_classes(tree)
                virt = 'none'
                if k.startswith('CXX'):
                    first, rec = p, next((q for q in ps[:i] if q['kind'] == 'CXXRecordDecl'), None)
                    for r in recs.values():
                        for c in r.get('inner', []):
                            if c.get('id') == p.get('previousDecl'): first, rec = c, r
                    virt = '(some %s)' % bool_(is_virtual(recs, rec, first) if rec else first.get('virtual'))
                some = this or any(q['kind'] in FUNCTIONS and q.get('name') == p.get('name') and
                                   any(c['kind'] == 'CompoundStmt' for c in tree.kids(q)) for q, _ in preorder(tree))
                ctxs.append('.function %s %s %s %s' % (bool_(this), bool_(some), bool_(nt), virt))
            elif k == 'BlockDecl': ctxs.append('.block')
            elif k == 'CXXRecordDecl': ctxs.append('.record')
            elif k in ('TranslationUnitDecl', 'NamespaceDecl', 'ObjCInterfaceDecl', 'ObjCImplementationDecl',
                       'ObjCProtocolDecl', 'ObjCCategoryDecl', 'ObjCCategoryImplDecl'): ctxs.append('.other')
        unused = any(c.get('kind') == 'UnusedAttr' for c in n.get('inner', []))
        items.append((n, '⟨%s, %s, %s, [%s]⟩' % (chars(n.get('name', '')), bool_(n.get('isUsed')), bool_(unused), ', '.join(ctxs))))
    return tagged(tree, items, exp, 'unusedParamVisit', 'Param', rule)


# ---------------------------------------------------------------- other rules

def stmt_expect(tree, code, f, exp):
    def cands(l1, c1, l2, c2):
        out = []
        for b, e, t, k in tree.placed:
            if b is not None and line_col(code, b) == (l1, c1) and line_col(code, e) == (l2, c2) and t not in out:
                out.append(t)
        if not out: raise Skip('no node at %d:%d-%d:%d' % (l1, c1, l2, c2))
        return '[' + ', '.join(out) + ']'
    if exp[0] == 'none': return '(%s).isEmpty' % f
    if exp[0] == 'at': return 'reportedAt %d (%s)\n    %s' % (exp[1], f, cands(*exp[2:6]))
    return 'reportedAll (%s)\n    [%s]' % (f, ',\n     '.join(cands(*x[:4]) for x in exp[1]))


LANGUAGES = {'': '⟨false, false, true, false⟩', 'CXX': '⟨false, true, false, false⟩',
             'CXX11': '⟨false, true, false, false⟩', 'ObjC': '⟨true, false, true, false⟩',
             'CUDA': '⟨false, true, false, true⟩'}


def top_decls(code):
    """the functions of a snippet without anything else at top level"""
    out = []
    for m in re.finditer(r'(__global__ )?void \w+\([^)]*\) (\{(?:[^{}]|\{[^{}]*\})*\})', code):
        out.append((m.start(), m.end() - 1, bool(m.group(1))))
    return out


def application_case(rule, lang, code, exp):
    flags = ()
    if isinstance(rule, tuple): rule, flags = rule
    langs, cuda = 'defaultSupportedLanguages', 'defaultCUDAFunctionAttrs'
    if rule == 'LanguageSelectionASTRule': langs = '(%s)' % ' ||| '.join(flags)
    if rule == 'ExplicitCUDARule': cuda = '(%s)' % ' ||| '.join(flags)
    ds = top_decls(code)
    tops = ', '.join('⟨%d, true, true, true, %s⟩' % (i, bool_(g)) for i, (_, _, g) in enumerate(ds))
    events = 'traversed (visitorApply %s %s %s [%s])' % (LANGUAGES[lang], langs, cuda, tops)
    if exp[0] == 'none': return '(%s).isEmpty' % events
    want = [i for i, (b, e, _) in enumerate(ds)
            if line_col(code, b) + line_col(code, e) == tuple(exp[2:6])]
    return '(%s)[%d]? == some %d' % (events, exp[1], want[0])


def divergence_case(rule, lang, code, exp):
    prefix = 'struct { int x; } threadIdx;\n'
    plain = code.replace('__global__ ', ' ' * len('__global__ '))
    tree = Tree(clang_ast('CXX', plain + '\n' + prefix.strip() if 'threadIdx' not in code else
                          'struct Dim { int x; }; extern Dim threadIdx;' + plain), plain)
    shift = len('struct Dim { int x; }; extern Dim threadIdx;') if 'threadIdx' in code else 0
    ds = top_decls(code)
    bodies = [b for b in tree.bodies() if b['kind'] == 'CompoundStmt']
    terms = [tree.tr(b) for b in bodies]
    tree.placed = [(b - shift if b is not None else b, e - shift if e is not None else e, t, k)
                   for b, e, t, k in tree.placed]
    tops = ', '.join('⟨%d, true, true, true, %s⟩' % (i, bool_(g)) for i, (_, _, g) in enumerate(ds))
    f = 'branchDivergenceRule %s [%s] (fun i => ([%s] : List Stmt).getD i .nullS)' % (LANGUAGES[lang], tops, ', '.join(terms))
    return stmt_expect(tree, code, f, exp)


def reassignment_case(rule, lang, code, exp):
    tree = Tree(clang_ast(lang, code), code)
    scopes = []
    for n, ps in preorder(tree):
        if n['kind'] in FUNCTIONS:
            params = [c for c in tree.kids(n) if c['kind'] == 'ParmVarDecl']
            roots = [tree.tr(c) for p in params for c in tree.kids(p)] + \
                    [tree.tr(c) for c in tree.kids(n) if c['kind'] == 'CompoundStmt']
            scopes.append('⟨[%s], [%s]⟩' % (', '.join(tree.decl_id(p) for p in params), ', '.join(roots)))
    return stmt_expect(tree, code, '([%s] : List ParamScope).flatMap parameterReassignment' % ', '.join(scopes), exp)


def branches_case(rule, lang, code, exp, path):
    tree = Tree(clang_ast(lang, code), code)
    roots = ', '.join(tree.tr(b) for b in tree.bodies())
    return stmt_expect(tree, code, 'overRoots (reportOver fun s => okOr [] (tooFewBranchesVisit %s s)) [%s]' % (
        config_of(path), roots), exp)


def early_exit_case(code, exp):
    path = REPO + '/oclint-rules/test/convention/PreferEarlyExitRuleTest.cpp'
    tree = Tree(clang_ast('', code), code)
    roots = ', '.join(tree.tr(b) for b in tree.bodies())
    table = ', '.join('(%s, (%d, %d))' % (t, line_col(code, b)[0], line_col(code, e)[0])
                      for b, e, t, k in tree.placed if k == 'IfStmt')
    return stmt_expect(tree, code, 'overRoots (fun s => okOr [] (earlyExitRule %s (rangeIn [%s]) s)) [%s]' % (
        config_of(path), table, roots), exp)


def early_exit_tests():
    """The parameterised tests of PreferEarlyExitRuleTest.cpp, written out."""
    path = REPO + '/oclint-rules/test/convention/PreferEarlyExitRuleTest.cpp'
    src = open(path).read()
    body = re.search(r'const Loop loops\[\] = \{((?:.|\n)*?)\n\};', src).group(1)
    for m in re.finditer(r'\{((?:\s*"(?:\\.|[^"\\])*",?)*)\s*\}', body):
        parts = [[]]
        for t in tokens(m.group(1)):
            if t == ',': parts.append([])
            else: parts[-1].append(unquote(t))
        name, start, end = (''.join(x) for x in parts)
        for n, exp in ((1, ('none',)), (2, ('at', 0, 4, 1, 7, 1, ''))):
            code = 'int test(int a) {\n' + start + 'if (a) {\n' + 'a *= 2;\n' * n + '}\n' + end + 'return a;\n}\n'
            yield path, 'LoopWith%sIf, %s' % ('Short' if n == 1 else 'Long', name), early_exit_case(code, exp)
    for param in ('break;', 'continue;', 'goto LABEL;', 'goto *label_ptr;'):
        for n, exp in ((1, ('none',)), (2, ('at', 0, 6, 3, 9, 3, ''))):
            code = 'int test(int a) {\nvoid const* label_ptr = &&LABEL;\nLABEL:\nfor (;;) {\n  int i = 2;\n  if (a) {\n' \
                + 'i *= 2;\n' * n + '  }\n' + param + '\n}\n}\n'
            yield path, 'FunctionWith%sIf, %s' % ('Short' if n == 1 else 'Long', param), early_exit_case(code, exp)
    code = 'int test(int a) {\n  int i = 2;\n  if (a) {\n' + 'i *= 2;\n' * 2 + '  }\n  return i;\n}\n'
    yield path, 'LongIfAndReturnInsideBlock', early_exit_case(code, ('at', 0, 3, 3, 6, 3, ''))


class IvarTree(Tree):
    """Accesses of instance variables are members."""

    def tr1(self, n):
        if n['kind'] == 'ObjCIvarRefExpr':
            return '(.member true %s %s)' % (self.tr(self.kids(n)[0]), chars(n['decl']['name']))
        return Tree.tr1(self, n)


def ivar_case(rule, lang, code, exp):
    tree = IvarTree(clang_ast(lang, code), code)
    methods = ['(%s, %s)' % (chars(n['name']), tree.tr([c for c in tree.kids(n) if c['kind'] == 'CompoundStmt'][0]))
               for n, ps in preorder(tree) if n['kind'] == 'ObjCMethodDecl'
               and any(c['kind'] == 'CompoundStmt' for c in tree.kids(n))]
    return stmt_expect(tree, code, '([%s] : List (Str × Stmt)).flatMap fun m => ivarAssignmentVisit memberName m.1 m.2'
                       % ', '.join(methods), exp)


def violations_expect(f, exp):
    if exp[0] == 'none': return '(%s).isEmpty' % f
    if exp[0] == 'at': return 'violationAt %d (%s) (%d, %d, %d, %d) %s' % (exp[1], f, *exp[2:6], chars(exp[6]))
    raise Skip('expected violations')


def unit(tree, code):
    comments = ['some (%s, %d)' % (chars(m.group(0)), line_col(code, m.start())[0])
                for m in re.finditer(r'//[^\n]*|/\*(?:.|\n)*?\*/', code)]
    o = ObjC(tree)
    tops = []
    for top in tree.ast.get('inner', []):
        if top.get('isImplicit') or not top.get('loc'): continue
        ds = []
        for n, _ in below(tree, top):
            if n['kind'].endswith('Decl') and not n.get('isImplicit'):
                a, b = lines_of(code, n)
                ds.append('⟨%s, %d, %d⟩' % (o.kind(n)[len('(.decl '):-1], a, b))
        tops.append('(true, [%s])' % ', '.join(ds))
    return '⟨"input.m".toList, some [%s], [%s], %s⟩' % (', '.join(comments), ', '.join(tops), chars(code))


def line_rule_case(rule, lang, code, exp, path):
    tree = Tree(clang_ast(lang, code), code)
    apple = bool_('//! ' in code or 'OCLint' in code)
    if rule == 'LongLineRule':
        f = 'longLineViolations %s %s %s' % (apple, config_of(path), unit(tree, code))
    else:
        f = 'everyLineViolations %s "test source code rule".toList %s' % (apple, unit(tree, code))
    return violations_expect(f, exp)


def suppress_case(rule, lang, code, exp):
    tree = Tree(clang_ast(lang, code), code)
    o = ObjC(tree)
    apple = bool_('//! ' in code or 'OCLint' in code)
    items = []
    for n, ps in preorder(tree):
        if n['kind'] == 'TranslationUnitDecl': continue
        r = n['range']
        b, e = Tree.off(r['begin'], 0), Tree.off(r['end'], 0)
        if b is None: continue
        items.append('([%s], ⟨"input.m".toList, %d, %d, %d, %d⟩)' % (
            ', '.join(o.kind(x) for x in ps + [n]), *line_col(code, b), *line_col(code, e)))
    f = 'everyNodeViolations %s "test ast rule".toList %s [%s]' % (apple, unit(tree, code), ',\n      '.join(items))
    return violations_expect(f, exp)


def short_name_case(rule, lang, code, exp, path):
    tree = Tree(clang_ast(lang, code), code)
    roots, where = [], {}
    for n, ps in preorder(tree):
        if n['kind'] in ('VarDecl', 'ParmVarDecl'):
            where[tree.num(n['id'])] = n
        if any(p.get('kind', '').endswith(('Stmt', 'Expr', 'Operator')) for p in ps): 
            if n['kind'] == 'ParmVarDecl': raise Skip('parameter in a statement')
            continue
        if n['kind'] in ('VarDecl', 'ParmVarDecl'):
            init = [c for c in tree.kids(n)] if 'init' in n else []
            roots.append('(.varD %s %s)' % (tree.decl_id(n), tree.opt(init[-1] if init else None)))
        elif n['kind'].endswith('Stmt'):
            roots.append(tree.tr(n))
    f = 'shortNames %s [%s]' % (config_of(path), ',\n      '.join(roots))
    if exp[0] == 'none': return '(%s).isEmpty' % f

    def ids(x):
        out = [str(i) for i, n in where.items()
               if line_col(code, Tree.off(n['range']['begin'], 0)) == tuple(x[:2]) and end_of(code, n) == tuple(x[2:4])]
        if not out: raise Skip('no variable at %s' % (x,))
        return '[%s]' % ', '.join(out)

    def end_of(code, n): return line_col(code, Tree.off(n['range']['end'], 0))
    if exp[0] == 'at': return 'taggedAt %d (%s) %s %s' % (exp[1], f, ids(exp[2:6]), chars(exp[6]))
    return 'taggedAll (%s) [%s]' % (f, ', '.join('(%s, %s)' % (ids(x), chars(x[4])) for x in exp[1]))


def other_case(rule, lang, code, exp, path):
    if isinstance(rule, tuple) and rule[0] != 'UnusedLocalVariableRule' or rule in ('ImplicitNoCUDARule', 'DefaultASTRule'):
        return application_case(rule, lang, code, exp)
    if isinstance(rule, tuple): return unused_case(rule[0], lang, code, exp, path, rule[1])
    if rule == 'CudaBranchDivergenceRule': return divergence_case(rule, lang, code, exp)
    if rule == 'ParameterReassignmentRule': return reassignment_case(rule, lang, code, exp)
    if rule == 'TooFewBranchesInSwitchStatementRule': return branches_case(rule, lang, code, exp, path)
    if rule == 'ObjCAssignIvarOutsideAccessorsRule': return ivar_case(rule, lang, code, exp)
    if rule in ('LongLineRule', 'SuppressHelperTestSourceCodeReaderRule'):
        return line_rule_case(rule, lang, code, exp, path)
    if rule == 'SuppressHelperTestASTRule': return suppress_case(rule, lang, code, exp)
    if rule == 'ShortVariableNameRule': return short_name_case(rule, lang, code, exp, path)
    raise Skip('no translation for ' + rule)


def all_rule_tests():
    for path in sorted(glob.glob(REPO + '/oclint-rules/test/*/*Test.cpp')):
        for i, c in enumerate(rule_calls(path)):
            yield path, i, c


# ---------------------------------------------------------------- metrics

METRIC_TESTS = {'CyclomaticComplexityMetricTest.cpp': 'cyclomaticComplexity [%s]',
                'NPathComplexityMetricTest.cpp': 'npathComplexity %s',
                'NcssMetricTest.cpp': 'ncss %s', 'StmtDepthMetricTest.cpp': 'stmtDepth %s'}


def metric_tests():
    """(path, test name, Lean Bool or None, reason)"""
    for f, fun in METRIC_TESTS.items():
        path = REPO + '/oclint-metrics/test/' + f
        src = open(path).read()
        name_only = 'hasName("m")' in src
        for name, body, env in test_cases(path):
            try:
                m = re.search(r'Callback \w+\((\d+)\)', body)
                c = re.search(r'testMatcherOn(ObjC|CXX|)Code\s*\(', body)
                if not m or not c:
                    raise Skip('no call')
                args, _ = parse_args(tokens(body[c.end():]), 0)
                code = text_of(args[1], env)
                tree = Tree(clang_ast(c.group(1), code), code)
                terms = []
                for n, parents in preorder(tree):
                    if n['kind'] in FUNCTIONS and n['kind'] != 'ObjCMethodDecl' and (not name_only or n.get('name') == 'm'):
                        b = next((x for x in tree.kids(n) if x['kind'] in ('CompoundStmt', 'CXXTryStmt')), None)
                        if b is None: raise Skip('no body')
                        terms.append('isOk (%s) %s' % (fun % tree.tr(b), m.group(1)))
                yield path, name, ' &&\n    '.join(terms), None
            except Skip as e:
                yield path, name, None, str(e)


# ---------------------------------------------------------------- properties of rules

def property_tests():
    for path in sorted(glob.glob(REPO + '/oclint-rules/test/*/*Test.cpp')):
        for name, body, env in test_cases(path):
            d = re.search(r'^\s*\{\s*(\w+Rule) rule;', body)
            if not d: continue
            pr = re.search(r'EXPECT_EQ\((\d+), rule.priority\(\)\)', body)
            nm = re.search(r'EXPECT_EQ\("([^"]*)", rule.name\(\)\)', body)
            ca = re.search(r'EXPECT_EQ\("([^"]*)", rule.category\(\)\)', body)
            if not (pr and nm and ca): continue
            yield path, name, 'hasProperties %s %s %s %s' % (
                chars(d.group(1)), pr.group(1), chars(nm.group(1)), chars(ca.group(1))), None


# ---------------------------------------------------------------- output

GROUPS = {}


def add(group, path, name, term):
    GROUPS.setdefault(group, []).append((path[len(REPO) + 1:], name, term))


def run():
    skipped = []
    for path, i, (name, rule, lang, code, exp, why) in all_rule_tests():
        base = os.path.basename(path)
        cat = path.split('/')[-2].capitalize()
        if why is None:
            try:
                if rule in STMT_RULES:
                    add(cat, path, name, stmt_case(rule, lang, code, exp))
                elif rule in METRIC_RULES:
                    add(cat, path, name, metric_case(rule, lang, code, exp, path))
                elif rule in COCOA_RULES:
                    add(cat, path, name, cocoa_case(rule, lang, code, exp, path))
                elif rule in MIGRATION_RULES:
                    add(cat, path, name, migration_case(rule, lang, code, exp, path))
                elif rule in CXX_RULES:
                    add(cat, path, name, cxx_case(rule, lang, code, exp, path))
                elif rule in ('UnusedLocalVariableRule', 'UnusedMethodParameterRule'):
                    add(cat, path, name, unused_case(rule, lang, code, exp, path))
                elif rule != 'PreferEarlyExitRule':
                    add(cat, path, name, other_case(rule, lang, code, exp, path))
            except Skip as e:
                why = str(e)
        if why is not None and base != 'PreferEarlyExitRuleTest.cpp':
            skipped.append((base, name, why))
    for path, name, term in early_exit_tests():
        add('Convention', path, name, term)
    for path, name, term, why in metric_tests():
        if term is None: skipped.append((os.path.basename(path), name, why))
        else: add('Metrics', path, name, term)
    for path, name, term, why in property_tests():
        add('Properties', path, name, term)
    return skipped


if __name__ == '__main__' and sys.argv[1:2] == ['try']:
    skipped = run()
    only = sys.argv[2:]
    out = ['import Verif.Tests.Support', 'namespace Oclint']
    for g, cases in GROUPS.items():
        if only and g not in only: continue
        print(g, len(cases))
        for path, name, term in cases:
            out.append('/-- CASE %s %s -/\nexample : (%s) = true := by decide +kernel' % (path, name, term))
    open('/tmp/ct/try.lean', 'w').write('\n'.join(out) + '\nend Oclint\n')
    for x in skipped:
        print('SKIP', *x, file=sys.stderr)


if __name__ == '__main__' and sys.argv[1:2] == ['write']:
    skipped = run()
    here = os.path.dirname(os.path.dirname(os.path.abspath(__file__)))
    mods = []
    for g, cases in sorted(GROUPS.items()):
        out = ['import Verif.Tests.Support', '', '/-!', '# Tests of the repository, %s' % g.lower(), '',
               'Written by `tools/repotests.py`; see `Verif/Tests/Support.lean`.', '-/', '', 'namespace Oclint', '',
               'set_option linter.all false', '']
        last = None
        for path, name, term in cases:
            if path != last:
                out += ['/-! ## `%s` -/' % path, '']
                last = path
            out += ['-- %s' % name, 'example : (%s) = true := by decide +kernel' % term, '']
        out.append('end Oclint')
        open(here + '/lean/Verif/Tests/%s.lean' % g, 'w').write('\n'.join(out) + '\n')
        mods.append(g)
    print(sum(len(c) for c in GROUPS.values()), 'replayed,', len(skipped), 'not')
    with open(here + '/tools/repotests.txt', 'w') as f:
        for g, cases in sorted(GROUPS.items()): f.write('%s %d\n' % (g, len(cases)))
        for x in skipped:
            f.write('not replayed: %s %s: %s\n' % (x[0], x[1], 'Clang 22 fails' if x[2].startswith('clang') else x[2]))
