#!/usr/bin/env python3
"""Mechanical translation of the functions of /repo/src that carry the arithmetic into Lean.

    python3 tools/rs2lean.py [/repo/src] [/verif/lean/Verif/Source]

The translator knows the Rust subset these functions use and stops with an error on anything else.
It knows nothing of the hand-written model: `Verif/Source/Agree*.lean` prove that the two agree.
"""
import re, sys, os

REPO = sys.argv[1] if len(sys.argv) > 1 else '/repo/src'
OUT = sys.argv[2] if len(sys.argv) > 2 else '/verif/lean/Verif/Source'

# ---------------------------------------------------------------- tokens
TOK = re.compile(r'''
  (?P<ws>\s+) | (?P<com>//[^\n]*|/\*.*?\*/) | (?P<str>"(?:[^"\\]|\\.)*")
| (?P<num>\d[\d_]*(?:i64|i32|u32)?) | (?P<life>'[a-z]+\b(?!'))
| (?P<id>[A-Za-z_]\w*) | (?P<op>::|=>|->|==|!=|<=|>=|&&|\|\||\+=|-=|\.\.|[-+*/%<>=!&|.,;:(){}\[\]?@\#$])
''', re.X | re.S)

class T:
    def __init__(self, k, v, line): self.k, self.v, self.line = k, v, line
    def __repr__(self): return f'{self.v}@{self.line}'

def tokenize(s):
    out, i, line = [], 0, 1
    while i < len(s):
        m = TOK.match(s, i)
        if not m: raise SyntaxError(f'line {line}: {s[i:i+30]!r}')
        k = m.lastgroup
        if k not in ('ws', 'com'): out.append(T(k, m.group(), line))
        line += m.group().count('\n'); i = m.end()
    return out

def close(toks, i):
    """index of the bracket closing the one at i"""
    pairs = {'(': ')', '{': '}', '[': ']'}
    st = []
    while True:
        v = toks[i].v if toks[i].k == 'op' else None
        if v in pairs: st.append(pairs[v])
        elif st and v == st[-1]:
            st.pop()
            if not st: return i
        i += 1

# ---------------------------------------------------------------- items
class Fn: pass

def find_fns(toks, impl=None, acc=None):
    """all functions with a body outside test modules, with the `impl … for …` they stand in"""
    acc = [] if acc is None else acc
    i, test = 0, False
    while i < len(toks):
        t = toks[i]
        if t.v == '#' and toks[i+1].v == '[':
            j = close(toks, i+1)
            if [x.v for x in toks[i+2:j]] in (['test'], ['cfg', '(', 'test', ')']): test = True
            i = j + 1
        elif t.v == 'macro_rules':
            while toks[i].v != '{': i += 1
            i = close(toks, i) + 1
        elif t.v in ('impl', 'mod', 'trait') and t.k == 'id':
            j = i
            while toks[j].v not in ('{', ';'): j += 1
            if toks[j].v == '{':
                e = close(toks, j)
                head = [x.v for x in toks[i+1:j]]
                if t.v != 'trait' and not test:
                    find_fns(toks[j+1:e], head if t.v == 'impl' else None, acc)
                i = e + 1
            else: i = j + 1
            test = False
        elif t.v == 'fn':
            f = Fn(); f.name = toks[i+1].v; f.impl = impl; f.line = t.line
            j = i + 2
            while toks[j].v != '(': j += 1
            e = close(toks, j); f.params = toks[j+1:e]
            j = e + 1; ret = []
            while toks[j].v not in ('{', ';', 'where'): ret.append(toks[j].v); j += 1
            f.ret = ret[1:]
            while toks[j].v not in ('{', ';'): j += 1
            if toks[j].v == '{':
                e = close(toks, j); f.body = toks[j:e+1]; f.end = toks[e].line
                if not test: acc.append(f)
                i = e + 1
            else: i = j + 1
            test = False
        else: i += 1
    return acc

# ---------------------------------------------------------------- parser
class P:
    def __init__(self, toks): self.t, self.i, self.macros = toks, 0, {}
    def pk(self, o=0): return self.t[self.i+o].v if self.i+o < len(self.t) else None
    def kind(self): return self.t[self.i].k if self.i < len(self.t) else None
    def eat(self, v):
        if self.pk() != v: self.err(f'expected {v}')
        self.i += 1
    def opt(self, v):
        if self.pk() == v: self.i += 1; return True
        return False
    def err(self, m): raise SyntaxError(f'{m}, at {self.t[self.i:self.i+5]}')

    def block(self):
        self.eat('{'); st, tail = [], None
        while not self.opt('}'):
            if self.pk() == 'use':
                while self.pk() != ';': self.i += 1
                self.i += 1
            elif self.pk() == 'macro_rules': self.macro()
            elif self.pk() == 'let':
                self.i += 1; p = self.pat(); ty = None
                if self.opt(':'): ty = self.ty(('=',))
                self.eat('='); e = self.expr(); self.eat(';'); st.append(('let', p, ty, e))
            elif self.kind() == 'id' and self.pk(1) == '!' and self.pk() in self.macros:
                st += self.expand()
            else:
                e = self.expr()
                if self.opt(';'): st.append(('expr', e))
                elif self.pk() == '}': tail = e
                elif e[0] in ('if', 'iflet', 'while', 'loop', 'for', 'match', 'block'): st.append(('expr', e))
                else: self.err('statement')
        return ('block', st, tail)

    def macro(self):
        self.i += 2; name = self.t[self.i].v; self.i += 1
        e = close(self.t, self.i); b = self.t[self.i+1:e]; self.i = e + 1
        e = close(b, 0); pat, rest = b[1:e], b[e+1:]
        assert rest[0].v == '=>'
        vs = [(pat[k+1].v, pat[k+3].v) for k in range(len(pat)) if pat[k].v == '$']
        self.macros[name] = (vs, rest[1:])

    def expand(self):
        vs, body = self.macros[self.pk()]; self.i += 2
        e = close(self.t, self.i); args, cur = [], []
        for t in self.t[self.i+1:e]:
            if t.v == ',': args.append(cur); cur = []
            else: cur.append(t)
        args.append(cur); self.i = e + 1; self.opt(';')
        m = {n: (a if k == 'ident' else [T('op', '(', 0)] + a + [T('op', ')', 0)])
             for (n, k), a in zip(vs, args)}
        out, k = [], 0
        while k < len(body):
            if body[k].v == '$': out += m[body[k+1].v]; k += 2
            else: out.append(body[k]); k += 1
        q = P(out); b = q.block()
        assert b[2] is None
        return b[1]

    def ty(self, stop):
        out, d = [], 0
        while not (d == 0 and self.pk() in stop):
            v = self.pk(); d += (v in '(<[') - (v in ')>]') if v != '->' else 0
            out.append(v); self.i += 1
        return out

    # patterns
    def pat(self):
        if self.opt('('):
            ps = []
            while not self.opt(')'): ps.append(self.pat()); self.opt(',')
            return ('ptup', ps)
        if self.opt('_'): return ('pwild',)
        if self.pk() in ('true', 'false'): self.i += 1; return ('pbool', self.t[self.i-1].v)
        while self.pk() in ('ref', 'mut', '&'): self.i += 1
        if self.kind() == 'num': self.i += 1; return ('pnum', self.t[self.i-1].v)
        path = self.path()
        if self.opt('('):
            ps = []
            while not self.opt(')'):
                if self.opt('..'): ps.append(('prest',))
                else: ps.append(self.pat())
                self.opt(',')
            return ('pctor', path, ps)
        if len(path) > 1 and self.opt('{'):
            fs = []
            while not self.opt('}'): fs.append(self.ident()); self.opt(',')
            return ('pstruct', path, fs)
        if self.opt('@'): return ('pat@', path[0], self.pat())
        if len(path) > 1 or path[0] == 'None': return ('pctor', path, [])
        return ('pvar', path[0])

    def path(self):
        self.opt('::'); out = [self.ident()]
        while self.pk() == '::' and self.t[self.i+1].k == 'id': self.i += 1; out.append(self.ident())
        return out
    def ident(self):
        if self.kind() != 'id': self.err('identifier')
        self.i += 1; return self.t[self.i-1].v

    # expressions
    def expr(self):
        e = self.bin(0)
        if self.pk() in ('=', '+=', '-='):
            op = self.pk(); self.i += 1
            return ('assign', op, e, self.expr())
        return e
    LEV = [['||'], ['&&'], ['==', '!=', '<', '>', '<=', '>='], ['+', '-'], ['*', '/', '%']]
    def bin(self, l):
        if l == len(self.LEV): return self.cast()
        e = self.bin(l+1)
        while self.pk() in self.LEV[l] and self.kind() == 'op':
            op = self.pk(); self.i += 1; e = ('bin', op, e, self.bin(l+1))
        return e
    def cast(self):
        e = self.unary()
        while self.opt('as'): e = ('as', e, self.ident())
        return e
    def unary(self):
        if self.pk() in ('*', '&', '!', '-') and self.kind() == 'op':
            op = self.pk(); self.i += 1; self.opt('mut')
            return ('un', op, self.unary())
        return self.post(self.prim())
    def args(self):
        self.eat('('); a = []
        while not self.opt(')'): a.append(self.expr()); self.opt(',')
        return a
    def post(self, e):
        while True:
            if self.opt('?'): e = ('try', e)
            elif self.pk() == '(' and e[0] == 'path': e = ('call', e[1], self.args())
            elif self.opt('.'):
                self.i += 1; n = self.t[self.i-1].v
                e = ('meth', e, n, self.args()) if self.pk() == '(' else ('field', e, n)
            else: return e
    def prim(self):
        v, k = self.pk(), self.kind()
        if k == 'num': self.i += 1; return ('num', re.sub('_|i64|i32|u32', '', v))
        if k == 'str': self.i += 1; return ('str', v)
        if v in ('true', 'false'): self.i += 1; return ('bool', v)
        if v == '(':
            self.i += 1; es, tup = [], False
            while not self.opt(')'):
                es.append(self.expr()); tup |= self.opt(',')
            return es[0] if len(es) == 1 and not tup else ('tuple', es)
        if v in ('|', '||'):
            self.i += 1; ps = []
            if v == '|':
                while not self.opt('|'):
                    ps.append(self.pat())
                    if self.opt(':'): ps[-1] = ('pty', ps[-1], self.ty((',', '|')))
                    self.opt(',')
            return ('closure', ps, self.expr())
        if v == '{': return self.block()
        if v == 'if' and self.pk(1) == 'let':
            self.i += 2; p = self.pat(); self.eat('='); c = self.nostruct()
            return ('iflet', p, c, self.block())
        if v == 'if':
            self.i += 1; c = self.nostruct(); b = self.block(); e = None
            if self.opt('else'): e = self.prim() if self.pk() == 'if' else self.block()
            return ('if', c, b, e)
        if v == 'while': self.i += 1; c = self.nostruct(); return ('while', c, self.block())
        if v == 'loop': self.i += 1; return ('loop', self.block())
        if v == 'for': self.i += 1; p = self.pat(); self.eat('in'); c = self.nostruct(); return ('for', p, c, self.block())
        if v == 'return': self.i += 1; return ('return', self.expr())
        if v == 'continue': self.i += 1; return ('continue',)
        if v == 'match':
            self.i += 1; s = self.nostruct(); self.eat('{'); arms = []
            while not self.opt('}'):
                line = self.t[self.i].line
                ps = [self.pat()]
                while self.opt('|'): ps.append(self.pat())
                self.eat('=>'); e = self.expr(); self.opt(',')
                arms.append((ps, e, line))
            return ('match', s, arms)
        p = self.path()
        if self.pk() == '!' and len(p) == 1:
            self.i += 1; return ('macro', p[0], self.args())
        if self.pk() == '{' and not self.ns and p[0][0].isupper():
            self.i += 1; fs = []
            while not self.opt('}'):
                n = self.ident(); self.eat(':'); fs.append((n, self.expr())); self.opt(',')
            return ('struct', p, fs)
        return ('path', p)
    ns = False
    def nostruct(self):
        o, self.ns = self.ns, True
        e = self.expr(); self.ns = o
        return e

# ---------------------------------------------------------------- types
def ty(v, self_ty=None):
    v = [x for x in v if x not in ('&', 'mut') and not x.startswith("'")]
    s = ''.join(v)
    m = re.fullmatch(r'(Result|Option|Box)<(.*)>', s)
    if m:
        t = ty_s(m.group(2), self_ty)
        return t if m.group(1) == 'Box' else (m.group(1), t)
    return ty_s(s, self_ty)
def ty_s(s, self_ty):
    m = re.fullmatch(r'(Result|Option|Box)<(.*)>', s)
    if m: return ty([s], self_ty) if False else ((m.group(1), ty_s(m.group(2), self_ty)) if m.group(1) != 'Box' else ty_s(m.group(2), self_ty))
    if s.startswith('('):
        inner = s[1:-1]
        return ('tuple',) + tuple(ty_s(x, self_ty) for x in inner.split(',') if x) if inner else 'unit'
    s = s.split('::')[-1] if s != 'Self::Item' and s != 'Self::Output' else s
    if s in ('Self', 'Output', 'Self::Output'): return self_ty
    r = {'i64': 'i64', 'i32': 'i32', 'u32': 'u32', 'bool': 'bool', 'str': 'str', 'TimeType': 'TT', 'TT': 'TT',
         'NaiveDateTime': 'Moment', 'Weekday': 'Weekday', 'Day': 'Day', 'Month': 'Month',
         'Iter': 'Iter', 'DayFilter': 'Day', 'MonthFilter': 'Month', '': 'unit'}.get(s)
    if r is None: raise TypeError(f'unknown type {s}')
    return r
LT = {'i64': 'Int', 'i32': 'Int', 'u32': 'Int', 'Weekday': 'Int', 'int': 'Int', 'bool': 'Bool', 'str': 'String',
      'TT': 'TT', 'Moment': 'Moment', 'Date': 'Date', 'Day': 'Day', 'Month': 'Month', 'Iter': 'Iter', 'unit': 'Unit'}
def lt(t):
    if isinstance(t, tuple):
        if t[0] == 'Option': return f'(Option {lt(t[1])})'
        if t[0] == 'tuple': return '(' + ' × '.join(lt(x) for x in t[1:]) + ')'
        raise TypeError(t)
    return LT[t]
def isres(t): return isinstance(t, tuple) and t[0] == 'Result'
def isopt(t): return isinstance(t, tuple) and t[0] == 'Option'

WEEKDAY = {'Mon': 0, 'Tue': 1, 'Wed': 2, 'Thu': 3, 'Fri': 4, 'Sat': 5, 'Sun': 6}
MOMENT = {'year': 'i32', 'month': 'u32', 'day': 'u32', 'hour': 'u32', 'minute': 'u32', 'second': 'u32', 'weekday': 'Weekday'}
TTV = dict(Seconds=['i64'], Minutes=['i64'], Hours=['i64'], Days=['i64'], Months=['i64'], Years=['i64'],
           Moment=['Moment'], Addition=['TT', 'TT'], Subtraction=['TT', 'TT'], EndOfYear=['TT'],
           EndOfMonth=['TT'], EndOfDay=['TT'], EndOfHour=['TT'], EndOfMinute=['TT'])
def low(s): return s[0].lower() + s[1:]
def camel(s):
    p = s.split('_'); return p[0] + ''.join(x.capitalize() for x in p[1:])

# ---------------------------------------------------------------- translation
SIGS = {}      # lean name -> (param types, result type)

class Tr:
    """One function. A Rust expression becomes a list of `do` lines and an atom. The atom of an
    expression of type `Result<_>` is a computation in `Out`; of any other type, a value."""
    def __init__(self, fn, ret): self.n, self.fn, self.ret = 0, fn, ret
    def fresh(self): self.n += 1; return f't{self.n}'
    def bad(self, e): raise NotImplementedError(f'{self.fn}: {str(e)[:200]}')

    def arms(self): pass
    def arm(self): pass
    def arms_end(self): pass

    def tt(self, p):
        return len(p) >= 2 and p[-2] in ('TT', 'TimeType')

    def pat(self, p, t, env):
        k = p[0]
        if k == 'pwild': return '_'
        if k == 'pvar': env[p[1]] = t; return p[1]
        if k == 'pbool': return p[1]
        if k == 'pat@':
            env[p[1]] = t; return f'{p[1]}@({self.pat(p[2], t, env)})'
        if k == 'ptup': return '(' + ', '.join(self.pat(q, u, env) for q, u in zip(p[1], t[1:])) + ')'
        if k == 'pctor':
            path, ps = p[1], p[2]
            if path == ['None']: return '.none'
            if path == ['Some']: return f'(.some {self.pat(ps[0], t[1], env)})'
            if self.tt(path) and t == 'TT':
                fs = TTV[path[-1]]
                if ps == [('prest',)]: ps = [('pwild',)] * len(fs)
                assert len(ps) == len(fs)
                return f'.{low(path[-1])} ' + ' '.join(self.pat(q, u, env) for q, u in zip(ps, fs))
            if path[0] == t and t in ('Day', 'Month'): return f'.{low(path[-1])}'
        self.bad(p)

    def comp(self, e, env, want=None):
        """the expression as the lines of one `do` block"""
        b, a, t = self.ex(e, env, want)
        return b + [a if isres(t) else f'.ok {a}'], t

    def arms_ty(self, ts):
        for t in ts:
            if t not in ('int', 'never'): return t
        return ts[0]

    def block(self, e, env, want=None):
        if e[0] != 'block': return self.ex(e, env, want)
        env = dict(env); out = []
        for s in e[1]: out += self.stmt(s, env)
        if e[2] is None: return out, '()', 'unit'
        b, a, t = self.ex(e[2], env, want)
        return out + b, a, t

    def assigned(self, e, acc):
        if isinstance(e, tuple):
            if e[0] == 'assign': 
                if e[2][0] != 'path': self.bad(e)
                if e[2][1][0] not in acc: acc.append(e[2][1][0])
            for x in e: self.assigned(x, acc)
        elif isinstance(e, list):
            for x in e: self.assigned(x, acc)
        return acc

    def stmt(self, s, env):
        if s[0] == 'let':
            _, p, annot, e = s
            want = ty(annot) if annot else None
            b, a, t = self.ex(e, env, want)
            if isres(t): self.bad(s)
            return b + [f'let {self.pat(p, t, env)} := {a}']
        e = s[1]
        if e[0] == 'assign':
            op, lhs, rhs = e[1:]
            if lhs == ('un', '*', ('path', ['self'])): lhs = lhs[2]
            if lhs[0] != 'path' or len(lhs[1]) != 1: self.bad(e)
            v = lhs[1][0]
            if op != '=': rhs = ('bin', op[0], lhs, rhs)
            b, a, t = self.ex(rhs, env)
            return b + [f'let {v} := {a}']
        if e[0] == 'while':
            vs = self.assigned(e[2], []); tup = '(' + ', '.join(vs) + ')'
            c, _ = self.comp(e[1], env)
            body, _, _ = self.block(e[2], env)
            return [f'let {tup} ← Rs.while (fun {tup} => do', ['    ', c], '  ) (fun ' + tup + ' => do',
                    ['    ', body + [f'.ok {tup}']], f'  ) {tup}']
        if e[0] == 'if' and e[3] is None:
            vs = self.assigned(e[2], []); tup = '(' + ', '.join(vs) + ')'
            b, a, t = self.ex(e[1], env)
            body, _, _ = self.block(e[2], env)
            return b + [f'let {tup} ← (if {a} then do', ['    ', body + [f'.ok {tup}']], f'  else .ok {tup})']
        if e[0] == 'macro' and e[1] == 'assert':
            b, a, t = self.ex(e[2][0], env)
            return b + [f'Rs.assert {a}']
        self.bad(e)

    def call(self, name, args, env):
        ps, r = SIGS[name]
        assert len(ps) == len(args), (name, args)
        b, aa = [], []
        for x, p in zip(args, ps):
            bb, a, t = self.ex(x, env, p)
            assert t == p or t == 'int' and p in ('i64', 'i32', 'u32'), (name, t, p)
            b += bb; aa.append(a)
        return self.res(b, f'{name} cfg ' + ' '.join(aa), r)

    def res(self, b, comp, t):
        """a computation of type t as an expression"""
        if isres(t): return b, f'({comp})', t
        v = self.fresh()
        return b + [f'let {v} ← {comp}'], v, t

    def fun(self, e, t, env):
        """closure or path used as a function of one argument of type t; returns (lean, result type)"""
        if e[0] == 'closure':
            env = dict(env)
            p = self.pat(e[1][0], t, env)
            c, r = self.comp(e[2], env)
            if len(c) == 1 and isinstance(c[0], str): return [f'(fun {p} => {c[0]})'], r
            return [f'(fun {p} => do', ['    ', c], '  )'], r
        if e[0] == 'path':
            if e[1] == ['Box', 'new'] or e[1] == ['Error', 'from']: return ['.ok'], t
            if self.tt(e[1]):
                n = 'TimeType.' + e[1][-1]
                return [f'({n} cfg)'], SIGS[n][1]
        self.bad(e)

    def hof(self, b, head, f, rest=''):
        """lines `let v ← head f rest` with f possibly many lines"""
        f = list(f); f[0] = head + f[0]; f[-1] = (f[-1] + rest) if isinstance(f[-1], str) else f[-1]
        return f

    def ex(self, e, env, want=None):
        k = e[0]
        if k == 'num': return [], e[1], 'int'
        if k == 'str': return [], e[1], 'str'
        if k == 'bool': return [], e[1], 'bool'
        if k == 'block': return self.block(e, env, want)
        if k == 'path':
            p = e[1]
            if len(p) == 1 and p[0] in env: return [], p[0], env[p[0]]
            if p == ['None']: return [], 'none', want
            if p[-2:-1] == ['Weekday']: return [], str(WEEKDAY[p[-1]]), 'Weekday'
            self.bad(e)
        if k == 'tuple':
            b, aa, tt = [], [], []
            for x in e[1]:
                bb, a, t = self.ex(x, env); b += bb; aa.append(a); tt.append(t)
            return b, '(' + ', '.join(aa) + ')', ('tuple',) + tuple(tt)
        if k == 'field':
            b, a, t = self.ex(e[1], env)
            if e[2] == '0' and t in ('Day', 'Month'): return b, a, t     # DayFilter(Day), MonthFilter(Month)
            self.bad(e)
        if k == 'un':
            b, a, t = self.ex(e[2], env, want)
            if e[1] in '*&': return b, a, t
            if e[1] == '!' and t == 'bool': return b, f'(!{a})', t
            self.bad(e)
        if k == 'as':
            b, a, t = self.ex(e[1], env); g = e[2]
            if t == g or t == 'int': return b, a, g
            if (t, g) in (('i32', 'i64'), ('u32', 'i64')): return b, a, g
            if (t, g) == ('i64', 'i32'): return b, f'(asI32 {a})', g
            if (t, g) == ('i64', 'u32'): return b, f'(asU32 {a})', g
            self.bad(e)
        if k == 'bin': return self.binop(e, env)
        if k == 'try': 
            assert isres(self.ret)
            b, a, t = self.ex(e[1], env)
            if not isres(t): self.bad(e)
            v = self.fresh()
            if isinstance(a, list): return b + [f'let {v} ← ' + a[0]] + a[1:], v, t[1]
            return b + [f'let {v} ← {a}'], v, t[1]
        if k == 'macro':
            if e[1] == 'try': return self.ex(('try', e[2][0]), env)
            self.bad(e)
        if k == 'struct':
            if e[1] != ['Iter']: self.bad(e)
            b, fs = [], []
            for n, x in e[2]:
                bb, a, t = self.ex(x, env); b += bb; fs.append(f'{camel(n)} := {a}')
            return b, '({ ' + ', '.join(fs) + ' } : Iter)', 'Iter'
        if k == 'if':
            b, a, t = self.ex(e[1], env)
            x, tx = self.comp(e[2], env, want); y, ty_ = self.comp(e[3], env, want)
            t = self.arms_ty([tx, ty_])
            lines = [f'if {a} then do', ['    ', x], '  else do', ['    ', y]]
            return self.multi(b, lines, t)
        if k == 'match':
            s = e[1]
            scr = s[1] if s[0] == 'tuple' else [s]
            b, aa, ts = [], [], []
            for x in scr:
                bb, a, t = self.ex(x, env); b += bb; aa.append(a); ts.append(t)
                if isres(t) and not isinstance(self, TrS): self.bad(e)
            lines, rts = [f'match {", ".join(aa)} with'], []
            self.arms()
            for ps, rhs, _ in e[2]:
                pats = []; self.arm()
                for p in ps:
                    en = dict(env)
                    if s[0] == 'tuple': pats.append(', '.join(self.pat(q, u, en) for q, u in zip(p[1], ts)))
                    else: pats.append(self.pat(p, ts[0], en))
                c, rt = self.comp(rhs, en, want); rts.append(rt)
                lines += ['  | ' + ' | '.join(pats) + ' => do', ['      ', c]]
            self.arms_end()
            return self.multi(b, lines, self.arms_ty(rts))
        if k == 'call': return self.callex(e, env, want)
        if k == 'meth': return self.meth(e, env, want)
        self.bad(e)

    def multi(self, b, lines, t):
        if isres(t):
            lines = list(lines); lines[0] = '(' + lines[0]
            return b, lines + ['  )'], t
        v = self.fresh(); lines = list(lines); lines[0] = f'let {v} ← (' + lines[0]
        return b + lines + ['  )'], v, t

    def binop(self, e, env):
        _, op, x, y = e
        b, a, t = self.ex(x, env)
        b2, a2, t2 = self.ex(y, env, t)
        ty_ = t if t != 'int' else t2
        if op in ('&&', '||'):
            if b2: self.bad(e)       # the right operand would be evaluated conditionally
            return b + b2, f'({a} {op} {a2})', 'bool'
        if not (t == t2 or 'int' in (t, t2)): self.bad((e, t, t2))
        if op in ('==', '!='): return b + b2, f'({a} {op} {a2})', 'bool'
        if op in ('<', '>', '<=', '>='):
            return b + b2, f'(decide ({a} {op.replace("<=","≤").replace(">=","≥")} {a2}))', 'bool'
        if op in ('%', '/'):
            if y[0] != 'num' or int(y[1]) <= 0: self.bad(e)     # division by a positive literal never panics
            return b + b2, f'({a}.{"tmod" if op == "%" else "tdiv"} {a2})', ty_
        if ty_ != 'i64': self.bad((e, ty_))
        v = self.fresh()
        return b + b2 + [f'let {v} ← cfg.{ {"+": "add", "-": "sub", "*": "mul"}[op] } {a} {a2}'], v, ty_

    def callex(self, e, env, want):
        p, args = e[1], e[2]
        if p == ['Ok']:
            b, a, t = self.ex(args[0], env)
            return b, f'(.ok {a})', ('Result', t)
        if p == ['Err']:
            b, a, t = self.ex(args[0], env)
            assert t == 'Err'
            return b, f'(.err {a})', self.ret if isres(self.ret) else ('Result', 'never')
        if p == ['Some']:
            b, a, t = self.ex(args[0], env)
            return b, f'(some {a})', ('Option', t)
        if p in (['Error', 'from'], ['Box', 'new']): return self.ex(args[0], env)
        if p[0] == 'KEK':
            b, aa = [], []
            for x in args:
                bb, a, t = self.ex(x, env); b += bb; aa.append(a)
            return b, f'(.{low(p[1])} {" ".join(aa)})', 'Err'
        if self.tt(p) and p[-1] in TTV:
            b, aa = [], []
            for x in args:
                bb, a, t = self.ex(x, env); b += bb; aa.append(a)
            return b, f'(TT.{low(p[-1])} {" ".join(aa)})', 'TT'
        if self.tt(p): return self.call('TimeType.' + p[-1], args, env)
        if p == ['NaiveDate', 'from_ymd_opt']:
            b, aa = [], []
            for x, w in zip(args, ('i32', 'u32', 'u32')):
                bb, a, t = self.ex(x, env); assert t in (w, 'int'); b += bb; aa.append(a)
            return b, f'(fromYmdOpt cfg {" ".join(aa)})', ('Option', 'Date')
        n = '.'.join(p)
        if n in SIGS: return self.call(n, args, env)
        self.bad(e)

    def meth(self, e, env, want):
        _, r, m, args = e
        if m == 'clone' and not args: return self.ex(r, env, want)
        b, a, t = self.ex(r, env)
        if t == 'Moment' and m in MOMENT and not args: return b, f'{a}.{m}', MOMENT[m]
        if t == 'Date' and m in ('and_hms', 'and_hms_opt'):
            aa = []
            for x in args:
                bb, y, u = self.ex(x, env); assert u in ('u32', 'int'); b += bb; aa.append(y)
            if m == 'and_hms': return self.res(b, f'{a}.andHms {" ".join(aa)}', 'Moment')
            return b, f'({a}.andHmsOpt {" ".join(aa)})', ('Option', 'Moment')
        if t == 'i64' and m == 'abs': return self.res(b, f'cfg.abs {a}', 'i64')
        if isopt(t):
            if m in ('map', 'and_then'):
                f, rt = self.fun(args[0], t[1], env)
                v = self.fresh()
                if m == 'and_then':
                    assert isopt(rt)
                    return b + self.hof(b, f'let {v} ← Rs.optAndThen {a} ', f), v, rt
                return b + self.hof(b, f'let {v} ← Rs.optMap {a} ', f), v, ('Option', rt)
            if m == 'ok_or':
                bb, x, u = self.ex(args[0], env); assert u == 'Err'
                return b + bb, f'(OutE.ofOption {a} {x})', ('Result', t[1])
            if m == 'unwrap_or':
                bb, x, u = self.ex(args[0], env); assert u == t[1]
                return b + bb, f'(Option.getD {a} {x})', t[1]
        if isres(t):
            if m == 'map_err' and args[0] == ('path', ['Error', 'from']): return b, a, t
            if m in ('map', 'and_then'):
                f, rt = self.fun(args[0], t[1], env)
                if m == 'map' and isres(rt): self.bad(e)
                if m == 'and_then' and not isres(rt): self.bad(e)
                if f == ['.ok']: return b, a, t           # .map(Box::new)
                if isinstance(a, str): f = self.hof(b, f'({a} >>= ', f, ')')
                else:
                    a = list(a); a[0] = '(' + a[0]; a[-1] += ' >>= ' + f[0]
                    f = a + f[1:]; f[-1] += ')'
                rt = ('Result', rt) if m == 'map' else rt
                return b, f if len(f) > 1 else f[0], rt
        if t in ('Day', 'Month') and m == 'into': 
            return self.call(f'{t}.into', [r], env)
        if t == 'TT' and 'TimeType.' + m in SIGS: return self.call('TimeType.' + m, [r] + args, env)
        self.bad((e, t))

class TrS(Tr):
    """A method of an iterator of src/iter.rs taking `&mut self`: a computation in `Rs.M σ`, with σ the
    type of `self`. A `Result<_>` is a value here, an `Except`."""
    def __init__(self, fn, ret, fields, fetch):
        Tr.__init__(self, fn, ret)
        self.fields, self.fetch = fields, fetch

    def rd(self, f): return self.fields[f][0]
    def isself(self, e): return e[0] == 'field' and e[1] == ('path', ['self'])

    def pat(self, p, t, env):
        if p[0] == 'pctor' and p[1] in (['Ok'], ['Err']) and isres(t):
            c, u = ('ok', t[1]) if p[1] == ['Ok'] else ('error', 'Err')
            return f'(.{c} {self.pat(p[2][0], u, env)})'
        return Tr.pat(self, p, t, env)

    def comp(self, e, env, want=None):
        b, a, t = self.ex(e, env, want)
        return b + ([] if t == 'never' else [f'pure {a}']), t

    def fun(self, e, t, env):
        env = dict(env)
        p = self.pat(e[1][0], t, env)
        c, r = self.comp(e[2], env)
        return [f'(fun {p} => do', ['    ', c], '  )'], r

    def multi(self, b, lines, t):
        v = self.fresh(); lines = list(lines)
        if t == 'never':
            lines[0] = '(' + lines[0]
            return b + lines + ['  )'], None, t
        lines[0] = f'let {v} ← (' + lines[0]
        return b + lines + ['  )'], v, t

    def stmt(self, s, env):
        e = s[1]
        if s[0] == 'expr' and e[0] == 'assign' and self.isself(e[2]):
            f = e[2][2]; t = self.fields[f][1]
            if e[1] == '=': b, a, _ = self.ex(e[3], env)
            elif t == 'TT':
                b, a, _ = self.ex(e[3], env); v, w = self.fresh(), self.fresh()
                b = b + [f'let {v} := (← get).{self.rd(f)}',
                         f'let {w} ← Rs.value (TimeType.{ {"+=": "add", "-=": "sub"}[e[1]] }_assign cfg {v} {a})']; a = w
            else: b, a, _ = self.ex(('bin', e[1][0], e[2], e[3]), env)
            return b + [f'modify fun s => {{ s with {self.rd(f)} := {a} }}']
        self.bad(s)

    def ex(self, e, env, want=None):
        k = e[0]
        if self.isself(e):
            v = self.fresh()
            return [f'let {v} := (← get).{self.rd(e[2])}'], v, self.fields[e[2]][1]
        if k == 'loop':
            if e[1][1] or e[1][2] is None: self.bad(e)
            c, t = self.comp(e[1][2], env)
            v = self.fresh()
            return [f'let {v} ← Rs.loop (do', ['    ', c], '  )'], v, self.ret
        if k == 'return':
            b, a, t = self.ex(e[1], env, self.ret)
            return b + [f'pure (some {a})'], None, 'never'
        if k == 'continue': return ['pure none'], None, 'never'
        return Tr.ex(self, e, env, want)

    def binop(self, e, env):
        _, op, x, y = e
        b, a, t = self.ex(x, env); b2, a2, t2 = self.ex(y, env)
        if t == 'Moment' and op == '<' and t2 == 'Moment': return b + b2, f'(Moment.lt {a} {a2})', 'bool'
        if op == '==' : return b + b2, f'({a} == {a2})', 'bool'
        if op == '+' and t == 'i64':
            v = self.fresh()
            return b + b2 + [f'let {v} ← Rs.value (cfg.add {a} {a2} : Out Int)'], v, t
        self.bad(e)

    def res(self, b, comp, t):
        v = self.fresh()
        return b + [f'let {v} ← Rs.{"result" if isres(t) else "value"} ({comp})'], v, t

    def callex(self, e, env, want):
        p, args = e[1], e[2]
        if p in (['Ok'], ['Err']):
            b, a, t = self.ex(args[0], env)
            if p == ['Ok']: return b, f'(Except.ok {a})', ('Result', t)
            return b, f'(Except.error {a})', ('Result', 'TT')
        return Tr.callex(self, e, env, want)

    def meth(self, e, env, want):
        _, r, m, args = e
        if m == 'clone': return self.ex(r, env, want)
        if self.isself(r) and self.fields[r[2]][1] == 'I' and m == 'next':
            v = self.fresh()
            return [f'let {v} ← {self.fetch}'], v, ('Option', ('Result', 'TT'))
        if self.isself(r) and self.fields[r[2]][1] == 'M' and m == 'matches':
            b, a, t = self.ex(args[0], env); v = self.fresh()
            return b + [f'let {v} ← Rs.result (((← get).{self.rd(r[2])}) {a})'], v, ('Result', 'bool')
        if r == ('path', ['self']):
            n = 'Iter.' + m; v = self.fresh()
            return [f'let {v} ← {n} cfg'], v, SIGS[n][1]
        b, a, t = self.ex(r, env)
        if isres(t) and m == 'map':
            f, rt = self.fun(args[0], t[1], env)
            v = self.fresh()
            return b + self.hof(b, f'let {v} ← Rs.exMap {a} ', f), v, ('Result', rt)
        if isopt(t) and m == 'unwrap':
            v = self.fresh()
            return b + [f'let {v} ← Rs.unwrap {a}'], v, t[1]
        if t == 'TT':
            n = 'TimeType.' + m
            return self.res(b, f'{n} cfg {a}', SIGS[n][1])
        self.bad(e)

PAIR = ('(fun s => s.1)', '(fun s i => (i, s.2))')
INNER = ('(fun s => s.inner)', '(fun s i => { s with inner := i })')
STRUCTS = {
    'Iter': ('Iter', {'base': ('base', 'TT'), 'increment': ('increment', 'TT'), 'had_first': ('hadFirst', 'bool')}, None),
    'FilterIter': ('(I × (TT → Out Bool))', {'0': ('1', 'I'), '1': ('2', 'M')}, PAIR),
    'WithoutIter': ('(I × (TT → Out Bool))', {'0': ('1', 'I'), '1': ('2', 'M')}, PAIR),
    'UntilIter': ('(I × Moment)', {'0': ('1', 'I'), '1': ('2', 'Moment')}, PAIR),
    'TimesIter': ('(TimesState I)', {'inner': ('inner', 'I'), 'times': ('times', 'i64'), 'count': ('count', 'i64')}, INNER),
}
def lts(t):
    if isinstance(t, tuple) and t[0] == 'Result': return f'(Except ErrorKind {lts(t[1])})'
    if isinstance(t, tuple) and t[0] == 'Option': return f'(Option {lts(t[1])})'
    return lt(t)

def gen_iter(module, src, imports):
    toks = tokenize(open(os.path.join(REPO, src)).read())
    # the fields of the structs, in order
    for i, t in enumerate(toks):
        if t.v == 'struct' and toks[i+1].v in STRUCTS:
            n = toks[i+1].v; j = i + 2
            fs = STRUCTS[n][1]
            if toks[j].v == '<':
                while toks[j].v != '>': j += 1
                j += 1
            while toks[j].v not in ('(', '{'): j += 1
            body = [x.v for x in toks[j+1:close(toks, j)]]
            if toks[j].v == '{':
                names = [body[k-1] for k in range(len(body)) if body[k] == ':']
                assert names == list(fs), (n, names)
                tys = [body[k+1] for k in range(len(body)) if body[k] == ':']
            else: tys = [x for x in body if x != ',']
            exp = {'TT': 'TimeType', 'Moment': 'NaiveDateTime'}
            assert tys == [exp.get(u, u) for _, u in fs.values()], (n, tys)
    fns = [f for f in find_fns(toks) if mutself(f)]
    out = [HEAD.format(imports='\n'.join('import ' + i for i in imports), src=src)]
    todo = []
    for f in fns:
        h = f.impl
        tgt = h[h.index('for')+1] if 'for' in h else h[0]
        st, fields, zoom = STRUCTS[tgt]
        ret = ('Option', ('Result', 'TT')) if f.ret == ['Option', '<', 'Self', '::', 'Item', '>'] else ty(f.ret)
        SIGS[tgt + '.' + f.name] = (None, ret)
        todo.append((f, tgt + '.' + f.name, st, fields, zoom, ret))
    for f, name, st, fields, zoom, ret in topo([(x[0], x[1]) + x[2:] for x in todo]):
        tr = TrS(name, ret, fields, f'Rs.zoom {zoom[0]} {zoom[1]} next' if zoom else None)
        b, a, t = tr.block(P(f.body).block(), {})
        body = b + [f'pure {a}']
        gen = '' if zoom is None else '{I : Type} '
        nx = '' if zoom is None else '(next : Rs.M I (Option (Except ErrorKind TT))) '
        out += [f'/-- `fn {f.name}` of `{name.split(".")[0]}` — src/{src}:{f.line}-{f.end}. -/',
                f'def {name} {gen}(cfg : Cfg) {nx}: Rs.M {st} {lts(ret)} := do'] + render(body, '  ') + ['']
    out.append('end Kairos.Source')
    open(os.path.join(OUT, module + '.lean'), 'w').write('\n'.join(out) + '\n')
    return [x[1] for x in todo]

# rendering: a line is a string, or [indent, lines]; an atom may itself be a list of lines
def render(lines, ind):
    out = []
    for l in lines:
        if isinstance(l, list) and len(l) == 2 and isinstance(l[0], str) and l[0].strip() == '' and isinstance(l[1], list):
            out += render(l[1], ind + l[0])
        elif isinstance(l, list): out += render(l, ind)
        else: out.append(ind + l)
    return out

def self_type(f):
    if f.impl is None: return None
    h = f.impl
    tgt = h[h.index('for')+1:] if 'for' in h else h
    return ty(tgt)

def sig(f, ns):
    st = self_type(f)
    toks = [t for t in f.params]
    ps, cur, d = [], [], 0
    for t in toks + [T('op', ',', 0)]:
        if t.v in '(<[' and t.k == 'op': d += 1
        if t.v in ')>]' and t.k == 'op': d -= 1
        if t.v == ',' and d == 0:
            if cur: ps.append(cur)
            cur = []
        else: cur.append(t)
    out = []
    for p in ps:
        v = [t.v for t in p]
        if 'self' in v: out.append(('self', st))
        else:
            i = v.index(':'); out.append((v[i-1], ty(v[i+1:], st)))
    return (ns + f.name if ns else f.name), out, ty(f.ret, st)

def mutself(f): return [t.v for t in f.params][:3] == ['&', 'mut', 'self']

def emit(f, name, params, ret, src, rec):
    tr = Tr(name, ret)
    env = dict(params)
    p = P(f.body)
    blk = p.block()
    b, a, t = tr.block(blk, env, ret)
    body = b + [a if isres(t) else f'.ok {a}']
    if isres(ret): assert isres(t), (name, t)
    if ret == 'unit' and mutself(f):           # a method that only updates `self` returns the new `self`
        ret = dict(params)['self']; body = b + ['.ok self']
    r = ret[1] if isres(ret) else ret
    hdr = f'def {name} (cfg : Cfg) ' + ' '.join(f'({n} : {lt(u)})' for n, u in params) + f' : Out {lt(r)} := do'
    out = [f'/-- `fn {f.name}` — src/{src}:{f.line}-{f.end}. -/', hdr] + render(body, '  ')
    if rec: out.append('partial_fixpoint')
    return out

HEAD = '''{imports}

/-! Generated from src/{src} by tools/rs2lean.py; do not edit. The translation of each construct is
described in `Verif/Source/Rust.lean`. -/

set_option linter.all false
set_option autoImplicit false

namespace Kairos.Source
'''

def topo(xs):
    """callees first, otherwise in source order"""
    done, out = set(), []
    def go(x):
        if x[1] in done: return
        done.add(x[1])
        ids = {t.v for t in x[0].body}
        for y in xs:
            if y[1].split('.')[-1] in ids and y is not x: go(y)
        out.append(x)
    for x in xs: go(x)
    return out

def generate(module, src, imports, pick):
    fns = find_fns(tokenize(open(os.path.join(REPO, src)).read()))
    groups, out = [], [HEAD.format(imports='\n'.join('import ' + i for i in imports), src=src)]
    chosen = []
    for f in fns:
        r = pick(f)
        if r is None: continue
        ns, rec = r
        name, params, ret = sig(f, ns)
        SIGS[name] = ([t for _, t in params], ret)
        chosen.append((f, name, params, ret, rec))
    recs = [x for x in chosen if x[4]]
    # non-recursive functions in source order, the mutually recursive ones together, then the rest
    early = [x for x in chosen if not x[4] and not x[1].endswith('.calculate')]
    late = [x for x in chosen if x[1].endswith('.calculate')]
    early = topo(early)
    for f, n, ps, r, _ in early: out += emit(f, n, ps, r, src, False) + ['']
    if recs:
        out.append('mutual\n')
        for f, n, ps, r, _ in recs: out += emit(f, n, ps, r, src, True) + ['']
        out.append('end\n')
    for f, n, ps, r, _ in late: out += emit(f, n, ps, r, src, False) + ['']
    out.append('end Kairos.Source')
    open(os.path.join(OUT, module + '.lean'), 'w').write('\n'.join(out) + '\n')
    return [x[1] for x in chosen]

def pick_util(f): return None if f.name == 'x' else ('', False)
def pick_indicator(f):
    st = [v for v in f.impl or []]
    if f.name == 'into': return (st[-1] + '.', False)
    if f.name == 'filter': return (st[-1] + '.', False)
    return None
def pick_tt(f):
    if f.impl is None: return ('', True)
    if f.impl == ['TimeType']:
        return None if f.name == 'today' else ('TimeType.', False)
    if f.impl[0] in ('Add', 'Sub', 'AddAssign', 'SubAssign'): return ('TimeType.', False)
    return None
def pick_matcher(f):
    if f.name == 'matches' and f.impl[-1] in ('Day', 'Month'): return (f.impl[-1] + '.', False)
    return None
def pick_iter(f):
    if f.name == 'build': return ('Iter.', False)
    if f.impl and f.impl[-2:] == ['for', 'TT']: return (f.impl[0] + '.', False)
    return None

def main():
    os.makedirs(OUT, exist_ok=True)
    a = []
    a += generate('Util', 'util.rs', ['Verif.Source.Rust'], pick_util)
    a += generate('Indicator', 'indicator.rs', ['Verif.Source.Rust', 'Verif.Model.Indicator'], lambda f: pick_indicator(f) if f.name == 'into' else None)
    a += generate('TimeType', 'timetype.rs', ['Verif.Source.Util', 'Verif.Source.Indicator'], pick_tt)
    a += generate('Filter', 'indicator.rs', ['Verif.Source.TimeType'], lambda f: pick_indicator(f) if f.name == 'filter' else None)
    a += generate('Matcher', 'matcher.rs', ['Verif.Source.TimeType'], pick_matcher)
    a += generate('IterBuild', 'iter.rs', ['Verif.Source.TimeType', 'Verif.Model.Iter'], pick_iter)
    a += gen_iter('Iter', 'iter.rs', ['Verif.Source.IterBuild', 'Verif.Source.RustIter'])
    print(len(a), 'functions:', ' '.join(a))

if __name__ == '__main__': main()
