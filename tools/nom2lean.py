#!/usr/bin/env python3
"""Mechanical translation of /repo/src/parser and of the adaptor constructors of src/iter.rs into Lean.

    python3 tools/nom2lean.py [/repo/src] [/verif/lean/Verif/Source]

Runs tools/rs2lean.py first. The `named!` parsers become the combinators of `Verif/Model/Nom.lean`;
the renderings are described in `Verif/Source/RustParser.lean`. Stops with an error on anything it
does not know.
"""
import sys, os
sys.path.insert(0, os.path.dirname(os.path.abspath(__file__)))
import rs2lean as R
from rs2lean import *
from txt2lean import gen_text

# ---------------------------------------------------------------- data types
def opt_(t): return ('Option', t)
def tup(*t): return ('tuple',) + t
# Rust type -> (type used below, Lean type)
TYPES = {'Unit': ('PUnit', 'TimeUnit'), 'UnitAlias': ('UnitAlias',) * 2, 'Operator': ('Operator',) * 2,
         'Amount': ('Amount',) * 2, 'AmountExpr': ('AmountExpr',) * 2, 'ExactDate': ('ExactDate',) * 2,
         'Date': ('PDate',) * 2, 'TimeType': ('PTimeType',) * 2, 'Iterspec': ('Iterspec',) * 2,
         'UntilSpec': ('UntilSpec',) * 2, 'Iterator': ('PIterator',) * 2, 'UserIterator': ('UserIterator',) * 2,
         'Parsed': ('Parsed',) * 2, '::iso8601::Date': ('IsoDate',) * 2, '::iso8601::DateTime': ('IsoDateTime',) * 2,
         'timetype::TimeType': ('TT',) * 2, '::timetype::TimeType': ('TT',) * 2,
         'UserIterator<iter::Iter>': ('UserIterator',) * 2, '::parser::iterator::UserIterator<Iter>': ('UserIterator',) * 2,
         'iter::Iter': ('Iter',) * 2, 'iter::TimesIter<I>': ('TimesIter', 'TimesState Iter'),
         'iter::UntilIter<I>': ('UntilIter', 'Iter × Moment'), 'i64': ('i64', 'Int')}
for a, b in TYPES.values(): R.LT.setdefault(a, b)
# type -> Rust variants with the types of their fields; the text must declare exactly these
ENUMS = {
    'Unit': dict(Second=[], Minute=[], Hour=[], Day=[], Week=[], Month=[], Year=[]),
    'UnitAlias': dict(Secondly=[], Minutely=[], Hourly=[], Daily=[], Weekly=[], Monthly=[], Yearly=[]),
    'Operator': dict(Plus=[], Minus=[]),
    'ExactDate': dict(Today=[], Yesterday=[], Tomorrow=[], Iso8601Date=['IsoDate'], Iso8601DateTime=['IsoDateTime']),
    'TimeType': dict(Date=['PDate'], AmountExpr=['AmountExpr']),
    'Iterspec': dict(Secondly=[], Minutely=[], Hourly=[], Daily=[], Weekly=[], Monthly=[], Yearly=[], Every=['i64', 'PUnit']),
    'UntilSpec': dict(Exact=['ExactDate'], Times=['i64']),
    'UserIterator': dict(Iterator=['Iter'], TimesIter=['TimesIter'], UntilIterator=['UntilIter']),
    'Parsed': dict(Iterator=[('Result', 'UserIterator')], TimeType=['TT']),
}
BY = {TYPES[k][0]: v for k, v in ENUMS.items()}
# structs: Rust field -> (Lean field, type)
FIELDS = {
    'Amount': {'0': ('number', 'i64'), '1': ('unit', 'PUnit')},
    'AmountExpr': {'amount': ('amount', 'Amount'), 'next': ('next', opt_(tup('Operator', 'AmountExpr')))},
    'PDate': {'0': ('exact', 'ExactDate'), '1': ('offset', opt_(tup('Operator', 'AmountExpr')))},
    'PIterator': {'0': ('date', 'PDate'), '1': ('spec', 'Iterspec'), '2': ('until_', opt_('UntilSpec'))},
    'IsoTime': {'hour': ('hour', 'u32'), 'minute': ('minute', 'u32'), 'second': ('second', 'u32')},
}
# iso8601::Date, a dependency
ISO = {'YMD': ('ymd', [('year', 'i32'), ('month', 'u32'), ('day', 'u32')]),
       'Week': ('week', [('year', 'i32'), ('ww', 'u32'), ('d', 'u32')]),
       'Ordinal': ('ordinal', [('year', 'i32'), ('ddd', 'u32')])}

def pty(v):
    s = ''.join(v)
    for h in ('Result', 'Option', 'Box'):
        if s.startswith(h + '<') and s.endswith('>'):
            t = pty([s[len(h)+1:-1]])
            return t if h == 'Box' else (h, t)
    if s.startswith('('):
        parts, d, cur = [], 0, ''
        for ch in s[1:-1]:
            d += (ch in '(<') - (ch in ')>')
            if ch == ',' and d == 0: parts.append(cur); cur = ''
            else: cur += ch
        return tup(*[pty([x]) for x in parts + ([cur] if cur else [])])
    if s not in TYPES: raise TypeError(s)
    return TYPES[s][0]

def upto_tests(toks):
    for i in range(len(toks)):
        if [t.v for t in toks[i:i+7]] == ['#', '[', 'cfg', '(', 'test', ')', ']']: return toks[:i]
    return toks

def split(toks):
    out, cur, d = [], [], 0
    for t in toks:
        if t.k == 'op': d += (t.v in '(<[{') - (t.v in ')>]}')
        if t.v == ',' and d == 0: out.append(cur); cur = []
        else: cur.append(t)
    return out + ([cur] if cur else [])

def check_types(toks):
    """the declared enums and structs are those of the tables"""
    for i, t in enumerate(toks):
        if t.k != 'id' or t.v not in ('enum', 'struct'): continue
        n, j = toks[i+1].v, i + 2
        while toks[j].v not in ('(', '{'): j += 1
        body = split(toks[j+1:close(toks, j)])
        if t.v == 'enum':
            got = {}
            for b in body:
                got[b[0].v] = [pty([x.v for x in a]) for a in split(b[2:-1])]
            assert got == ENUMS[n] and list(got) == list(ENUMS[n]), (n, got)
        else:
            fs = FIELDS[TYPES[n][0]]
            if toks[j].v == '{': got = {b[0].v: pty([x.v for x in b[2:]]) for b in body}
            else: got = {str(k): pty([x.v for x in b]) for k, b in enumerate(body)}
            assert got == {k: v[1] for k, v in fs.items()}, (n, got)

# ---------------------------------------------------------------- functions
PURE, NOW = set(), {}
KEYWORDS = {'until'}

class TrP(Tr):
    """A function of src/parser. `now`, `now'` are the successive readings of the clock."""
    def __init__(self, fn, ret, clocks=()):
        Tr.__init__(self, fn, ret); self.clocks, self.ci, self.alias = clocks, 0, {}
        self.stack = []
    def arms(self): self.stack.append([self.ci, self.ci])
    def arm(self):
        s = self.stack[-1]; s[1] = max(s[1], self.ci); self.ci = s[0]
    def arms_end(self):
        s = self.stack.pop(); self.ci = max(s[1], self.ci)
    def clock(self):
        self.ci += 1
        return self.clocks[self.ci - 1]

    def tt(self, p): return len(p) >= 3 and p[-3:-1] == ['timetype', 'TimeType']

    def pat(self, p, t, env):
        if p[0] == 'pctor' and t in BY and p[1][:-1] == [rust(t)]:
            fs = BY[t][p[1][-1]]; assert len(fs) == len(p[2])
            return f'(.{low(p[1][-1])}' + ''.join(' ' + self.pat(q, u, env) for q, u in zip(p[2], fs)) + ')'
        if p[0] == 'pstruct' and p[1] == ['iso8601', 'DateTime'] and t == 'IsoDateTime':
            assert p[2] == ['date', 'time']
            v = self.fresh()
            env['date'], env['time'] = 'IsoDate', 'IsoTime'
            self.alias['date'], self.alias['time'] = f'{v}.date', v
            return v
        if p[0] == 'pstruct' and p[1][:-1] == ['iso8601', 'Date'] and t == 'IsoDate':
            c, fs = ISO[p[1][-1]]
            assert p[2] == [n for n, _ in fs]
            for n, u in fs: env[n] = u
            return f'(.{c} ' + ' '.join(p[2]) + ')'
        if p[0] == 'pvar': self.alias.pop(p[1], None)
        return Tr.pat(self, p, t, env)

    def unit_arm(self, rhs, env, tupl):
        st = [('expr', rhs)] if rhs[0] != 'block' else rhs[1] + ([('expr', rhs[2])] if rhs[2] else [])
        en, out = dict(env), []
        for s in st: out += self.stmt(s, en)
        return out + [f'.ok {tupl}']

    def stmt(self, s, env):
        if s[0] == 'let' and s[3][0] == 'closure':
            env[s[1][1]] = ('closure', s[3]); return []
        if s[0] == 'let' and s[2] is not None:
            assert pty(s[2]) == 'TT'; s = ('let', s[1], None, s[3])
        e = s[1]
        if s[0] == 'expr' and e[0] in ('iflet', 'match'):
            vs = self.assigned(e, []); tupl = '(' + ', '.join(vs) + ')'
            b, a, t = self.ex(e[2] if e[0] == 'iflet' else e[1], env)
            lines = [f'let {tupl} ← (match {a} with']
            self.arms()
            for ps, rhs in ([([e[1]], e[3])] if e[0] == 'iflet' else [(x[0], x[1]) for x in e[2]]):
                assert len(ps) == 1; self.arm()
                en = dict(env); p = self.pat(ps[0], t, en)
                lines += [f'  | {p} => do', ['      ', self.unit_arm(rhs, en, tupl)]]
            if e[0] == 'iflet': lines += [f'  | _ => .ok {tupl}']
            self.arms_end()
            return b + lines + ['  )']
        return Tr.stmt(self, s, env)

    def ctor(self, t, v, args, env):
        fs = BY[t][v]; assert len(fs) == len(args)
        b, aa = [], []
        for x, u in zip(args, fs):
            bb, a, tx = self.ex(x, env); assert tx == u or tx == 'int' and u == 'i64', (t, v, tx)
            b += bb
            if isres(u):          # a stored `Result`
                w = self.fresh(); b.append(f'let {w} ← Rs.reify {a}'); a = w
            aa.append(a)
        return b, f'({cname(t, v)}' + ''.join(' ' + a for a in aa) + ')', t

    def ex(self, e, env, want=None):
        k = e[0]
        if k == 'path':
            p = e[1]
            if len(p) == 1 and p[0] in KEYWORDS and p[0] in env: return [], f'«{p[0]}»', env[p[0]]
            if len(p) == 1 and p[0] in self.alias: return [], self.alias[p[0]], env[p[0]]
            for t in BY:
                if p[:-1] == [rust(t)] and p[-1] in BY[t] and not BY[t][p[-1]]: return self.ctor(t, p[-1], [], env)
            if p[:-1] in (['error', 'ErrorKind'], ['KEK']): return [], f'(.{low(p[-1])})', 'Err'
        if k == 'field':
            b, a, t = self.ex(e[1], env)
            if t in FIELDS:
                n, u = FIELDS[t][e[2]]; return b, f'{a}.{n}', u
        if k == 'struct':
            t = TYPES[e[1][0]][0]; b, aa = [], []
            assert [n for n, _ in e[2]] == list(FIELDS[t])
            for n, x in e[2]:
                bb, a, u = self.ex(x, env); assert u == FIELDS[t][n][1]; b += bb; aa.append(a)
            return b, f'({t}.mk ' + ' '.join(aa) + ')', t
        return Tr.ex(self, e, env, want)

    def binop(self, e, env):
        _, op, x, y = e
        if op in '+-':
            b, a, t = self.ex(x, env)
            if t == 'TT':
                b2, a2, t2 = self.ex(y, env); assert t2 == 'TT'
                return self.res(b + b2, f'TimeType.{ {"+": "add", "-": "sub"}[op] } cfg {a} {a2}', 'TT')
        return Tr.binop(self, e, env)

    def fun(self, e, t, env):
        if e[0] == 'path':
            for u in BY:
                if e[1][:-1] == [rust(u)] and BY[u].get(e[1][-1]) == [t]: return [f'(fun x => .ok ({cname(u, e[1][-1])} x))'], u
            if e[1] == ['Clone', 'clone']: return ['.ok'], t
        return Tr.fun(self, e, t, env)

    def callex(self, e, env, want):
        p, args = e[1], e[2]
        if len(p) == 1 and isinstance(env.get(p[0]), tuple) and env[p[0]][0] == 'closure':
            _, ps, body = env[p[0]][1]
            b, en = [], dict(env); assert len(ps) == len(args)
            lets = []
            for q, x in zip(ps, args):
                if q[0] == 'pty': q = q[1]
                bb, a, t = self.ex(x, env); b += bb
                t = 'i64' if t == 'int' else t
                lets.append(f'let {self.pat(q, t, en)} : {lt(t)} := {a}')
            c, t = self.comp(body, en)
            if isres(t): return b, ['(do', ['    ', lets + c], '  )'], t
            v = self.fresh()
            return b + [f'let {v} ← (do', ['    ', lets + c], '  )'], v, t
        for t in BY:
            if p[:-1] == [rust(t)]: return self.ctor(t, p[-1], args, env)
        if len(p) == 1 and TYPES.get(p[0], (None,))[0] in FIELDS:
            t = TYPES[p[0]][0]; b, aa = [], []
            for x, (n, u) in zip(args, FIELDS[t].values()):
                bb, a, tx = self.ex(x, env); assert tx == u or (tx, u) == ('int', 'i64'), (p, tx, u); b += bb; aa.append(a)
            assert len(args) == len(FIELDS[t])
            return b, f'({t}.mk ' + ' '.join(aa) + ')', t
        if self.tt(p) and p[-1] == 'today': return [], f'(TT.moment {self.clock()})', 'TT'
        if p[0] == 'iter' and p[1] == 'Iter': return self.call('Iter.' + p[-1], args, env)
        return Tr.callex(self, e, env, want)

    def meth(self, e, env, want):
        _, r, m, args = e
        b, a, t = [], None, None
        if m in ('into_timetype', 'into_user_iterator', 'into', 'until', 'times'):
            b, a, t = self.ex(r, env)
            n = f'{R.LT.get(t, t)}.{m}'
            if m == 'into' and t == 'Err': return b, a, t
            if m in ('until', 'times') and t == 'Iter':
                bb, x, u = self.ex(args[0], env); assert u == {'until': 'Moment', 'times': 'i64'}[m]
                return b + bb, f'({m.capitalize()}.{m} {a} {x})', {'until': 'UntilIter', 'times': 'TimesIter'}[m]
            if n in PURE: return b, f'({n} {a})', SIGS[n][1]
            if n in SIGS:
                return self.res(b, ' '.join([f'{n} cfg'] + [self.clock() for _ in range(NOW[n])] + [a]), SIGS[n][1])
            self.bad(e)
        if m in ('map', 'and_then') and args[0][0] == 'closure' and args[0][1][0][0] == 'pty':
            self.bad(e)
        return Tr.meth(self, e, env, want)

def rust(t):
    return [k for k, v in TYPES.items() if v[0] == t][0]
def cname(t, v):
    if (t, v) == ('UserIterator', 'UntilIterator'): return 'Rs.untilIterator'
    return f'{R.LT[t]}.{low(v)}'

def emit_fn(f, src, out):
    tgt = f.impl[f.impl.index('for')+1:] if 'for' in f.impl else f.impl
    st = pty(tgt); ret = pty(f.ret)
    name = f'{R.LT[st]}.{f.name}'
    assert [t.v for t in f.params] == ['self']
    ids = [t.v for t in f.body]
    blk = P(f.body).block()
    hdr = f'/-- `fn {f.name}` of `{"".join(tgt)}` — src/{src}:{f.line}-{f.end}. -/'
    if f.name == 'into':          # an infallible conversion
        m = blk[2]; assert blk[1] == [] and m[0] == 'match' and m[1] == ('path', ['self'])
        tr = TrP(name, ret)
        out += [hdr, f'def {name} (self : {R.LT[st]}) : {R.LT[ret]} :=', '  match self with']
        for ps, rhs, _ in m[2]:
            b, a, t = tr.ex(rhs, {}); assert not b and t == ret and len(ps) == 1
            out.append(f'  | {tr.pat(ps[0], st, {})} => {a}')
        out.append(''); PURE.add(name); SIGS[name] = ([st], ret); return name
    SIGS[name] = ([st], ret)
    rec = name == 'AmountExpr.into_timetype'
    NOW[name] = 2 if f.name == 'into_user_iterator' else 1 if st in ('ExactDate', 'PDate', 'PTimeType') else 0
    clocks = ['now', "now'"][:NOW[name]]
    tr = TrP(name, ret, clocks)
    b, a, t = tr.block(blk, {'self': st}, ret)
    assert t == ret, (name, t)
    body = b + [a]
    cl = f'({" ".join(clocks)} : Moment) ' if clocks else ''
    out += [hdr, f'def {name} (cfg : Cfg) {cl}(self : {R.LT[st]}) : Out {R.LT[ret[1]]} := do'] + render(body, '  ')
    if rec: out.append('partial_fixpoint')
    out.append('')
    return name

# ---------------------------------------------------------------- named! parsers
PARSERS = {'sp': ('Nom.sp', 'unit'), 'digit': ('Nom.digit', 'digits'),
           'parse_date': ('iso.parseDate', 'IsoDate'), 'parse_datetime': ('iso.parseDatetime', 'IsoDateTime')}
NEEDS = {'sp': [], 'digit': [], 'parse_date': ['iso'], 'parse_datetime': ['iso']}
PARAM = {'iso': '(iso : Iso)', 'amount_expr': '(amount_expr : Nom.P AmountExpr)', 'now': "(now now' : Moment)", 'cfg': '(cfg : Cfg)'}
ORDER = ['cfg', 'iso', 'amount_expr', 'now']

class G:
    """The body of one `named!`: lines of a Lean term of type `Nom.P _`, and the result type."""
    def __init__(self, name, toks, later): self.p, self.name, self.later, self.need = P(toks), name, later, set()

    def comb(self):
        p = self.p
        n = p.ident()
        if not p.opt('!'):
            if n in self.later:          # a parser not defined yet is a parameter
                self.need.add(n); return [n], self.later[n]
            l, t = PARSERS[n]
            self.need |= set(NEEDS[n])
            return [l], t
        p.eat('(')
        if n == 'tag':
            s = p.pk(); assert p.kind() == 'str'; p.i += 1; r = [f'(Nom.tag {s}.toList)'], 'unit'
        elif n in ('ws', 'opt', 'complete'):
            l, t = self.comb()
            r = self.wrap(f'(Nom.{n} ', l, ')'), opt_(t) if n == 'opt' else t
        elif n == 'map_res':
            l, t = self.comb(); p.eat(',')
            f = p.path()
            g, u = {('str', 'from_utf8', 'digits'): ('Rs.fromUtf8', 'str'), ('FromStr', 'from_str', 'str'): ('i64FromStr', 'i64')}[tuple(f) + (t,)]
            r = self.wrap('(Nom.mapRes ', l, f' {g})'), u
        elif n in ('alt', 'alt_complete'):
            items, ts = [], []
            while True:
                l, t = self.comb()
                if p.opt('=>'):
                    p.eat('{'); c = p.expr(); p.eat('}')
                    assert c[0] == 'closure' and c[1] == [('pwild',)]
                    b, a, t = TrP(self.name, None).ex(c[2], {}); assert not b
                    l = self.wrap('(Nom.map ', l, f' (fun _ => {a}))')
                items.append(l); ts.append(t)
                if not p.opt('|'): break
            assert all(t == ts[0] for t in ts), ts
            l = [f'(Nom.{camel(n)} [']
            for k, x in enumerate(items):
                l.append(['  ', x[:-1] + [x[-1] + (',' if k + 1 < len(items) else '])')]])
            r = l, ts[0]
        elif n == 'do_parse': r = self.steps()
        else: p.err('macro')
        p.eat(')')
        return r

    def wrap(self, a, l, z):
        l = list(l); l[0] = a + l[0]; l[-1] = l[-1] + z if isinstance(l[-1], str) else l[-1]
        return l

    def steps(self):
        p, env, out, k = self.p, {}, [], 0
        while p.pk() != '(':
            v = '_'
            if p.pk(1) == ':': v = p.ident(); p.eat(':')
            l, t = self.comb()
            env[v] = t
            out += self.wrap('Nom.bind ' if k else '(Nom.bind ', l, f' fun {"«" + v + "»" if v in KEYWORDS else v} =>'); k += 1
            p.eat('>'); p.eat('>')
        e = close(p.t, p.i); q = P(p.t[p.i+1:e]); p.i = e + 1
        es = [q.expr()]
        while q.opt(','): es.append(q.expr())
        assert q.i == len(q.t)
        x = es[0] if len(es) == 1 else ('tuple', es)
        tr = TrP(self.name, ('Result', None), ['now', "now'"])
        b, a, t = tr.ex(x, env)
        if isres(t):
            self.need |= {'cfg', 'now'}
            out += ['Nom.ret (show Out _ from (do', ['    ', b + [a]], '  )))']
        else:
            assert not b
            out += [f'Nom.ret {a})']
        return out, t

def plt(t):
    if isinstance(t, tuple):
        if t[0] == 'Result': return f'(Out {plt(t[1])})'
        if t[0] == 'Option': return f'(Option {plt(t[1])})'
        return '(' + ' × '.join(plt(x) for x in t[1:]) + ')'
    return R.LT[t]

def parsers(toks):
    out, i = [], 0
    while i < len(toks):
        if toks[i].v == 'named' and toks[i+1].v == '!':
            e = close(toks, i + 2); b = toks[i+3:e]
            if b[0].v == 'pub': b = b[1:]
            j, d = 2, 1
            while d: d += (b[j].v == '<') - (b[j].v == '>'); j += 1
            assert b[1].v == '<' and b[j].v == ','
            out.append((b[0].v, pty([x.v for x in b[2:j-1]]), b[j+1:], toks[i].line, toks[e].line)); i = e
        i += 1
    return out

def emit_parsers(toks, src, out):
    ps = parsers(toks)
    for k, (n, t, body, a, z) in enumerate(ps):
        later = {x[0]: x[1] for x in ps[k:]}
        g = G(n, body, later)
        l, u = g.comb()
        assert g.p.i == len(body) and u == t, (n, u, t)
        need = [x for x in ORDER if x in g.need]; assert len(need) == len(g.need), g.need
        nm = n + '_body' if n in g.need else n
        args = lambda xs: ''.join({'now': " now now'"}.get(x, ' ' + x) for x in xs)
        out += [f'/-- `{n}` — src/{src}:{a}-{z}.' + (' It refers to itself, which is the parameter.' if n in g.need else '') + ' -/',
                f'def {nm} ' + ''.join(PARAM[x] + ' ' for x in need) + f': Nom.P {plt(t)} :='] + render(l, '  ') + ['']
        PARSERS[n] = (f'({n}{args(need)})' if need else n, t); NEEDS[n] = need
        if n in g.need: PARSERS[n] = (n, t); NEEDS[n] = [n]

PHEAD = '''{imports}

/-! Generated from {src} by tools/nom2lean.py; do not edit. The translation of each construct is
described in `Verif/Source/RustParser.lean`. -/

set_option linter.all false
set_option autoImplicit false

namespace Kairos.Source{ns}
'''

def gen_adaptors():
    """`new` and the extension traits' methods of src/iter.rs"""
    src = 'iter.rs'
    out = [PHEAD.format(imports='import Verif.Source.Iter', src='src/' + src, ns='')]
    TY = {'I': 'I', 'Self': 'I', 'M': '(TT → Out Bool)', 'NaiveDateTime': 'Moment', 'i64': 'Int'}
    st = {'FilterIter': '(I × (TT → Out Bool))', 'WithoutIter': '(I × (TT → Out Bool))', 'UntilIter': '(I × Moment)', 'TimesIter': '(TimesState I)'}
    names = []
    for f in find_fns(tokenize(open(os.path.join(R.REPO, src)).read())):
        if not (f.impl and f.impl[0] == '<' and f.name != 'next'): continue
        h = f.impl[f.impl.index('>')+1:]
        ns = h[0]
        ps = []
        for p in split(f.params):
            v = [t.v for t in p]
            ps.append(('self', 'I') if v == ['self'] else (v[0], TY[''.join(v[2:])]))
        ret = st[f.ret[0]]
        b = P(f.body).block(); assert b[1] == []
        e = b[2]
        def arg(x):
            if x[0] == 'num': return x[1]
            assert x[0] == 'path' and len(x[1]) == 1 and x[1][0] in dict(ps), x
            return x[1][0]
        if e[0] == 'struct':
            assert e[1] == ['TimesIter'] and [n for n, _ in e[2]] == ['inner', 'times', 'count']
            body = '{ ' + ', '.join(f'{n} := {arg(x)}' for n, x in e[2]) + ' }'
        elif e[0] == 'call' and e[1] == [ns] and len(e[2]) == 2 and ns != 'TimesIter': body = '(' + ', '.join(arg(x) for x in e[2]) + ')'
        elif e[0] == 'call' and len(e[1]) == 2 and e[1][1] == 'new' and st.get(e[1][0]) == ret:
            body = f'{e[1][0]}.new ' + ' '.join(arg(x) for x in e[2])
        else: raise NotImplementedError(e)
        n = f'{ns}.{f.name}'; names.append(n)
        out += [f'/-- `fn {f.name}` of `{ns}` — src/{src}:{f.line}-{f.end}. -/',
                f'def {n} {{I : Type}} ' + ' '.join(f'({a} : {t})' for a, t in ps) + f' : {ret} :=', '  ' + body, '']
    for f in find_fns(tokenize(open(os.path.join(R.REPO, 'matcher.rs')).read())):
        if f.impl[:3] != ['<', 'F', '>']: continue
        b = P(f.body).block(); assert f.name == 'matches' and b[1] == [] and b[2][:2] == ('call', ['Ok']), b
        e = b[2][2][0]; assert e[:3] == ('meth', ('path', ['self']), 'filter') and e[3] == [('path', ['tt'])], e
        names.append('Filter.matches')
        out += [f'/-- `fn matches` of every `F: Filter<TimeType>`; `self` is its `filter` — src/matcher.rs:{f.line}-{f.end}. -/',
                'def Filter.matches (self : TT → Bool) (tt : TT) : Out Bool :=', '  .ok (self tt)', '']
    out.append('end Kairos.Source')
    open(os.path.join(R.OUT, 'Adaptors.lean'), 'w').write('\n'.join(out) + '\n')
    return names

def emit_user_next(f, src, out):
    b = P(f.body).block(); assert b[1] == []
    m = b[2]; assert m[0] == 'match' and m[1] == ('un', '*', ('path', ['self']))
    TAB = {'Iterator': ('.iterator i', 'Iter.next cfg', 'i', '.iterator i'),
           'TimesIter': ('.timesIter i', 'TimesIter.next cfg (Iter.next cfg)', 'i', '.timesIter i'),
           'UntilIterator': ('.untilIterator i e', 'UntilIter.next cfg (Iter.next cfg)', '(i, e)', 'Rs.untilIterator i')}
    out += [f'/-- `fn next` of `UserIterator` — src/{src}:{f.line}-{f.end}. -/',
            'def UserIterator.next (cfg : Cfg) : Rs.M UserIterator (Option (Except ErrorKind TT)) := fun self =>', '  match self with']
    for ps, rhs, _ in m[2]:
        assert len(ps) == 1 and ps[0][0] == 'pctor' and ps[0][1][0] == 'UserIterator' and ps[0][2] == [('pvar', 'i')]
        assert rhs == ('meth', ('path', ['i']), 'next', [])
        p, nx, s, back = TAB[ps[0][1][1]]
        out += [f'  | {p} => do', f'    let (r, i) ← ({nx} : Rs.M _ _) {s}', f'    .ok (r, {back})']
    out.append('')
    return 'UserIterator.next'

def emit_parse(f, src, out):
    b = P(f.body).block(); assert b[1] == []
    m = b[2]; assert m[0] == 'match' and m[1] == ('call', ['do_parse'], [('meth', ('path', ['s']), 'as_bytes', [])])
    need = NEEDS['do_parse']
    out += [f'/-- `fn parse` — src/{src}:{f.line}-{f.end}. -/',
            'def parse ' + ''.join(PARAM[x] + ' ' for x in need) + '(s : List Char) : Out Parsed := do',
            f'  let t1 ← Rs.runParser ({PARSERS["do_parse"][0]} s)', '  match t1 with']
    inc = set(); exp = []
    for ps, rhs, _ in m[2]:
        assert len(ps) == 1 and ps[0][0] == 'pctor' and ps[0][1][0] == 'IResult'
        c, a = ps[0][1][1], ps[0][2]
        env = {}
        if c == 'Done':
            assert a[0] == ('pwild',) and a[1][0] == 'pctor' and a[1][1] in (['Ok'], ['Err']) and a[1][2][0][0] == 'pvar'
            v = a[1][2][0][1]; ok = a[1][1] == ['Ok']
            assert rhs == ('call', ['Ok' if ok else 'Err'], [('path', [v])])
            out.append(f'  | .done _ (.{"ok" if ok else "error"} {v}) => .{"ok" if ok else "err"} {v}'); exp.append('Done' + a[1][1][0])
        elif c == 'Error':
            assert a == [('pvar', 'e')] and rhs == ('meth', ('call', ['Err'], [('path', ['e'])]), 'map_err', [('path', ['From', 'from'])])
            out.append('  | .error => .err .nomError'); exp.append(c)
        elif c == 'Incomplete':
            assert a in ([('pctor', ['Needed', 'Unknown'], [])], [('pctor', ['Needed', 'Size'], [('pwild',)])])
            assert rhs[0] == 'call' and rhs[1] == ['Err'] and rhs[2][0][0] == 'meth' and rhs[2][0][2] == 'into'
            x = rhs[2][0][1]; assert x[0] == 'path' and x[1][0] == 'KEK'
            inc.add(x[1][1]); exp.append('Incomplete' + a[0][1][1])
        else: raise NotImplementedError(c)
    assert exp == ['DoneOk', 'DoneErr', 'Error', 'IncompleteUnknown', 'IncompleteSize'] and len(inc) == 1
    out += [f'  | .incomplete => .err .{low(inc.pop())}', '']
    return 'parse'

def gen_parser():
    names = []
    out = [PHEAD.format(imports='import Verif.Source.RustParser\nimport Verif.Source.Adaptors', src='src/parser', ns='.Parser'), 'open Kairos.Parser\n']
    for src in ('parser/timetype.rs', 'parser/iterator.rs', 'parser/mod.rs'):
        toks = upto_tests(tokenize(open(os.path.join(R.REPO, src)).read()))
        check_types(toks)
        fns = find_fns(toks)
        for f in fns:
            if f.impl and f.name in ('into', 'into_timetype', 'into_user_iterator'): names.append(emit_fn(f, src, out))
            elif f.name == 'next': names.append(emit_user_next(f, src, out))
            else: assert f.name == 'parse' and f.impl is None
        k = len(out)
        emit_parsers(toks, src, out)
        names += [l.split()[1] for l in out[k:] if l.startswith('def ')]
        for f in fns:
            if f.name == 'parse': names.append(emit_parse(f, src, out))
    out.append('end Kairos.Source.Parser')
    open(os.path.join(R.OUT, 'Parser.lean'), 'w').write('\n'.join(out) + '\n')
    return names

if __name__ == '__main__':
    R.main()
    a = gen_adaptors() + gen_parser() + gen_text()
    print(len(a), 'functions:', ' '.join(a))
