#!/usr/bin/env python3
"""Mechanical translation of the texts: derived `Debug` of `TimeType` and `ErrorKind`, the display
attributes of src/error.rs, and examples/main.rs.  Called by tools/nom2lean.py."""
import os
import rs2lean as R
from rs2lean import *

LEAN_TY = {'i64': 'Int', 'i32': 'Int', 'u32': 'Int', 'str': 'String', 'TimeType': 'TT', 'NaiveDateTime': 'Moment'}

def enum(toks, name):
    """the variants of an enum: (name, field types, display attribute)"""
    i = next(i for i in range(len(toks)) if toks[i].v == 'enum' and toks[i+1].v == name)
    e = close(toks, i + 2); i += 3; out, attr = [], None
    while i < e:
        if toks[i].v == '#':
            j = close(toks, i + 1); a = toks[i+2:j]
            assert [x.v for x in a[:4]] == ['fail', '(', 'display', '=']
            attr = [x for x in a[4:-1]]; i = j + 1
        elif toks[i].v == ',': i += 1
        else:
            n, fs, line = toks[i].v, [], toks[i].line; i += 1
            if toks[i].v == '(':
                j = close(toks, i); cur = []
                for t in toks[i+1:j] + [T('op', ',', 0)]:
                    if t.v == ',':
                        s = ''.join(cur).replace("&'static", '')
                        if s.startswith('Box<'): s = s[4:-1]
                        assert s in LEAN_TY, s
                        fs.append(s); cur = []
                    else: cur.append(t.v)
                i = j + 1
            out.append((n, fs, attr, line)); attr = None
    return out

def shown(t, x, dbg):
    """`{}` or `{:?}` of x : t"""
    if t in ('i64', 'i32'): return f'Text.int {x}'
    if t == 'u32': return f'Text.nat {x}'
    if t == 'String' and not dbg: return x
    if t == 'str': return f"(['\"'] ++ {x}.toList ++ ['\"'])" if dbg else f'{x}.toList'
    if t == 'NaiveDateTime': return f"Text.moment {'(Char.ofNat 84)' if dbg else '(Char.ofNat 32)'} {x}"
    if t == 'TimeType' and dbg: return f'TimeType.debug {x}'
    raise TypeError((t, dbg))

def fmt(s, args):
    """a format string with its arguments (name, type)"""
    out, lit, i, args = [], '', 0, list(args)
    while i < len(s):
        for h in ('{:?}', '{}'):
            if s.startswith(h, i):
                if lit: out.append(f'text! "{lit}"'); lit = ''
                x, t = args.pop(0); out.append(shown(t, x, h == '{:?}')); i += len(h); break
        else:
            assert s[i] not in '{}\\"'; lit += s[i]; i += 1
    if lit: out.append(f'text! "{lit}"')
    assert not args
    return ' ++ '.join(out) or '[]'

def vs(fs): return [f'x{i}' for i in range(len(fs))]

def gen_main(toks):
    """`main`: statements are `Rs.Prog`s; env maps a variable to its type"""
    f = next(f for f in find_fns(toks) if f.name == 'main')
    m = P(f.body).block()
    out = ['''import Verif.Source.RustMain
import Verif.Source.Parser

/-! Generated from examples/main.rs by tools/txt2lean.py; do not edit. -/

set_option linter.all false
set_option autoImplicit false

namespace Kairos.Source


/-- `main` — examples/main.rs:%d-%d. -/
def main (cfg : Cfg) (iso : Kairos.Parser.Iso) (amount_expr : Nom.P Kairos.Parser.AmountExpr) (now now' : Moment) (rounds : Nat)
    (args : List (List Char)) : Rs.Prog :=''' % (f.line, f.end)]
    def let_(e, env):
        if e[0] == 'meth' and e[2] == 'trim':
            assert e[3] == [] and env.get(e[1][1][0]) == 'String'
            return f'Main.trim {e[1][1][0]}'
        assert e[:3] == ('meth', ('meth', ('call', ['std', 'env', 'args'], []), 'skip', [('num', '1')]), 'fold')
        init, cl = e[3]; assert init == ('call', ['String', 'new'], []) and cl[0] == 'closure' and [p[0] for p in cl[1]] == ['pvar'] * 2
        a, b = (p[1] for p in cl[1]); r = cl[2]; assert r[:2] == ('macro', 'format')
        vs = [x[1][0] for x in r[2][1:]]; assert set(vs) <= {a, b} and all(x[0] == 'path' for x in r[2][1:])
        return f"Rs.fold args [] (fun {a} {b} => {fmt(r[2][0][1][1:-1], [(v, 'String') for v in vs])})"
    def stmt(e, env, ind):
        if e[0] == 'block':
            ss = [x[1] for x in e[1] if x[0] == 'expr'] + ([e[2]] if e[2] else []); assert len(ss) == len(e[1]) + bool(e[2])
            r = stmt(ss[-1], env, ind)
            for x in reversed(ss[:-1]): r = f'Rs.andThen ({stmt(x, env, ind)}) ({r})'
            return r
        if e[0] == 'macro':
            assert e[1] == 'println' and len(e[2]) == 2 and e[2][1][0] == 'path'
            x = e[2][1][1][0]; s = e[2][0][1][1:-1]
            assert env[x] == 'Error' and s.endswith('{:?}') and '{' not in s[:-4]
            return f'Rs.println ((Rs.errorDebug ErrorKind.debug {x}).map (text! "{s[:-4]}" ++ ·))'
        if e[0] == 'call' and e[1] == ['std', 'process', 'exit']:
            assert e[2] == [('num', '1')]; return 'Rs.exit1'
        if e[0] == 'call':
            assert e[1] == ['pretty_print'] and e[2][0][0] == 'path' and env[e[2][0][1][0]] == 'TT'
            return f'Rs.println (some (pretty_print {e[2][0][1][0]}))'
        if e[0] == 'for':
            assert e[1][0] == 'pvar' and e[2][0] == 'path' and env[e[2][1][0]] == 'UserIterator'
            v = e[1][1]
            return f'Rs.forIn (Source.Parser.UserIterator.next cfg) (fun {v} =>\n{ind}{stmt(e[3], {**env, v: "Result<TT>"}, ind + "  ")}) rounds {e[2][1][0]}'
        assert e[0] == 'match', e
        c = e[1]
        if c[0] == 'call':
            assert c[1] == ['kairos', 'parser', 'parse'] and env[c[2][0][1][0]] == 'String'
            t, head, end = 'Parsed', f"Rs.onResult (Source.Parser.parse cfg iso amount_expr now now' {c[2][0][1][0]}) (fun r => match r with", ')'
        elif c[0] == 'meth':
            assert c[2] == 'calculate' and c[3] == [] and env[c[1][1][0]] == 'TT'
            t, head, end = 'TT', f'Rs.onResult (TimeType.calculate cfg {c[1][1][0]}) (fun r => match r with', ')'
        else:
            assert c[0] == 'path' and env[c[1][0]] == 'Result<TT>'
            t, head, end = 'TT', f'match {c[1][0]} with', ''
        def pat(p, t):
            assert p[0] == 'pctor'
            if p[1] == ['Err']: assert p[2][0][0] == 'pvar'; return f'.error {p[2][0][1]}', {p[2][0][1]: 'Error'}
            if p[1] == ['Ok']: s, n = sub(p[2][0], t); return f'.ok {s}', n
            assert t == 'Parsed' and p[1][:3] == ['kairos', 'parser', 'Parsed']
            s, n = sub(p[2][0], {'TimeType': 'TT', 'Iterator': 'Result<UserIterator>'}[p[1][3]])
            return f'.{low(p[1][3])} {s}', n
        def sub(p, t):
            if p[0] == 'pvar': return p[1], {p[1]: t}
            s, n = pat(p, t[7:-1] if t.startswith('Result<') else t); return f'({s})', n
        arms = []
        for ps, rhs, _ in e[2]:
            assert len(ps) == 1; s, n = pat(ps[0], t)
            arms.append(f'\n{ind}| {s} => {stmt(rhs, {**env, **n}, ind + "  ")}')
        return head + ''.join(arms) + end
    env = {}
    for st in m[1]:
        assert st[0] == 'let' and st[1][0] == 'pvar'
        out.append(f'  let {st[1][1]} := {let_(st[3], env)}'); env[st[1][1]] = 'String'
    out.extend(['  ' + stmt(m[2], env, '  '), '', 'end Kairos.Source'])
    open(os.path.join(R.OUT, 'Main.lean'), 'w').write('\n'.join(out) + '\n')

def gen_text():
    tt = enum(tokenize(open(os.path.join(R.REPO, 'timetype.rs')).read()), 'TimeType')
    assert [(n, [{'TimeType': 'TT', 'NaiveDateTime': 'Moment'}.get(f, f) for f in fs]) for n, fs, _, _ in tt] == list(R.TTV.items())
    ek = enum(tokenize(open(os.path.join(R.REPO, 'error.rs')).read()), 'ErrorKind')
    out = ['''import Verif.Model.Display

/-! Generated from src/timetype.rs, src/error.rs and examples/main.rs by tools/txt2lean.py; do not edit.
`{}` and `{:?}` of numbers, strings and dates are those of `Model/Display.lean` (std and chrono);
`#[derive(Debug)]` of a variant is its name and, in parentheses, the `{:?}` of its fields. -/

set_option linter.all false
set_option autoImplicit false

namespace Kairos.Source
''']
    def derived(name, lean, es, src):
        out.extend([f'/-- `#[derive(Debug)]` of `{name}` — src/{src}:{es[0][3]}-{es[-1][3]}. -/',
                    f'def {name}.debug : {lean} → List Char'])
        for n, fs, _, _ in es:
            v = vs(fs); body = f'text! "{n}"'
            if fs: body += " ++ ['('] ++ " + ' ++ text! ", " ++ '.join(shown(f, x, True) for f, x in zip(fs, v)) + " ++ [')']"
            out.append(f'  | .{low(n)} ' + ' '.join(v) + f' => {body}')
    derived('TimeType', 'TT', tt, 'timetype.rs'); out.append('')
    derived('ErrorKind', 'ErrorKind', ek, 'error.rs'); out.extend(['  | .nomError => []', ''])
    out.extend([f'/-- `#[fail(display = …)]` of `ErrorKind` — src/error.rs:{ek[0][3]}-{ek[-1][3]}. -/', 'def ErrorKind.display : ErrorKind → List Char'])
    for n, fs, a, _ in ek:
        v = vs(fs)
        assert [x.v for x in a[1:]] == [y for i in range(len(fs)) for y in (',', f'_{i}')]
        out.append(f'  | .{low(n)} ' + ' '.join(v) + f' => {fmt(a[0].v[1:-1], list(zip(v, fs)))}')
    out.extend(['  | .nomError => []', ''])
    toks = tokenize(open(os.path.join(R.REPO, '..', 'examples', 'main.rs')).read())
    f = next(f for f in find_fns(toks) if f.name == 'pretty_print')
    m = P(f.body).block()
    assert m[1] == [] and m[2][0] == 'match' and m[2][1] == ('path', ['tt'])
    out.extend([f'/-- The line `pretty_print` prints — examples/main.rs:{f.line}-{f.end}. -/', 'def pretty_print : TT → List Char'])
    for ps, rhs, _ in m[2][2]:
        p = ps[0]; assert len(ps) == 1 and rhs[0] == 'macro' and rhs[1] == 'println' and len(rhs[2]) == 2
        if p[0] == 'pvar': v, t, pat = p[1], 'TimeType', p[1]
        else:
            assert p[1][0] == 'TT' and len(p[2]) == 1
            v = p[2][0][1]; t = dict((n, fs) for n, fs, _, _ in tt)[p[1][1]][0]; pat = f'.{low(p[1][1])} {v}'
        assert rhs[2][1] == ('path', [v])
        out.append(f'  | {pat} => {fmt(rhs[2][0][1][1:-1], [(v, t)])}')
    out.extend(['', 'end Kairos.Source'])
    open(os.path.join(R.OUT, 'Text.lean'), 'w').write('\n'.join(out) + '\n')
    gen_main(toks)
    return ['TimeType.debug', 'ErrorKind.debug', 'ErrorKind.display', 'pretty_print', 'main']
