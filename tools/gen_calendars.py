#!/usr/bin/env python3
"""Translate the country calendars of /repo/third-parties/calendar/src into Lean definitions.

The calendars are written in a small uniform subset of Rust.  This script tokenises and parses exactly that
subset and fails on anything else, so nothing is dropped silently.  Long chains of `||` are emitted in groups
of sixteen (`||` is associative).  Output: lean/Verif/Model/Countries/*.lean
(one module per source file), lean/Verif/Model/Shipped.lean (the enumeration of all shipped calendars) and
lean/Verif/Model/EasterTable.lean.  The generated modules are committed; the build does not run this script.

Usage: tools/gen_calendars.py [repo]
"""
import os, re, sys

REPO = sys.argv[1] if len(sys.argv) > 1 else '/repo'
SRC = REPO + '/third-parties/calendar/src'
ROOT = os.environ.get('GEN_ROOT') or os.path.dirname(os.path.dirname(os.path.abspath(__file__)))
OUT = ROOT + '/lean/Verif/Model/Countries'
SKIP = {'lib', 'jointcalendar', 'weekendsonly'}   # modelled by hand in Model/Calendar.lean

TOK = re.compile(r'''
  (?P<ws>\s+) | (?P<comment>//[^\n]*) | (?P<attr>\#\[[^\]]*\]) |
  (?P<num>\d+) | (?P<id>[A-Za-z_][A-Za-z_0-9]*!?) |
  (?P<op>\.\.=|\.\.|::|=>|->|==|!=|<=|>=|&&|\|\||[{}()\[\],;:.&|!<>=+\-%])
''', re.X)

class Tok:
    def __init__(s, kind, text, line): s.kind, s.text, s.line = kind, text, line
    def __repr__(s): return f'{s.text}@{s.line}'

def tokenise(src):
    out, i, line, cfg_test = [], 0, 1, False
    while i < len(src):
        m = TOK.match(src, i)
        if not m: raise SyntaxError(f'bad char {src[i]!r} line {line}')
        k, t = m.lastgroup, m.group()
        if k == 'attr' and t == '#[cfg(test)]': break
        if k not in ('ws', 'comment', 'attr'): out.append(Tok(k, t, line))
        line += t.count('\n'); i = m.end()
    return out

# Expressions are tuples: ('var',x) ('num',n) ('bool',b) ('wd',W) ('bin',op,a,b) ('not',a)
# ('range',lo,hi,incl,e) ('call',name,[args]) ('date',y,m,d) ('tuple',[...]) ('matches',e,pats)
# Statements: ('let',names,e) ('ret',e) ('if',c,blk,blk|None) ('match',e,arms) ('expr',e)
class P:
    def __init__(s, toks): s.t, s.i = toks, 0
    def peek(s, k=0): return s.t[s.i + k].text if s.i + k < len(s.t) else None
    def line(s): return s.t[s.i].line
    def next(s): s.i += 1; return s.t[s.i - 1]
    def eat(s, x):
        t = s.next()
        if t.text != x: raise SyntaxError(f'expected {x}, got {t} ')
        return t
    def opt(s, x):
        if s.peek() == x: s.i += 1; return True
        return False
    # precedence: || < && < comparison < | < & < + - < % < unary
    def expr(s):
        a = s.conj()
        while s.opt('||'): a = ('bin', '||', a, s.conj())
        return a
    def conj(s):
        a = s.cmp()
        while s.opt('&&'): a = ('bin', '&&', a, s.cmp())
        return a
    def cmp(s):
        a = s.bor()
        if s.peek() in ('==', '!=', '<', '<=', '>', '>='):
            op = s.next().text
            a = ('bin', op, a, s.bor())
            if s.peek() in ('==', '!=', '<', '<=', '>', '>='): raise SyntaxError('chained comparison')
        return a
    def bor(s):
        a = s.band()
        while s.opt('|'): a = ('bin', '|', a, s.band())
        return a
    def band(s):
        a = s.add()
        while s.opt('&'): a = ('bin', '&', a, s.add())
        return a
    def add(s):
        a = s.mul()
        while s.peek() in ('+', '-'):
            op = s.next().text
            a = ('bin', op, a, s.mul())
        return a
    def mul(s):
        a = s.unary()
        while s.peek() == '%': s.next(); a = ('bin', '%', a, s.unary())
        return a
    def unary(s):
        if s.opt('!'): return ('not', s.unary())
        return s.atom()
    def atom(s):
        t = s.next()
        if t.text == '(':
            # a range receiver, a tuple or a parenthesised expression
            if s.t[s.i].kind == 'num' and s.peek(1) in ('..', '..='):
                lo = int(s.next().text); incl = s.next().text == '..='; hi = int(s.next().text)
                s.eat(')'); s.eat('.'); s.eat('contains'); s.eat('('); s.eat('&')
                e = s.expr(); s.eat(')')
                return ('range', lo, hi, incl, e)
            e = s.expr()
            if s.opt(','):
                es = [e]
                while True:
                    es.append(s.expr())
                    if not s.opt(','): break
                s.eat(')')
                return ('tuple', es)
            s.eat(')')
            return e
        if t.kind == 'num': return ('num', int(t.text))
        if t.text in ('true', 'false'): return ('bool', t.text == 'true')
        if t.text == 'Weekday': s.eat('::'); return ('wd', s.next().text)
        if t.text == 'NaiveDate':
            s.eat('::'); s.eat('from_ymd_opt'); s.eat('(')
            y = int(s.next().text); s.eat(','); m = int(s.next().text); s.eat(','); d = int(s.next().text)
            s.eat(')'); s.eat('.'); s.eat('unwrap'); s.eat('('); s.eat(')')
            return ('date', y, m, d)
        if t.text == 'matches!':
            s.eat('('); e = s.expr(); s.eat(','); p = s.pats(); s.eat(')')
            return ('matches', e, p)
        if t.text == 'self':
            s.eat('.'); f = s.next().text
            if s.peek() != '(': return ('field', f)
            s.eat('('); a = []
            if s.peek() != ')':
                a.append(s.expr())
                while s.opt(','): a.append(s.expr())
            s.eat(')')
            return ('call', f, a)
        if t.kind == 'id' and re.fullmatch(r'[a-z_]+', t.text): return ('var', t.text)
        raise SyntaxError(f'unexpected {t}')
    def pats(s):
        ps = [s.pat()]
        while s.opt('|'): ps.append(s.pat())
        return ps
    def pat(s):
        if s.opt('('):
            cs = [s.pats()]
            while s.opt(','): cs.append(s.pats())
            s.eat(')')
            return ('ptuple', cs)
        if s.opt('_'): return ('pwild',)
        t = s.next()
        if t.kind == 'num':
            if s.opt('..='): return ('prange', int(t.text), int(s.next().text))
            return ('pnum', int(t.text))
        if t.text == 'Some':
            s.eat('('); ty = s.next().text; s.eat('::'); v = s.next().text; s.eat(')')
            return ('psome', ty, v)
        if t.text == 'None': return ('pnone',)
        raise SyntaxError(f'pattern {t}')
    def block(s):
        s.eat('{'); out = []
        while not s.opt('}'): out.append(s.stmt())
        return out
    def stmt(s):
        if s.opt('let'):
            if s.opt('('):
                ns = [s.next().text]
                while s.opt(','): ns.append(s.next().text)
                s.eat(')')
            else: ns = s.next().text
            s.eat('='); e = s.expr(); s.eat(';')
            return ('let', ns, e)
        if s.opt('return'):
            e = s.expr(); s.eat(';')
            return ('ret', e)
        if s.opt('if'): return s.if_()
        if s.opt('match'):
            e = s.expr(); s.eat('{'); arms = []
            while not s.opt('}'):
                p = s.pats(); s.eat('=>')
                if s.opt('{'): x = s.expr(); s.eat('}')
                else: x = s.expr()
                arms.append((p, x)); s.opt(',')
            return ('match', e, arms)
        e = s.expr()
        if s.peek() != '}': raise SyntaxError(f'expected end of block, got {s.t[s.i]}')
        return ('expr', e)
    def if_(s):
        c = s.expr(); a = s.block(); b = None
        if s.opt('else'):
            b = [s.if_()] if s.opt('if') else s.block()
        return ('if', c, a, b)
    def file(s):
        enums, structs, fns = {}, {}, []
        while s.i < len(s.t):
            t = s.next()
            if t.text == 'use':
                while s.next().text != ';': pass
            elif t.text == 'pub':
                k = s.next().text; n = s.next().text
                if k == 'enum':
                    s.eat('{'); vs = []
                    while not s.opt('}'): vs.append(s.next().text); s.opt(',')
                    enums[n] = (vs, t.line)
                elif k == 'struct':
                    if s.opt(';'): structs[n] = (None, t.line)
                    else:
                        s.eat('{'); s.eat('pub'); s.eat('market'); s.eat(':'); s.eat('Option'); s.eat('<')
                        ty = s.next().text; s.eat('>'); s.opt(','); s.eat('}')
                        structs[n] = (ty, t.line)
                else: raise SyntaxError(k)
            elif t.text == 'impl':
                a = s.next().text; tr = None
                if s.opt('for'): tr, a = a, s.next().text
                s.eat('{')
                while not s.opt('}'):
                    l0 = s.eat('fn').line; n = s.next().text
                    s.eat('('); s.eat('&'); s.eat('self'); s.eat(','); pn = s.next().text; s.eat(':')
                    pt = s.next().text; s.eat(')'); s.eat('->'); rt = s.next().text
                    b = s.block()
                    fns.append((a, tr, n, pn, pt, rt, b, l0, s.t[s.i - 1].line))
            else: raise SyntaxError(str(t))
        return enums, structs, fns

TRAIT = {'naive_date_to_dkmy', 'easter_monday', 'orthodox_easter_monday', 'is_weekend'}

def calls_in(x):
    if isinstance(x, tuple):
        if x and x[0] == 'call': yield x[1]
        for y in x: yield from calls_in(y)
    elif isinstance(x, list):
        for y in x: yield from calls_in(y)

def camel(n):
    p = n.strip('_').split('_')
    return p[0] + ''.join(q[:1].upper() + q[1:] for q in p[1:])

class Gen:
    def __init__(s, fns):
        s.body = {f[2]: f for f in fns}
        s.eff = {}
        s.binds = None
    def effectful(s, n):
        if n in ('easter_monday', 'orthodox_easter_monday'): return True
        if n in TRAIT: return False
        if n not in s.eff:
            s.eff[n] = False
            s.eff[n] = any(s.effectful(c) for c in calls_in(s.body[n][6]))
        return s.eff[n]
    def arith(s, e):
        k = e[0]
        if k == 'var': return camel(e[1])
        if k == 'num': return str(e[1])
        if k == 'bin' and e[1] in '+-': return f'{s.arith(e[2])} {e[1]} {s.arith(e[3])}'
        if k == 'bin' and e[1] == '%': return f'Int.tmod {s.arith(e[2])} {s.arith(e[3])}'
        if k == 'wd': return f'.{e[1]}'
        raise SyntaxError(f'arith {e}')
    def boolean(s, e, sc=False):
        """Lean Bool term. `sc`: inside a short-circuit position, where effects are refused."""
        k = e[0]
        if k == 'bool': return str(e[1]).lower()
        if k == 'not': return f'!({s.boolean(e[1], sc)})'
        if k == 'bin':
            op = e[1]
            if op in ('||', '&&', '|', '&'):
                short = op in ('||', '&&')
                a = s.boolean(e[2], sc); b = s.boolean(e[3], sc or short)
                lop = '||' if op in ('||', '|') else '&&'
                wrap = lambda x, t: f'({t})' if x[0] == 'bin' and x[1] in ('||', '&&', '|', '&') and x[1] != op else t
                return f'{wrap(e[2], a)} {lop} {wrap(e[3], b) if not (e[3][0]=="bin" and e[3][1]==op) else "("+b+")"}'
            if op in ('==', '!='):
                if e[2] == ('var', 'date') and e[3][0] == 'date':
                    _, y, m, d = e[3]
                    t = f'(date.year == {y} && date.month == {m} && date.day == {d})'
                    return t if op == '==' else '!' + t
                return f'{s.arith(e[2])} {op} {s.arith(e[3])}'
            if op in ('<', '<=', '>', '>='):
                lop = {'<': '<', '<=': '≤', '>': '>', '>=': '≥'}[op]
                return f'decide ({s.arith(e[2])} {lop} {s.arith(e[3])})'
            raise SyntaxError(op)
        if k == 'range':
            v = s.arith(e[4])
            return f'(decide ({e[1]} ≤ {v}) && decide ({v} {"≤" if e[3] else "<"} {e[2]}))'
        if k == 'call':
            assert e[2] == [('var', 'date')], e
            f = camel(e[1])
            if e[1] == 'is_weekend': return 'isWeekend date'
            if s.effectful(e[1]):
                if sc: raise SyntaxError('effect under a short-circuit operator')
                v = f'v{len(s.binds)}'
                s.binds.append((v, f'{f} date'))
                return v
            return f'{f} date'
        if k == 'matches': return s.matches(e[1], e[2])
        raise SyntaxError(f'bool {e}')
    def matches(s, e, pats):
        def one(v, p):
            if p[0] == 'pnum': return f'{v} == {p[1]}'
            if p[0] == 'prange': return f'(decide ({p[1]} ≤ {v}) && decide ({v} ≤ {p[2]}))'
            raise SyntaxError(p)
        def alts(v, ps):
            return one(v, ps[0]) if len(ps) == 1 else '(' + ' || '.join(one(v, p) for p in ps) + ')'
        if e[0] != 'tuple': return alts(s.arith(e), pats)
        vs = [s.arith(x) for x in e[1]]
        out = []
        for p in pats:
            assert p[0] == 'ptuple' and len(p[1]) == len(vs)
            out.append(' && '.join(alts(v, q) for v, q in zip(vs, p[1])))
        return out[0] if len(out) == 1 else ' || '.join(f'({o})' for o in out)
    def value(s, e, eff, rt, ind):
        """Emit a returned expression."""
        pad = '  ' * ind
        if rt == 'u32': return pad + s.arith(e)
        if e[0] == 'call' and s.effectful(e[1]):
            assert eff and e[2] == [('var', 'date')]
            return pad + f'{camel(e[1])} date'
        s.binds = []
        t = s.boolean(e)
        out = ''
        for v, c in s.binds: out += pad + f'{c} >>= fun {v} =>\n'
        if not eff: assert not s.binds
        return out + pad + (f'.ok ({t})' if eff else t)
    def cond(s, e, ind):
        s.binds = []
        # split the top-level disjunction over lines
        ds = []
        def flat(x):
            if x[0] == 'bin' and x[1] == '||': flat(x[2]); flat(x[3])
            else: ds.append(x)
        flat(e)
        pad = '  ' * ind
        par = lambda x: f'({s.boolean(x, True)})' if x[0] == 'bin' and x[1] in ('&&', '|', '&') and len(ds) > 1 else s.boolean(x, True)
        # `||` is associative: group long disjunctions so that the nesting depth stays small
        ts = [par(x) for x in ds]
        if len(ts) > 24:
            ts = ['(' + f'\n{pad}      || '.join(ts[i:i + 16]) + ')' for i in range(0, len(ts), 16)]
        r = f'\n{pad}    || '.join(ts)
        assert not s.binds
        return r
    def block(s, stmts, eff, rt, ind, cont):
        """Emit statements followed by the continuation `cont` (list of statements)."""
        pad = '  ' * ind
        if not stmts:
            if not cont: raise SyntaxError('missing value')
            return s.block(cont, eff, rt, ind, [])
        st, rest = stmts[0], stmts[1:]
        k = st[0]
        if k in ('ret', 'expr'):
            if k == 'expr' and rest: raise SyntaxError('value in the middle')
            return s.value(st[1], eff, rt, ind)
        if k == 'let':
            n, e = st[1], st[2]
            assert e[0] == 'call'
            if e[1] == 'naive_date_to_dkmy':
                assert e[2] == [('var', 'date')] and len(n) == 5
                fields = ['date.day', 'date.weekday', 'date.month', 'date.year', 'date.ordinal']
                out = ''
                for x, f in zip(n, fields):
                    if not x.startswith('_'): out += pad + f'let {x} := {f}\n'
                return out + s.block(rest, eff, rt, ind, cont)
            assert e[2] == [('var', 'y')], e
            if e[1] in ('easter_monday', 'orthodox_easter_monday'):
                nm = '_' if n.startswith('_') else camel(n)
                return pad + f'{camel(e[1])} y >>= fun {nm} =>\n' + s.block(rest, eff, rt, ind, cont)
            return pad + f'let {camel(n)} := {camel(e[1])} y\n' + s.block(rest, eff, rt, ind, cont)
        if k == 'if':
            _, c, a, b = st
            k2 = rest + cont
            return (pad + f'if {s.cond(c, ind)}\n' + pad + 'then\n' + s.block(a, eff, rt, ind + 1, k2) +
                    '\n' + pad + 'else\n' + s.block(b or [], eff, rt, ind if not (b) else ind + 1, k2))
        if k == 'match':
            assert not rest and not cont
            if st[1] == ('field', 'market'):
                out = pad + 'match market with\n'
                for ps, e in st[2]:
                    (p,) = ps
                    lhs = f'some .{p[2]}' if p[0] == 'psome' else 'none'
                    out += pad + f'| {lhs} =>\n' + (s.value(e, eff, rt, ind + 1) if not (eff and not s.effectful(e[1])) else pad + '  .ok (' + s.boolean(e) + ')') + '\n'
                return out.rstrip('\n')
            v = s.arith(st[1])
            out = ''
            for j, (ps, e) in enumerate(st[2]):
                if ps == [('pwild',)]:
                    assert j == len(st[2]) - 1
                    return out + s.value(e, eff, rt, ind)
                c = ' || '.join(f'{v} == {p[1]}' for p in ps)
                out += pad + f'if {c} then\n' + s.value(e, eff, rt, ind + 1) + '\n' + pad + 'else\n'
            raise SyntaxError('no default arm')
        raise SyntaxError(k)

def main():
    os.makedirs(OUT, exist_ok=True)
    shipped, names = [], []
    for fn in sorted(os.listdir(SRC)):
        stem = fn[:-3]
        if stem in SKIP: continue
        enums, structs, fns = P(tokenise(open(f'{SRC}/{fn}', encoding='utf8').read())).file()
        assert len(structs) == 1, fn
        (name, (mk, sline)), = structs.items()
        rel = f'third-parties/calendar/src/{fn}'
        out = 'import Verif.Model.Easter\n\n'
        out += f'/-! Generated by `tools/gen_calendars.py` from `{rel}`. -/\n\nnamespace Qlab\n\n'
        for en, (vs, l) in enums.items():
            out += f'/-- `{en}` (`{rel}:{l}`). -/\ninductive {en} where\n' + ''.join(f'  | {v}\n' for v in vs) + '  deriving DecidableEq\n\n'
        out += f'namespace {name}\n\n'
        g = Gen(fns)
        # callees first
        done, order = set(), []
        def visit(f):
            if f[2] in done: return
            done.add(f[2])
            for c in calls_in(f[6]):
                if c in g.body: visit(g.body[c])
            order.append(f)
        for f in fns: visit(f)
        for (a, tr, n, pn, pt, rt, b, l0, l1) in order:
            assert a == name and (tr is None or tr == 'Calendar')
            assert (pn, pt) in (('date', 'NaiveDate'), ('y', 'i32')), (pn, pt)
            eff = g.effectful(n)
            names.append(f'{name}.{camel(n)}')
            lt = {'bool': 'Bool', 'u32': 'Nat'}[rt]
            pty = 'NaiveDate' if pt == 'NaiveDate' else 'Int'
            par = f'({pn} : {pty})'
            if n == 'is_business_day' and mk: par = f'(market : Option {mk}) ' + par
            out += 'set_option maxRecDepth 4000 in\n' if l1 - l0 > 200 else ''
            out += f'/-- `{name}::{n}` (`{rel}:{l0}-{l1}`). -/\n'
            out += f'def {camel(n)} {par} : {"Rust " + lt if eff else lt} :=\n'
            out += g.block(b, eff, rt, 1, []) + '\n\n'
        eff = g.effectful('is_business_day')
        out += f'end {name}\n\n'
        low = name[0].lower() + name[1:]
        marg = f' (market : Option {mk})' if mk else ''
        call = f'{name}.isBusinessDay' + (' market' if mk else '')
        out += f'/-- The calendar `{name}` (`{rel}:{sline}`). -/\ndef Calendar.{low}{marg} : Calendar where\n'
        out += f'  isBusinessDay date := {call} date\n' if eff else f'  isBusinessDay date := .ok ({call} date)\n'
        out += '\nend Qlab\n'
        open(f'{OUT}/{name}.lean', 'w', encoding='utf8').write(out)
        names.append(f'Calendar.{low}')
        shipped.append((name, low, mk, enums.get(mk, (None,))[0] if mk else None, rel))
    # the enumeration
    o = ''.join(f'import Verif.Model.Countries.{n}\n' for n, *_ in shipped)
    o += '\n/-! Generated by `tools/gen_calendars.py`: every calendar shipped in `third-parties/calendar/src`. -/\n\nnamespace Qlab\n\n'
    o += '/-- The calendars of `third-parties/calendar/src/lib.rs:70-152` with their market options\n(without `JointCalendar`, which is `Calendar.joint`). -/\ninductive Shipped where\n'
    for n, low, mk, vs, rel in shipped:
        o += f'  | {low}' + (f' (market : Option {mk})' if mk else '') + '\n'
    o += '  | weekendsOnly\n  deriving DecidableEq\n\n'
    o += '/-- The calendar a name stands for. -/\ndef Shipped.calendar : Shipped → Calendar\n'
    for n, low, mk, vs, rel in shipped:
        o += f'  | .{low}' + (' m' if mk else '') + f' => Calendar.{low}' + (' m' if mk else '') + '\n'
    o += '  | .weekendsOnly => Calendar.weekendsOnly\n\nend Qlab\n'
    open(ROOT + '/lean/Verif/Model/Shipped.lean', 'w').write(o)
    o = 'import Verif.Model.Shipped\n\n/-! Generated by `tools/gen_calendars.py`: a tactic that unfolds the definitions of every shipped calendar. -/\n\nnamespace Qlab\n\n'
    o += 'set_option hygiene false in\n/-- Unfold every shipped calendar. -/\nmacro "unfold_calendars" loc:(Lean.Parser.Tactic.location)? : tactic => `(tactic| simp only [Shipped.calendar, Calendar.weekendsOnly,\n'
    o += ',\n'.join('  ' + n for n in names) + '] $[$loc]?)\n\nend Qlab\n'
    open(ROOT + '/lean/Verif/Lemmas/UnfoldCalendars.lean', 'w').write(o)
    # the Easter tables
    lib = open(f'{SRC}/lib.rs').read()
    o = '/-! Generated by `tools/gen_calendars.py` from `third-parties/calendar/src/lib.rs`. -/\n\nnamespace Qlab\n\n'
    for nm, ln in (('EASTER_MONDAY', 'easterMondayTable'), ('ORTHODOX_EASTER_MONDAY', 'orthodoxEasterMondayTable')):
        m = re.search(r'const ' + nm + r': \[u32; (\d+)\] = \[(.*?)\];', lib, re.S)
        l0 = lib[:m.start()].count('\n') + 1; l1 = lib[:m.end()].count('\n') + 1
        body = re.sub(r'//[^\n]*', '', m.group(2))
        xs = [int(x) for x in re.findall(r'\d+', body)]
        assert len(xs) == int(m.group(1))
        o += f'/-- `{nm}` (`third-parties/calendar/src/lib.rs:{l0}-{l1}`). -/\ndef {ln} : List Nat := [\n'
        o += ',\n'.join('  ' + ', '.join(map(str, xs[i:i + 20])) for i in range(0, len(xs), 20)) + ']\n\n'
    o += 'end Qlab\n'
    open(ROOT + '/lean/Verif/Model/EasterTable.lean', 'w').write(o)
    print(len(shipped), 'calendars')

main()
