#!/usr/bin/env python3
"""Tables of single closings for Spec/Closings.lean.

Reads the holiday conditions of the calendars that list closings year by year and prints, per year, the days
(month, day) on which some condition holds, except the days of the recurring holidays given in RECURRING
(which Spec/HolidayTables.lean states by hand).  Weekday- and Easter-dependent conditions are taken as false.
"""
import re, sys
SRC = (sys.argv[1] if len(sys.argv) > 1 else '/repo') + '/third-parties/calendar/src/'
DIM = [31, 29, 31, 30, 31, 30, 31, 31, 30, 31, 30, 31]

def conditions(name, fn='is_business_day'):
    s = open(SRC + name + '.rs').read().split('#[cfg(test)]')[0]
    s = re.sub(r'//[^\n]*', '', s)
    i = s.index('fn ' + fn)
    s = s[i:]
    out = []
    # walk the statements `if c {` / `else if c {` keeping a stack of enclosing conditions
    stack, pos, pend = [], s.index('{') + 1, None
    tok = re.compile(r'\b(else\s+if|if|else)\b|\{|\}|return\s+false\s*;|\bfalse\b|return\s+true\s*;')
    depth = 1
    while depth:
        m = tok.search(s, pos)
        t = m.group(0)
        if re.match(r'(else\s+)?if', t):
            j = s.index('{', m.end())
            stack.append(s[m.end():j].strip()); depth += 1; pos = j + 1; continue
        if t.startswith('else'):
            stack.append(None); j = s.index('{', m.end()); depth += 1; pos = j + 1; continue
        if t == '{':
            stack.append('True'); depth += 1
        elif t == '}':
            depth -= 1
            if depth: stack.pop()
        elif 'false' in t:
            if stack and None not in stack:
                out.append(' && '.join('(' + c + ')' for c in stack))
        pos = m.end()
    return out

def py(c):
    c = re.sub(r'\((\d+)\.\.=(\d+)\)\.contains\(&(\w)\)', r'(\1 <= \3 <= \2)', c)
    c = re.sub(r'\((\d+)\.\.(\d+)\)\.contains\(&(\w)\)', r'(\1 <= \3 < \2)', c)
    c = c.replace('self.is_weekend(date)', 'False').replace('Weekday::', 'W.')
    c = re.sub(r'!(?!=)', ' not ', c)
    c = c.replace('&&', ' and ').replace('||', ' or ')
    c = re.sub(r'\s&\s', ' and ', c)
    return ' '.join(c.split())

class W: Mon, Tue, Wed, Thu, Fri, Sat, Sun = range(7)

RECURRING = {
 'china': lambda y: [(1, 1)] + ([(4, 4), (6, 9), (9, 15)] if y <= 2008 else []) +
    ([(m, d) for m in (5, 10) for d in range(1, 8)] if y <= 2007 else []),
 'hongkong': lambda y: [(1, 1), (5, 1), (7, 1), (10, 1), (12, 25), (12, 26)],
 'india': lambda y: [(1, 26), (4, 14), (5, 1), (8, 15), (10, 2), (12, 25)],
 'indonesia': lambda y: [(1, 1), (8, 17), (12, 25)],
 'israel': lambda y: [],
 'singapore': lambda y: [(1, 1), (5, 1), (8, 9), (12, 25)],
 'southkorea': lambda y: [(1, 1), (3, 1), (5, 1), (5, 5), (6, 6), (8, 15), (10, 3), (12, 25)] +
    ([(4, 5)] if y <= 2005 else []) + ([(7, 17)] if y <= 2007 else []) + ([(10, 9)] if y >= 2013 else []),
 'taiwan': lambda y: [(1, 1), (2, 28), (5, 1), (10, 10)] + ([(4, 5)] if y not in (2008, 2009, 2012, 2017) else []),
 'thailand': lambda y: [(1, 1), (4, 6), (4, 13), (4, 14), (4, 15), (5, 1), (8, 12), (12, 5), (12, 10), (12, 31)] +
    ([(7, 28), (10, 13)] if y >= 2017 else []),
 'turkey': lambda y: [(1, 1), (4, 23), (5, 1), (5, 19), (8, 30), (10, 29)] + ([(7, 15)] if y >= 2017 else []),
 'newzealand': lambda y: [(1, 1), (1, 2), (2, 6), (4, 25), (12, 25), (12, 26)],
}

def table(name):
    cs = [compile(py(c), name, 'eval') for c in conditions(name)]
    res = {}
    for y in range(1850, 2300):
        rec = RECURRING[name](y)
        days = set()
        for m in range(1, 13):
            for d in range(1, DIM[m - 1] + 1):
                env = dict(y=y, m=m, d=d, w=None, dd=-1000, em=0, W=W, True_=True)
                if any(eval(c, env) for c in cs): days.add((m, d))
        for r in rec: assert r in days, (name, y, r)
        days -= set(rec)
        if days: res[y] = sorted(days)
    return res

LEAN = {'hongkong': 'hongKong', 'southkorea': 'southKorea', 'newzealand': 'newZealand'}

def lean(name):
    ls = []
    for y, days in table(name).items():
        out, cur = [], '  .dates %d [' % y
        for i, x in enumerate(days):
            w = '(%d, %d)' % x + (',' if i + 1 < len(days) else ']')
            if len(cur) + len(w) + 1 > 114: out.append(cur); cur = '    ' + w
            else: cur += w if cur.endswith('[') else ' ' + w
        ls.append('\n'.join(out + [cur]))
    body = ',\n'.join(ls)
    return '/-- Single closings of `%s.rs`. -/\ndef %s : List Holiday := [\n%s]\n' % (name, LEAN.get(name, name), body)

if __name__ == '__main__':
    print('import Verif.Spec.Holidays\n')
    print('/-!\n# Single closings\n\nThe days, year by year, on which the calendars that publish their holidays '
          'as lists of dates are closed\nin addition to the recurring holidays of `Verif.Spec.HolidayTables` '
          '(printed by `tools/gen_closings.py`).\n-/\n')
    print('namespace Qlab.Spec.Closings\n')
    for n in RECURRING: print(lean(n))
    print('end Qlab.Spec.Closings')
