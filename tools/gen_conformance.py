#!/usr/bin/env python3
"""Print the year tables of the repository's own calendar tests as Lean examples about the model."""
import glob, os, re

SRC = '/repo/third-parties/calendar/src'
OUT = '/verif/lean/Verif/Conformance/Calendars2023.lean'


def main():
    out = []
    for f in sorted(glob.glob(SRC + '/*.rs')):
        src = open(f).read()
        m = re.search(r'let expected_results_for_2023\w* = vec!\[(.*?)\];', src, re.S)
        if not m:
            continue
        table = re.findall(r'true|false', m.group(1))
        assert len(table) == 365, f
        line = src[:m.start()].count('\n') + 1
        last = src[:m.end()].count('\n') + 1
        call = re.search(r'assert_eq!\((.*?)\.is_business_day\(target_date\)', src[m.end():], re.S).group(1)
        call = re.sub(r'\s+', '', call)
        name = re.match(r'\w+', call).group(0)
        ship = name[0].lower() + name[1:]
        market = re.search(r'market:Some\(\w*Market::(\w+)\)|Some\((?:\w+::)*(\w+)\)', call)
        if '(' in call or '{' in call:
            arg = f'(some .{market.group(1) or market.group(2)})' if market else 'none'
            ship = f'.{ship} {arg}'
        else:
            ship = f'.{ship}'
        rows = []
        for i in range(0, 365, 16):
            rows.append('      ' + ', '.join(table[i:i + 16]))
        out.append(f'/-- `third-parties/calendar/src/{os.path.basename(f)}:{line}-{last}`, `{call}`. -/\n'
                   f'example : year2023 ({ship}) =\n    [' + ',\n'.join(rows).lstrip() + '] := by\n  decide +kernel\n')
    os.makedirs(os.path.dirname(OUT), exist_ok=True)
    head = '''import Verif.Model.Shipped

/-!
# The tables of the repository's calendar tests

Generated by `tools/gen_conformance.py` from the tests in `third-parties/calendar/src`: the model answers as the
tests expect on every day of 2023.  These are checks of the translation, not properties.
-/

namespace Qlab.Conformance

/-- The answers of a calendar for the 365 days from 1 January 2023 on, as the tests ask for them. -/
def year2023 (s : Shipped) : List Bool :=
  ((List.range' 1 12).flatMap fun m => (List.range' 1 (monthLen false m)).map fun d => (m, d)).map fun p =>
    match fromYmdOpt 2023 p.1 p.2 with
    | some d => match s.calendar.isBusinessDay d with
      | .ok b => b
      | .panic => false
    | none => false

'''
    open(OUT, 'w').write(head + '\n'.join(out) + '\nend Qlab.Conformance\n')
    print(len(out))


main()
