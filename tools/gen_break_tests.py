#!/usr/bin/env python3
"""Writes lean/Verif/Tests/Break.lean from the break rule tests of /repo/test/utility/utf8."""
import re

OUT = '/verif/lean/Verif/Tests/Break.lean'
FILES = [('grapheme_cluster_break_test.cpp', 'grapheme_cluster_break_class', 'GClass'),
         ('line_break_test.cpp', 'line_break_class', 'LClass')]


def cls(name):
    return '.' + {'IN': 'IN_'}.get(name, name)


out = ['''import Verif.Utf8.Grapheme
import Verif.Utf8.Line

/-!
# Tests of the break rules

Written by tools/gen_break_tests.py from /repo/test/utility/utf8/grapheme_cluster_break_test.cpp and
line_break_test.cpp: every window, class and result of those tests.
-/

namespace ArgRouter.Tests.Break

open Utf8

/-- The rule gives these results. -/
def gives {C : Type} (rule : List C → C → Bool) (cases : List (List C × C × Bool)) : Bool :=
  cases.all fun c => rule c.1 c.2.1 == c.2.2
''']
n = 0
for file, enum, klass in FILES:
    text = open('/repo/test/utility/utf8/' + file).read()
    parts = re.split(r'BOOST_AUTO_TEST_CASE\((\w+)_test\)', text)
    line = parts[0].count('\n') + 1
    out.append('/-! ## %s -/\n' % file)
    for name, body in zip(parts[1::2], parts[2::2]):
        first, line = line, line + body.count('\n')
        if 'death' in name:
            continue
        cases = []
        for m in re.finditer(r'no_break_rules::(\w+)\(\s*std::array\{([^}]*)\},\s*utf8::%s::(\w+)\);\s*'
                             r'static_assert\((!?)result' % enum, body):
            assert m.group(1) == name, (m.group(1), name)
            cases.append((re.findall(r'::(\w+)(?=[,\s]|$)', m.group(2)), m.group(3), m.group(4) == ''))
        for m in re.finditer(r'std::tuple\{\s*std::array\{([^}]*)\},\s*utf8::%s::(\w+),\s*'
                             r'(true|false)\}' % enum, body):
            cases.append((re.findall(r'::(\w+)(?=[,\s]|$)', m.group(1)), m.group(2), m.group(3) == 'true'))
        assert len(cases) == body.count('static_assert(') + len(re.findall(r'std::tuple\{\s*std::array', body)), name
        n += len(cases)
        seen = []
        for c in cases:
            if c not in seen:
                seen.append(c)
        rows = ['([%s], %s, %s)' % (', '.join(map(cls, w)), cls(c), 'true' if r else 'false')
                for w, c, r in seen]
        lines, cur = [], ''
        for i, r in enumerate(rows):
            r += ',' if i + 1 < len(rows) else ']'
            if len(cur) + len(r) > 92:
                lines.append(cur)
                cur = ''
            cur += (' ' if cur else '') + r
        lines.append(cur)
        out.append('/-- %s:%d-%d. -/\nexample : gives (C := %s) %s\n    [%s = true := by\n  decide +kernel\n'
                   % (file, first, line - 1, klass, name, '\n     '.join(lines)))
out.append('end ArgRouter.Tests.Break\n')
open(OUT, 'w').write('\n'.join(out))
print(n, 'cases')
