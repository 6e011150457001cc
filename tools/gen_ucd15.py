"""Writes lean/Verif/Spec/Ucd15.lean: Extended_Pictographic and line breaking classes of code points.

The source is the Unicode character database (version 15.0.0) that comes with Perl, not the tables of the
library. The library's tables are those of version 14.0.0: characters that are new in version 15.0 are left
out (except ideographs and pictographs, which had the class ID before they were assigned), and so are
the three characters whose class version 15.0 changed. Classes are resolved as UAX #14, LB1, says.
"""
import subprocess
import unicodedata as u

assert u.unidata_version == '14.0.0'

OUT = '/verif/lean/Verif/Spec/Ucd15.lean'

CLASSES = ('AI AL B2 BA BB BK CB CJ CL CM CP CR EB EM EX GL H2 H3 HL HY ID IN IS JL JT JV LF NL NS NU OP '
           'PO PR QU RI SA SG SP SY WJ XX ZW ZWJ').split()

PERL = r'''
no warnings;
use Unicode::UCD;
die unless Unicode::UCD::UnicodeVersion() eq '15.0.0';
my @lb = qw(%s);
my %%re; $re{$_} = qr/\p{Lb=$_}/ for @lb;
for my $c (0..0x10FFFF) {
    my $s = chr($c); my $l = '?';
    for (@lb) { if ($s =~ $re{$_}) { $l = $_; last } }
    print "$l ", ($s =~ /\p{ExtPict}/ ? 1 : 0), ' ', ($s =~ /\p{Present_In: 14.0}/ ? 1 : 0), "\n";
}
''' % ' '.join(CLASSES)

# Changed from CM, CM and AL in version 15.0.
CHANGED = (0x1DCD, 0x1DFC, 0x2057)

rows = [l.split() for l in subprocess.run(['perl', '-e', PERL], capture_output=True, text=True,
                                          check=True).stdout.splitlines()]
assert len(rows) == 0x110000 and all(r[0] != '?' for r in rows)


def line(x):
    """The class in version 14.0 after LB1; none for the unassigned and the changed."""
    lb, pict, present = rows[x]
    cat = u.category(chr(x))
    if x in CHANGED:
        return None
    if present == '0' and lb != 'XX':
        # Unassigned code points of some blocks have the classes ID and PR. The script Kawi is new.
        return lb if lb in ('ID', 'PR') and not 0x11F00 <= x <= 0x11F5F else 'ID' if pict == '1' else None
    if lb == 'XX':
        return None if cat == 'Cn' else 'AL'
    if lb in ('AI', 'SG'):
        return 'AL'
    if lb == 'SA':
        return 'CM' if cat in ('Mn', 'Mc') else 'AL'
    if lb == 'CJ':
        return 'NS'
    return lb


def ranges(test):
    out = []
    for x in range(0x110000):
        if test(x):
            if out and out[-1][1] == x - 1:
                out[-1][1] = x
            else:
                out.append([x, x])
    return out


WANTED = [
    ('AL', 'AL: letters and symbols'), ('BA', 'BA: break after'), ('BB', 'BB: break before'),
    ('CL', 'CL: closing punctuation'), ('EB', 'EB: emoji base'), ('EX', 'EX: exclamation and interrogation'),
    ('ID', 'ID: ideographs'), ('NS', 'NS: no break before'), ('OP', 'OP: opening punctuation'),
    ('PO', 'PO: postfix'), ('PR', 'PR: prefix'), ('QU', 'QU: quotation marks'),
]

classes = [line(x) for x in range(0x110000)]
sets = [('pictographs', 'The property Extended_Pictographic.', ranges(lambda x: rows[x][1] == '1'))]
for c, doc in WANTED:
    sets.append(('line' + c, 'The line breaking class ' + doc + '.', ranges(lambda x: classes[x] == c)))

with open(OUT, 'w') as f:
    f.write('/-! # Generated by tools/gen_ucd15.py from the Unicode character database 15.0.0 of Perl\n'
            '(do not edit)\n\nFirst and last code point of each range; without the characters that are new '
            'in version 15.0 and the\nthree whose line breaking class it changed. -/\n\n'
            'namespace ArgRouter.Spec\n')
    for name, doc, rs in sets:
        f.write('\n/-- ' + doc + ' -/\ndef ' + name + ' : List (Nat × Nat) := [')
        buf = '\n '
        for i, (a, z) in enumerate(rs):
            item = ' (0x%X, 0x%X)%s' % (a, z, ',' if i + 1 < len(rs) else ']')
            if len(buf.split('\n')[-1]) + len(item) > 100:
                buf += '\n '
            buf += item
        f.write(buf + '\n')
    f.write('\nend ArgRouter.Spec\n')
print({n: len(r) for n, _, r in sets})
