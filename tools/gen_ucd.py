"""Writes lean/Verif/Spec/Ucd14.lean: ranges of code points by Unicode property.

The source is the Unicode character database (version 14.0.0) that comes with Python, not the tables
of the library, so that the latter can be compared with it.
"""
import unicodedata as u

assert u.unidata_version == '14.0.0'

OUT = '/verif/lean/Verif/Spec/Ucd14.lean'


def ranges(test):
    out = []
    for x in range(0x110000):
        if test(chr(x)):
            if out and out[-1][1] == x - 1:
                out[-1][1] = x
            else:
                out.append([x, x])
    return out


SETS = [
    ('nonspacingMarks', 'The general category Nonspacing_Mark (Mn).', lambda c: u.category(c) == 'Mn'),
    ('enclosingMarks', 'The general category Enclosing_Mark (Me).', lambda c: u.category(c) == 'Me'),
    ('spacingMarks', 'The general category Spacing_Mark (Mc).', lambda c: u.category(c) == 'Mc'),
    ('formatCharacters', 'The general category Format (Cf).', lambda c: u.category(c) == 'Cf'),
    ('controlCharacters', 'The general category Control (Cc).', lambda c: u.category(c) == 'Cc'),
    ('separatorCharacters', 'The general categories Line_Separator and Paragraph_Separator (Zl, Zp).',
     lambda c: u.category(c) in ('Zl', 'Zp')),
    ('decimalDigits', 'The general category Decimal_Number (Nd).', lambda c: u.category(c) == 'Nd'),
    ('openPunctuation', 'The general category Open_Punctuation (Ps).', lambda c: u.category(c) == 'Ps'),
    ('closePunctuation', 'The general category Close_Punctuation (Pe).', lambda c: u.category(c) == 'Pe'),
    ('quotePunctuation', 'The general categories Initial_Punctuation and Final_Punctuation (Pi, Pf).',
     lambda c: u.category(c) in ('Pi', 'Pf')),
    ('unassigned', 'The general category Unassigned (Cn).', lambda c: u.category(c) == 'Cn'),
    ('wideCharacters', 'The assigned characters with East_Asian_Width Wide or Fullwidth (W, F).',
     lambda c: u.category(c) != 'Cn' and u.east_asian_width(c) in ('W', 'F')),
]

with open(OUT, 'w') as f:
    f.write('/-! # Generated by tools/gen_ucd.py from the Unicode character database 14.0.0 of Python\n'
            '(do not edit)\n\nFirst and last code point of each range. -/\n\nnamespace ArgRouter.Spec\n')
    for name, doc, test in SETS:
        f.write(f'\n/-- {doc} -/\ndef {name} : List (Nat × Nat) := [\n')
        items = [f'(0x{a:X}, 0x{b:X})' for a, b in ranges(test)]
        line = ' '
        for i, it in enumerate(items):
            piece = ' ' + it + (',' if i + 1 < len(items) else ']')
            if len(line) + len(piece) > 99:
                f.write(line + '\n')
                line = ' '
            line += piece
        f.write(line + '\n')
    f.write('\nend ArgRouter.Spec\n')
