import Verif.Spec.Ucd14
import Verif.Spec.Ucd15
import Verif.Utf8.Grapheme
import Verif.Utf8.Line

/-!
# Unicode properties of characters

Columns, grapheme cluster classes and line breaking classes by what the Unicode character database gives
each character. Nothing here depends on the tables of the library.
-/

namespace ArgRouter.Spec

open ArgRouter.Utf8

/-- A number is in one of the ranges. -/
def inRanges (l : List (Nat × Nat)) (n : Nat) : Bool := l.any fun r => r.1 ≤ n && n ≤ r.2

/-- The blocks in which unassigned code points are wide as well (EastAsianWidth.txt, introduction): CJK
Unified Ideographs and Extension A, CJK Compatibility Ideographs, and the planes 2 and 3. -/
def wideBlocks : List (Nat × Nat) :=
  [(0x3400, 0x4DBF), (0x4E00, 0x9FFF), (0xF900, 0xFAFF), (0x20000, 0x2FFFD), (0x30000, 0x3FFFD)]

/-- The columns of a character on a terminal: two if it is wide, otherwise none if it is a nonspacing or
enclosing mark, otherwise one. -/
def unicodeColumns (n : Nat) : Nat :=
  if inRanges wideCharacters n || inRanges wideBlocks n then 2
  else if inRanges nonspacingMarks n || inRanges enclosingMarks n then 0
  else 1

/-- UAX #29, table 2, Prepend: Prepended_Concatenation_Mark, and the Indic syllabic categories
Consonant_Preceding_Repha and Consonant_Prefixed. -/
def prepended : List (Nat × Nat) :=
  [(0x600, 0x605), (0x6DD, 0x6DD), (0x70F, 0x70F), (0x890, 0x891), (0x8E2, 0x8E2), (0xD4E, 0xD4E),
   (0x110BD, 0x110BD), (0x110CD, 0x110CD), (0x111C2, 0x111C3), (0x1193F, 0x1193F), (0x11941, 0x11941),
   (0x11A3A, 0x11A3A), (0x11A84, 0x11A89), (0x11D46, 0x11D46)]

/-- UAX #29, table 2, Extend, beside the nonspacing and enclosing marks: Other_Grapheme_Extend (PropList),
which includes the zero width non-joiner and the tags, and Emoji_Modifier. -/
def otherExtend : List (Nat × Nat) :=
  [(0x9BE, 0x9BE), (0x9D7, 0x9D7), (0xB3E, 0xB3E), (0xB57, 0xB57), (0xBBE, 0xBBE), (0xBD7, 0xBD7),
   (0xCC2, 0xCC2), (0xCD5, 0xCD6), (0xD3E, 0xD3E), (0xD57, 0xD57), (0xDCF, 0xDCF), (0xDDF, 0xDDF),
   (0x1B35, 0x1B35), (0x200C, 0x200C), (0x302E, 0x302F), (0xFF9E, 0xFF9F), (0x1133E, 0x1133E),
   (0x11357, 0x11357), (0x114B0, 0x114B0), (0x114BD, 0x114BD), (0x115AF, 0x115AF), (0x11930, 0x11930),
   (0x1D165, 0x1D165), (0x1D16E, 0x1D172), (0x1F3FB, 0x1F3FF), (0xE0020, 0xE007F)]

/-- UAX #29, table 2, Control, beside the separators, controls and format characters: unassigned
Default_Ignorable_Code_Points. -/
def ignorableUnassigned : List (Nat × Nat) :=
  [(0x2065, 0x2065), (0xFFF0, 0xFFF8), (0xE0000, 0xE0000), (0xE0002, 0xE001F), (0xE0080, 0xE00FF),
   (0xE01F0, 0xE0FFF)]

/-- UAX #29, table 2, SpacingMark: the spacing marks that are not, and the two characters of other
categories that are. -/
def notSpacing : List (Nat × Nat) :=
  [(0x102B, 0x102C), (0x1038, 0x1038), (0x1062, 0x1064), (0x1067, 0x106D), (0x1083, 0x1083),
   (0x1087, 0x108C), (0x108F, 0x108F), (0x109A, 0x109C), (0x1A61, 0x1A61), (0x1A63, 0x1A64),
   (0xAA7B, 0xAA7B), (0xAA7D, 0xAA7D), (0x11720, 0x11721)]

/-- Thai and Lao vowel signs AM. -/
def alsoSpacing : List (Nat × Nat) := [(0xE33, 0xE33), (0xEB3, 0xEB3)]

/-- Hangul syllables of two parts begin every 28th place of their block, those of three are between. -/
def hangulSyllable (n : Nat) : GClass :=
  if 0xAC00 ≤ n ∧ n ≤ 0xD7A3 then (if (n - 0xAC00) % 28 = 0 then .LV else .LVT) else .any

/-- UAX #29, table 2: the class of a character. (Extended_Pictographic, which is not a class there but a
property of its own, is in `pictographs`.) -/
def unicodeCluster (n : Nat) : GClass :=
  if n = 0xD then .CR
  else if n = 0xA then .LF
  else if n = 0x200D then .ZWJ
  else if inRanges prepended n then .prepend
  else if inRanges nonspacingMarks n || inRanges enclosingMarks n || inRanges otherExtend n then .extend
  else if inRanges separatorCharacters n || inRanges controlCharacters n || inRanges formatCharacters n ||
    inRanges ignorableUnassigned n then .control
  else if inRanges [(0x1F1E6, 0x1F1FF)] n then .regional_indicator
  else if inRanges alsoSpacing n || (inRanges spacingMarks n && !inRanges notSpacing n) then .spacing_mark
  else if inRanges [(0x1100, 0x115F), (0xA960, 0xA97C)] n then .L
  else if inRanges [(0x1160, 0x11A7), (0xD7B0, 0xD7C6)] n then .V
  else if inRanges [(0x11A8, 0x11FF), (0xD7CB, 0xD7FB)] n then .T
  else hangulSyllable n

/-- UAX #14, section 5.1, GL: non-breaking ("glue") characters. -/
def glue : List (Nat × Nat) :=
  [(0xA0, 0xA0), (0x34F, 0x34F), (0x35C, 0x362), (0xF08, 0xF08), (0xF0C, 0xF0C), (0xF12, 0xF12),
   (0xFD9, 0xFDA), (0x180E, 0x180E), (0x2007, 0x2007), (0x2011, 0x2011), (0x202F, 0x202F),
   (0x13430, 0x13436), (0x16FE4, 0x16FE4)]

/-- UAX #14, section 5.1, IS: infix numeric separators. -/
def infixSeparators : List (Nat × Nat) :=
  [(0x2C, 0x2C), (0x2E, 0x2E), (0x3A, 0x3B), (0x37E, 0x37E), (0x589, 0x589), (0x60C, 0x60D),
   (0x7F8, 0x7F8), (0x2044, 0x2044), (0xFE10, 0xFE10), (0xFE13, 0xFE14)]

/-- UAX #14, section 5.1, IN: leaders. -/
def leaders : List (Nat × Nat) :=
  [(0x2024, 0x2026), (0x22EF, 0x22EF), (0xFE19, 0xFE19), (0x10AF6, 0x10AF6)]

/-- UAX #14, section 5.1, HL: Hebrew letters. -/
def hebrewLetters : List (Nat × Nat) :=
  [(0x5D0, 0x5EA), (0x5EF, 0x5F2), (0xFB1D, 0xFB1D), (0xFB1F, 0xFB28), (0xFB2A, 0xFB36), (0xFB38, 0xFB3C),
   (0xFB3E, 0xFB3E), (0xFB40, 0xFB41), (0xFB43, 0xFB44), (0xFB46, 0xFB4F)]

/-- UAX #14, section 5.1, CM, beside the marks: the other control characters, and format characters that
have no class of their own. -/
def otherCombining : List (Nat × Nat) :=
  [(0x0, 0x8), (0xE, 0x1F), (0x7F, 0x84), (0x86, 0x9F), (0x61C, 0x61C), (0x200C, 0x200C),
   (0x200E, 0x200F), (0x202A, 0x202E), (0x2066, 0x206F), (0x3035, 0x3035), (0xFFF9, 0xFFFB),
   (0x1BCA0, 0x1BCA3), (0x1D173, 0x1D17A), (0xE0001, 0xE0001), (0xE0020, 0xE007F)]

/-- The line breaking classes of Hangul syllables. -/
def hangulLine : GClass → LClass
  | .LV => .H2
  | .LVT => .H3
  | _ => .any

/-- UAX #14, section 5.1: the class of a character, if it is one of the classes that are defined there by
listing their members or by general category; `any` if it is another. (Complex context characters, SA, are
resolved as LB1 says: marks are CM.) -/
def unicodeLine (n : Nat) : LClass :=
  if n = 0xD then .CR
  else if n = 0xA then .LF
  else if n = 0x85 then .NL
  else if n = 0x20 then .SP
  else if n = 0x200B then .ZW
  else if n = 0x200D then .ZWJ
  else if n = 0x2D then .HY
  else if n = 0x2F then .SY
  else if n = 0xFFFC then .CB
  else if inRanges [(0xB, 0xC), (0x2028, 0x2029)] n then .BK
  else if inRanges [(0x2060, 0x2060), (0xFEFF, 0xFEFF)] n then .WJ
  else if inRanges [(0x2014, 0x2014), (0x2E3A, 0x2E3B)] n then .B2
  else if inRanges [(0x29, 0x29), (0x5D, 0x5D)] n then .CP
  else if inRanges [(0x1F3FB, 0x1F3FF)] n then .EM
  else if inRanges [(0x1F1E6, 0x1F1FF)] n then .RI
  else if inRanges glue n then .GL
  else if inRanges infixSeparators n then .IS
  else if inRanges leaders n then .IN_
  else if inRanges hebrewLetters n then .HL
  else if inRanges [(0x66B, 0x66C)] n || (inRanges decimalDigits n && !inRanges [(0xFF10, 0xFF19)] n) then .NU
  else if inRanges otherCombining n || (inRanges nonspacingMarks n || inRanges enclosingMarks n ||
    (inRanges spacingMarks n && !inRanges [(0xF7F, 0xF7F)] n)) then .CM
  else if inRanges [(0x1100, 0x115F), (0xA960, 0xA97C)] n then .JL
  else if inRanges [(0x1160, 0x11A7), (0xD7B0, 0xD7C6)] n then .JV
  else if inRanges [(0x11A8, 0x11FF), (0xD7CB, 0xD7FB)] n then .JT
  else hangulLine (hangulSyllable n)

/-- The line breaking classes that `unicodeLine` leaves out, with their characters. -/
def lineClasses : List (LClass × List (Nat × Nat)) :=
  [(.AL, lineAL), (.BA, lineBA), (.BB, lineBB), (.CL, lineCL), (.EB, lineEB), (.EX, lineEX), (.ID, lineID),
   (.NS, lineNS), (.OP, lineOP), (.PO, linePO), (.PR, linePR), (.QU, lineQU)]

/-- The characters whose line breaking class Unicode 15 changed. -/
def changedIn15 : List (Nat × Nat) := [(0x1DCD, 0x1DCD), (0x1DFC, 0x1DFC), (0x2057, 0x2057)]

end ArgRouter.Spec
