import Verif.Utf8.Range

/-!
# The generator of Unicode tables

Model of scripts/unicode_table_generators.py, which turns data files of the Unicode character database
into the tables of the headers in include/arg_router/utility/utf8. The downloads are its input, the
text it prints its output. Python strings are lists of characters. An exception is `none`.
-/

namespace ArgRouter.Tools.Tables

open ArgRouter.Utf8

/-- A Python string, as all texts of scripts/unicode_table_generators.py:79-315. -/
abbrev Str := List Char

/-- The characters `str.strip()` removes. Used at scripts/unicode_table_generators.py:109, 129, 136. -/
def isSpace (c : Char) : Bool :=
  let n := c.toNat
  (9 ≤ n && n ≤ 13) || (28 ≤ n && n ≤ 32) || n == 0x85 || n == 0xA0 || n == 0x1680 ||
    (0x2000 ≤ n && n ≤ 0x200A) || n == 0x2028 || n == 0x2029 || n == 0x202F || n == 0x205F ||
    n == 0x3000

/-- `str.rstrip()`: part of the `strip()` of scripts/unicode_table_generators.py:109, 129, 136. -/
def rstrip (s : Str) : Str := (s.reverse.dropWhile isSpace).reverse

/-- `str.strip()`. scripts/unicode_table_generators.py:109, 129, 136. -/
def strip (s : Str) : Str := rstrip (s.dropWhile isSpace)

/-- `for line in StringIO(content)`: the lines with their newline characters. `acc` is the line so
far. scripts/unicode_table_generators.py:128, 185, 222, 263. -/
def lines : Str → Str → List Str
  | acc, [] => if acc.isEmpty then [] else [acc]
  | acc, c :: cs => if c = '\n' then (acc ++ [c]) :: lines [] cs else lines (acc ++ [c]) cs

/-- `line.find(c)`. scripts/unicode_table_generators.py:84, 102. -/
def find (c : Char) (line : Str) : Option Nat := line.findIdx? (· == c)

/-- `line.find(c, start)`. scripts/unicode_table_generators.py:105, 281. -/
def findFrom (c : Char) (start : Nat) (line : Str) : Option Nat :=
  (find c (line.drop start)).map (· + start)

/-- `line.find(RANGE_DIVIDER)`. scripts/unicode_table_generators.py:113, 137, 206, 239, 303. -/
def findDivider : Str → Option Nat
  | [] => none
  | c :: cs => if ['.', '.'].isPrefixOf (c :: cs) then some 0 else (findDivider cs).map (· + 1)

/-- The value of a hexadecimal digit. Part of `int(s, 16)`,
scripts/unicode_table_generators.py:115-119. -/
def hexVal (c : Char) : Option Nat :=
  let n := c.toNat
  if 48 ≤ n ∧ n ≤ 57 then some (n - 48)
  else if 65 ≤ n ∧ n ≤ 70 then some (n - 55)
  else if 97 ≤ n ∧ n ≤ 102 then some (n - 87)
  else none

/-- `int(s, 16)`. Simplification: signs, a leading `0x`, underscores and digits of other scripts,
which Python allows, are errors here. scripts/unicode_table_generators.py:115-119, 139-143. -/
def int16 (s : Str) : Option Nat :=
  let t := strip s
  if t.isEmpty then none
  else t.foldl (fun acc c => acc.bind fun a => (hexVal c).map fun d => a * 16 + d) (some 0)

/-- `re.compile(r'\d+\.\d+\.\d+')` at the beginning of a string. Simplification: only ASCII digits.
scripts/unicode_table_generators.py:89. -/
def versionHere (s : Str) : Bool :=
  let skip := fun (t : Str) => t.dropWhile Char.isDigit
  (s.head?.any Char.isDigit) &&
  match skip s with
  | '.' :: s1 => (s1.head?.any Char.isDigit) &&
    match skip s1 with
    | '.' :: s2 => s2.head?.any Char.isDigit
    | _ => false
  | _ => false

/-- `rc.search(line)`. scripts/unicode_table_generators.py:90. -/
def searchVersion : Str → Bool
  | [] => false
  | c :: cs => versionHere (c :: cs) || searchVersion cs

/-- `extract_version`, unicode_table_generators.py:83-94, without its output. -/
def extractVersion (content : Str) : Option Unit :=
  match find '\n' content with
  | none => none
  | some e => if searchVersion (content.take e) then some () else none

/-- `get_abbreviation`, scripts/unicode_table_generators.py:97-109: `some none` is Python's `None`. -/
def getAbbreviation (line : Str) : Option (Option (Nat × Str)) :=
  if line.isEmpty || line.head? == some '#' then some none
  else
    match find ';' line with
    | none => none
    | some sc =>
      let comment := (findFrom '#' sc line).getD line.length
      some (some (sc, strip ((line.take comment).drop (sc + 1))))

/-- The code points of a line, scripts/unicode_table_generators.py:136-144 (the same code at 205-213,
238-246 and 302-310). -/
def codePoints (sc : Nat) (line : Str) : Option (Nat × Nat) :=
  let line := strip (line.take sc)
  match findDivider line with
  | none => (int16 line).map fun start => (start, start)
  | some i =>
    (int16 (line.take i)).bind fun start => (int16 (line.drop (i + 2))).map fun last => (start, last)

/-- The loops over the lines of a file: what each line gives, `some none` for `continue`.
scripts/unicode_table_generators.py:128-144, 185-213, 222-246, 263-310. -/
def collect {α β : Type} (f : β → Option (Option α)) : List β → Option (List α)
  | [] => some []
  | l :: ls =>
    match f l with
    | none => none
    | some none => collect f ls
    | some (some x) => (collect f ls).map (x :: ·)

/-- The body of the loop of `extract_code_points`, scripts/unicode_table_generators.py:128-144. -/
def plainLine (abbrvs : List Str) (line : Str) : Option (Option (Nat × Nat)) :=
  let line := strip line
  match getAbbreviation line with
  | none => none
  | some none => some none
  | some (some (sc, abbrv)) =>
    if abbrvs.contains abbrv then (codePoints sc line).map some else some none

/-- `GraphemeClusterBreak`, scripts/unicode_table_generators.py:18-33. -/
def graphemeNames : List (Nat × String) := [(1, "CR"), (2, "LF"), (3, "Control"), (4, "Extend"),
  (5, "ZWJ"), (6, "Regional_Indicator"), (7, "Prepend"), (8, "SpacingMark"), (9, "L"), (10, "V"),
  (11, "T"), (12, "LV"), (13, "LVT"), (14, "Extended_Pictographic")]

/-- `LineBreak`, scripts/unicode_table_generators.py:37-76. -/
def lineNames : List (Nat × String) := [(1, "AL"), (2, "BA"), (3, "BB"), (4, "B2"), (5, "BK"),
  (6, "CB"), (7, "CL"), (8, "CM"), (9, "CP"), (10, "CR"), (11, "EB"), (12, "EM"), (13, "EX"),
  (14, "GL"), (15, "H2"), (16, "H3"), (17, "HY"), (18, "ID"), (19, "HL"), (20, "IN"), (21, "IS"),
  (22, "JL"), (23, "JT"), (24, "JV"), (25, "LF"), (26, "NL"), (27, "NS"), (28, "NU"), (29, "OP"),
  (30, "PO"), (31, "PR"), (32, "QU"), (33, "RI"), (34, "SP"), (35, "SY"), (36, "WJ"), (37, "ZW"),
  (38, "ZWJ")]

/-- The search for a member of an enumeration, scripts/unicode_table_generators.py:194-200 and
292-297. -/
def member (names : List (Nat × String)) (abbrv : Str) : Option Nat :=
  (names.find? fun m => m.2.toList == abbrv).map (·.1)

/-- The body of the first loop of `run_grapheme_cluster_break`,
scripts/unicode_table_generators.py:185-213. -/
def graphemeLine (line : Str) : Option (Option Range) :=
  let line := strip line
  match getAbbreviation line with
  | none => none
  | some none => some none
  | some (some (sc, abbrv)) =>
    (member graphemeNames abbrv).bind fun v =>
      (codePoints sc line).map fun r => some ⟨r.1, r.2, v⟩

/-- The body of the second loop of `run_grapheme_cluster_break`,
scripts/unicode_table_generators.py:222-246. -/
def emojiLine (line : Str) : Option (Option Range) :=
  let line := strip line
  match getAbbreviation line with
  | none => none
  | some none => some none
  | some (some (sc, abbrv)) =>
    if abbrv != "Extended_Pictographic".toList then some none
    else (codePoints sc line).map fun r => some ⟨r.1, r.2, 14⟩

/-- The class of a line, scripts/unicode_table_generators.py:272-297. -/
def lineClass (line : Str) (sc : Nat) (abbrv : Str) : Option Nat :=
  if abbrv == "AI".toList || abbrv == "SG".toList || abbrv == "XX".toList then some 1
  else if abbrv == "CJ".toList then some 27
  else if abbrv == "SA".toList then
    match findFrom '#' sc line with
    | none => none
    | some c =>
      let category := (line.take (c + 4)).drop (c + 2)
      if category == "Mn".toList || category == "Mc".toList then some 8 else some 1
  else member lineNames abbrv

/-- The body of the loop of `line_break`, scripts/unicode_table_generators.py:263-310. -/
def lineLine (line : Str) : Option (Option Range) :=
  let line := strip line
  match getAbbreviation line with
  | none => none
  | some none => some none
  | some (some (sc, abbrv)) =>
    (lineClass line sc abbrv).bind fun v =>
      (codePoints sc line).map fun r => some ⟨r.1, r.2, v⟩

/-- Insertion into a sorted list, before equal elements. Part of `sorted`,
scripts/unicode_table_generators.py:150. -/
def insertBy {α : Type} (key : α → Nat) (x : α) : List α → List α
  | [] => [x]
  | y :: ys => if key x ≤ key y then x :: y :: ys else y :: insertBy key x ys

/-- `sort_code_points`, scripts/unicode_table_generators.py:149-150: Python's `sorted` is stable. -/
def sortBy {α : Type} (key : α → Nat) : List α → List α
  | [] => []
  | x :: xs => insertBy key x (sortBy key xs)

/-- The hexadecimal digits of a number, least significant first. `fuel` bounds their number. Part of
the format at scripts/unicode_table_generators.py:156, 160. -/
def hexDigits : Nat → Nat → Str
  | 0, _ => []
  | fuel + 1, n =>
    "0123456789ABCDEF".toList.getD (n % 16) '0' :: (if n / 16 = 0 then [] else hexDigits fuel (n / 16))

/-- The format `{:06X}`. scripts/unicode_table_generators.py:156, 160. -/
def hex06 (n : Nat) : Str :=
  let ds := hexDigits (n + 1) n
  (ds ++ List.replicate (6 - ds.length) '0').reverse

/-- A row of three numbers, `print_code_points`, scripts/unicode_table_generators.py:155-158. -/
def row3 (r : Range) : Str :=
  "    {0x".toList ++ hex06 r.first ++ ", 0x".toList ++ hex06 r.last ++ ", 0x".toList ++ hex06 r.md ++
    "},".toList

/-- A row of two numbers, `print_code_points`, scripts/unicode_table_generators.py:159-161. -/
def row2 (r : Nat × Nat) : Str :=
  "    {0x".toList ++ hex06 r.1 ++ ", 0x".toList ++ hex06 r.2 ++ "},".toList

/-- The line before the rows, scripts/unicode_table_generators.py:170-171, 249-250, 313. -/
def header (name : String) (n : Nat) : Str :=
  "constexpr auto ".toList ++ name.toList ++ " = std::array<code_point::range, ".toList ++
    (toString n).toList ++ ">{{".toList

/-- The lines of a table. scripts/unicode_table_generators.py:170-173, 249-252, 313-315. -/
def table (name : String) (rows : List Str) : List Str :=
  header name rows.length :: rows ++ ["}};".toList]

/-- `run`, scripts/unicode_table_generators.py:164-173, without the lines about the source. -/
def runPlain (content : Str) (abbrvs : List Str) (name : String) : Option (List Str) :=
  (extractVersion content).bind fun _ =>
    (collect (plainLine abbrvs) (lines [] content)).map fun cps =>
      table name ((sortBy (·.1) cps).map row2)

/-- `run_grapheme_cluster_break`, scripts/unicode_table_generators.py:176-252, for the contents of
its two files. -/
def runGrapheme (content emoji : Str) : Option (List Str) :=
  (extractVersion content).bind fun _ =>
    (collect graphemeLine (lines [] content)).bind fun first =>
      (extractVersion emoji).bind fun _ =>
        (collect emojiLine (lines [] emoji)).map fun second =>
          table "grapheme_cluster_break_table" ((sortBy Range.first (first ++ second)).map row3)

/-- `line_break`, scripts/unicode_table_generators.py:255-315. -/
def runLine (content : Str) : Option (List Str) :=
  (extractVersion content).bind fun _ =>
    (collect lineLine (lines [] content)).map fun cps =>
      table "line_break_table" ((sortBy Range.first cps).map row3)

end ArgRouter.Tools.Tables
