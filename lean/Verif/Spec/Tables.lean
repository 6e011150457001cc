import Verif.Utf8.Grapheme
import Verif.Utf8.Line

/-!
# Data files of the Unicode character database

The format of the files (UAX #44, section 4.2): lines with a code point or a range of code points, a
semicolon and a property, comments after `#`. And what a C++ table looks like.
-/

namespace ArgRouter.Spec.Ucd

open ArgRouter.Utf8

/-- The digits from 0 to 15, written with small or capital letters. -/
def hexDigit (capital : Bool) (d : Nat) : Char :=
  (if capital then "0123456789ABCDEF" else "0123456789abcdef").toList.getD d '0'

/-- A number in hexadecimal digits. -/
def IsHex (s : List Char) (n : Nat) : Prop :=
  s ≠ [] ∧ ∃ ds : List (Bool × Nat), (∀ d ∈ ds, d.2 < 16) ∧
    s = ds.map (fun d => hexDigit d.1 d.2) ∧ n = ds.foldl (fun a d => 16 * a + d.2) 0

/-- A line of a data file: the code points from `first` to `last` have the property `name`. The general
category of the code points is at the beginning of the comment of some files. -/
structure Entry where
  first : Nat
  last : Nat
  name : String
  category : Option String

/-- Spaces, tabs and the carriage return at the end of a line. -/
def Blank (s : List Char) : Prop := ∀ c ∈ s, c = ' ' ∨ c = '\t' ∨ c = '\r'

/-- One code point or a range. -/
def IsRange (s : List Char) (first last : Nat) : Prop :=
  (IsHex s first ∧ last = first) ∨
    ∃ s1 s2, s = s1 ++ "..".toList ++ s2 ∧ IsHex s1 first ∧ IsHex s2 last

/-- Letters, digits and underscores. -/
def IsName (s : List Char) : Prop := s ≠ [] ∧ ∀ c ∈ s, c.isAlphanum = true ∨ c = '_'

/-- The end of a line: nothing or a comment, which may begin with the general category. -/
inductive IsRest : List Char → Option String → Prop where
  | nothing : IsRest [] none
  | comment {s : List Char} : '\n' ∉ s → IsRest ('#' :: s) none
  | category {x y : Char} {s : List Char} : x.isAlpha = true → y.isAlpha = true → '\n' ∉ s →
      IsRest ('#' :: ' ' :: x :: y :: s) (some (String.ofList [x, y]))

/-- A line of a data file and the entry in it. -/
inductive IsLine : List Char → Option Entry → Prop where
  | blank {s : List Char} : Blank s → IsLine s none
  | comment {w s : List Char} : Blank w → '\n' ∉ s → IsLine (w ++ '#' :: s) none
  | entry {w0 r w1 w2 n w3 t : List Char} {e : Entry} : Blank w0 → Blank w1 → Blank w2 → Blank w3 →
      IsRange r e.first e.last → IsName n → n = e.name.toList → IsRest t e.category →
      IsLine (w0 ++ r ++ w1 ++ ';' :: (w2 ++ n ++ w3 ++ t)) (some e)

/-- A data file and its entries. -/
inductive IsFile : List Char → List Entry → Prop where
  | empty : IsFile [] []
  | line {l rest : List Char} {e : Option Entry} {es : List Entry} : IsLine l e → IsFile rest es →
      IsFile (l ++ '\n' :: rest) (e.toList ++ es)

/-- The version of the database is in the first line of the file. -/
def HasVersion (content : List Char) : Prop :=
  ∃ pre a b c post rest : List Char, content = pre ++ a ++ '.' :: (b ++ '.' :: (c ++ post)) ++ '\n' :: rest ∧
    '\n' ∉ pre ∧ '\n' ∉ post ∧
    ∀ s ∈ [a, b, c], s ≠ [] ∧ ∀ d ∈ s, d.isDigit = true

/-- Each code point is in at most one of the entries, and is a code point. -/
def Consistent (es : List Entry) : Prop :=
  (∀ e ∈ es, e.first ≤ e.last ∧ e.last ≤ 0x10FFFF) ∧
  es.Pairwise fun e f => e.last < f.first ∨ f.last < e.first

/-- A row of a C++ table with these numbers. -/
def IsRow (s : List Char) (first last : Nat) (md : Option Nat) : Prop :=
  ∃ s1 s2, IsHex s1 first ∧ IsHex s2 last ∧
    match md with
    | none => s = "    {0x".toList ++ s1 ++ ", 0x".toList ++ s2 ++ "},".toList
    | some m => ∃ s3, IsHex s3 m ∧
        s = "    {0x".toList ++ s1 ++ ", 0x".toList ++ s2 ++ ", 0x".toList ++ s3 ++ "},".toList

/-- The definition of a C++ table with these rows. -/
def IsTable (name : String) (text : List (List Char)) (rows : List (Nat × Nat × Option Nat)) : Prop :=
  ∃ body : List (List Char),
    text = ("constexpr auto " ++ name ++ " = std::array<code_point::range, " ++ toString rows.length ++
      ">{{").toList :: body ++ ["}};".toList] ∧
    body.length = rows.length ∧
    ∀ (i : Nat) (s : List Char) (r : Nat × Nat × Option Nat), body[i]? = some s → rows[i]? = some r →
      IsRow s r.1 r.2.1 r.2.2

/-- What such a table is at run time: the ranges are packed by the constructor of `code_point::range`. -/
def loaded (rows : List (Nat × Nat × Option Nat)) : List Range :=
  rows.map fun r =>
    let p := Packed.mk' (UInt32.ofNat r.1) (UInt32.ofNat r.2.1) (UInt8.ofNat (r.2.2.getD 0))
    ⟨p.first.toNat, p.last.toNat, p.md.toNat⟩

/-- The grapheme cluster break classes by their names in the database. -/
def graphemeClass : String → Option GClass
  | "CR" => some .CR | "LF" => some .LF | "Control" => some .control | "Extend" => some .extend
  | "ZWJ" => some .ZWJ | "Regional_Indicator" => some .regional_indicator
  | "Prepend" => some .prepend | "SpacingMark" => some .spacing_mark | "L" => some .L
  | "V" => some .V | "T" => some .T | "LV" => some .LV | "LVT" => some .LVT
  | "Extended_Pictographic" => some .extended_pictographic
  | _ => none

/-- The line break classes by their names in the database, after the resolution of UAX #14, LB1:
ambiguous, surrogate and unknown characters are alphabetic, conditional Japanese starters are
nonstarters, and South East Asian characters are combining marks or alphabetic according to their
general category. -/
def lineBreakClass (name : String) (category : Option String) : Option LClass :=
  match name with
  | "AI" => some .AL | "SG" => some .AL | "XX" => some .AL | "CJ" => some .NS
  | "SA" =>
    match category with
    | some "Mn" => some .CM
    | some "Mc" => some .CM
    | some _ => some .AL
    | none => none
  | "AL" => some .AL | "BA" => some .BA | "BB" => some .BB | "B2" => some .B2 | "BK" => some .BK
  | "CB" => some .CB | "CL" => some .CL | "CM" => some .CM | "CP" => some .CP | "CR" => some .CR
  | "EB" => some .EB | "EM" => some .EM | "EX" => some .EX | "GL" => some .GL | "H2" => some .H2
  | "H3" => some .H3 | "HY" => some .HY | "ID" => some .ID | "HL" => some .HL | "IN" => some .IN_
  | "IS" => some .IS | "JL" => some .JL | "JT" => some .JT | "JV" => some .JV | "LF" => some .LF
  | "NL" => some .NL | "NS" => some .NS | "NU" => some .NU | "OP" => some .OP | "PO" => some .PO
  | "PR" => some .PR | "QU" => some .QU | "RI" => some .RI | "SP" => some .SP | "SY" => some .SY
  | "WJ" => some .WJ | "ZW" => some .ZW | "ZWJ" => some .ZWJ
  | _ => none

end ArgRouter.Spec.Ucd
