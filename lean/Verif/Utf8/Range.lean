import Verif.Utf8.CodePoint

/-!
# Packed code point ranges and table lookup

Model of `code_point::range` (code_point.hpp:21-122) and `detail::find_range` (utf8.hpp:20-43).
-/

namespace ArgRouter.Utf8

/-- The six bytes of a `code_point::range`, code_point.hpp:120-121. -/
structure Packed where
  d0 : UInt8
  d1 : UInt8
  d2 : UInt8
  d3 : UInt8
  d4 : UInt8
  d5 : UInt8
  deriving DecidableEq, Repr

/-- Constructor of `code_point::range`, code_point.hpp:32-56. Stores of a 32-bit value into a byte
truncate (`toUInt8`); the values are masked before the store. -/
def Packed.mk' (first last : UInt32) (md : UInt8) : Packed where
  d0 := (first &&& 0xFF).toUInt8
  d1 := ((first >>> 8) &&& 0xFF).toUInt8
  d2 := ((first >>> 16) &&& 0x1F).toUInt8 ||| ((last &&& 0x7) <<< 5).toUInt8
  d3 := ((last >>> 3) &&& 0xFF).toUInt8
  d4 := ((last >>> 11) &&& 0xFF).toUInt8
  d5 := ((last >>> 19) &&& 0x3).toUInt8 ||| ((md &&& 0x3F) <<< 2)

/-- `range::first`, code_point.hpp:62-71. -/
def Packed.first (p : Packed) : UInt32 :=
  p.d0.toUInt32 ||| (p.d1.toUInt32 <<< 8) ||| ((p.d2.toUInt32 &&& 0x1F) <<< 16)

/-- `range::last`, code_point.hpp:77-87. -/
def Packed.last (p : Packed) : UInt32 :=
  ((p.d2.toUInt32 >>> (5 : UInt32)) &&& (0x7 : UInt32)) ||| (p.d3.toUInt32 <<< 3) ||| (p.d4.toUInt32 <<< 11) |||
    ((p.d5.toUInt32 &&& 0x3) <<< 19)

/-- `range::meta`, code_point.hpp:93-97. -/
def Packed.md (p : Packed) : UInt8 := (p.d5 >>> 2) &&& 0x3F

/-- A table entry as seen through `first()`, `last()`, `meta()`. Simplification: the shipped tables
are stated with these three numbers instead of the six packed bytes; `C37` (Props/Tables.lean)
shows that nothing is lost by that. utility/utf8/code_point.hpp:62-97. -/
structure Range where
  first : Nat
  last : Nat
  md : Nat
  deriving DecidableEq, Repr

/-- Loop of `detail::find_range`, utf8.hpp:25-42. `first`/`len` are the loop variables (`first` as
an index). The proof argument shows that every access is inside the table; `fuel` bounds the number
of iterations. -/
def findRangeAux (t : List Range) (cp : Nat) :
    (fuel first len : Nat) → first + len ≤ t.length → Option Range
  | 0, _, _, _ => none
  | fuel + 1, first, len, h =>
    if hl : len = 0 then none
    else
      let step := len / 2
      have hi : first + len / 2 < t.length := by omega
      let halfway := t[first + step]
      if cp < halfway.first then
        findRangeAux t cp fuel first step (by omega)
      else if cp ≤ halfway.last then some halfway
      else findRangeAux t cp fuel (first + step + 1) (len - (step + 1)) (by omega)

/-- `detail::find_range`, utf8.hpp:20-43. -/
def findRange (t : List Range) (cp : Nat) : Option Range :=
  findRangeAux t cp (t.length + 1) 0 t.length (by omega)

end ArgRouter.Utf8
