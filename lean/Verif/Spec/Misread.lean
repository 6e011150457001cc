import Verif.Spec.Spill
import Verif.Spec.Wrap
import Verif.Spec.Uax29

/-!
# What text is read as

Well-formed text is a list of characters; the code reads it as a list of numbers. They are the
characters' own numbers, except from a character with the lead byte DF or EF on: that character is
completed with the first byte of the next one, what is left of the next one is read as characters of two
bytes, and so on until nothing is left over.
-/

namespace ArgRouter.Spec

open ArgRouter.Utf8

/-- The number of a character with the lead byte DF or EF that is about to be read one byte too long:
without the topmost bit(s), which the longer form has no room for. -/
def stretched (c : Char) : Nat := if c.toNat < 0x800 then c.toNat % 1024 else c.toNat % 32768

/-- The low six bits of the first byte of a character. -/
def firstBits (c : Char) : Nat := ((encChar c).headD 0).toNat % 64

/-- The numbers that a text is read as. `pending` is a number still to be completed with the first byte
of the text. -/
def readAs (pending : Option Nat) : List Char → List Nat
  | [] => []
  | c :: cs =>
    match pending with
    | none =>
      if leadDForEF c then readAs (some (stretched c)) cs else c.toNat :: readAs none cs
    | some n =>
      (n * 64 + firstBits c) ::
        match (encChar c).length with
        | 1 => readAs none cs
        | 2 => readAs (some (c.toNat % 32)) cs
        | 3 => c.toNat % 2048 :: readAs none cs
        | _ => c.toNat / 64 % 2048 :: readAs (some (c.toNat % 32)) cs

/-- The numbers of Unicode's White_Space characters (see `isUnicodeWhitespace`). -/
def spaceNumber (n : Nat) : Bool :=
  (0x9 ≤ n && n ≤ 0xD) || n == 0x20 || n == 0x85 || n == 0xA0 || n == 0x1680 ||
  (0x2000 ≤ n && n ≤ 0x200A) || n == 0x2028 || n == 0x2029 || n == 0x202F || n == 0x205F || n == 0x3000

/-- The columns of the character with a number (see `columns`). -/
def columnsOf (n : Nat) : Nat :=
  if ∃ r ∈ doubleWidthTable, r.first ≤ n ∧ n ≤ r.last then 2
  else if ∃ r ∈ zeroWidthTable, r.first ≤ n ∧ n ≤ r.last then 0
  else 1

/-- The class of the character with a number (see `Uax29.classOf`). -/
def clusterClassOf (n : Nat) : GClass :=
  match graphemeTable.find? fun r => decide (r.first ≤ n ∧ n ≤ r.last) with
  | some r => GClass.ofMeta r.md
  | none => .any

/-- The classes of the first `i` of some numbers, the last one first. -/
def clusterClassesBefore (ns : List Nat) (i : Nat) : List GClass := ((ns.take i).map clusterClassOf).reverse

end ArgRouter.Spec
