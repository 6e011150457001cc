import Verif.Utf8.Line

/-!
# Line breaking

The rules of Unicode Standard Annex 14 (version 14, "Unicode Line Breaking Algorithm", section 6), for
texts given by the classes of their characters, and greedy wrapping at the opportunities they give. The
class of a character is that of its entry in the shipped table, in which the classes AI, SG, XX, SA and
CJ are resolved as in LB1 (`C95`). The second half of LB30b, on unassigned pictographs, is left out: it
needs data the library does not have.
-/

namespace ArgRouter.Spec.Uax14

open ArgRouter.Utf8

/-- The line breaking class of a character: the one of its row in the table, `any` if it has none. -/
def classOf (c : Char) : LClass :=
  match lineTable.find? fun r => decide (r.first ≤ c.toNat ∧ c.toNat ≤ r.last) with
  | some r => LClass.ofMeta r.md
  | none => .any

/-- What the rules look at: the class of a character and whether it is wide. -/
structure Item where
  cls : LClass
  wide : Bool
  deriving DecidableEq

def itemOf (c : Char) : Item :=
  ⟨classOf c, doubleWidthTable.any fun r => decide (r.first ≤ c.toNat ∧ c.toNat ≤ r.last)⟩

/-- Combining marks and joiners are part of the character before them, unless that is one of these. -/
def takesNoMarks : List LClass := [.BK, .CR, .LF, .NL, .SP, .ZW]

/-- LB1 for characters without a class. -/
def known (i : Item) : Item := if i.cls = .any then ⟨.AL, i.wide⟩ else i

def isMark (i : Item) : Bool := i.cls == .CM || i.cls == .ZWJ

/-- LB9 and LB10, for the characters before a position, the last one first: marks are left out after a
character that takes them, and treated as AL otherwise. -/
def resolve : List Item → List Item
  | [] => []
  | i :: before =>
    if isMark i then
      match resolve before with
      | [] => [⟨.AL, false⟩]
      | j :: rest => if takesNoMarks.contains j.cls then ⟨.AL, false⟩ :: j :: rest else j :: rest
    else known i :: resolve before

/-- The class before the spaces at the end. -/
def beforeSpaces : List Item → Option LClass
  | [] => none
  | i :: before => if i.cls = .SP then beforeSpaces before else some i.cls

/-- The number of regional indicators at the end. -/
def indicators : List Item → Nat
  | [] => 0
  | i :: before => if i.cls = .RI then indicators before + 1 else 0

/-- The rules `A × B` from LB21b to LB30b, without the conditions on width of LB30. -/
def pairs : List (List LClass × List LClass) := [
  ([.SY], [.HL]),                                                             -- LB21b
  ([.AL, .HL], [.NU]), ([.NU], [.AL, .HL]),                                   -- LB23
  ([.PR], [.ID, .EB, .EM]), ([.ID, .EB, .EM], [.PO]),                         -- LB23a
  ([.PR, .PO], [.AL, .HL]), ([.AL, .HL], [.PR, .PO]),                         -- LB24
  ([.CL], [.PO]), ([.CP], [.PO]), ([.CL], [.PR]), ([.CP], [.PR]),             -- LB25
  ([.NU], [.PO]), ([.NU], [.PR]), ([.PO], [.OP]), ([.PO], [.NU]),
  ([.PR], [.OP]), ([.PR], [.NU]), ([.HY], [.NU]), ([.IS], [.NU]),
  ([.NU], [.NU]), ([.SY], [.NU]),
  ([.JL], [.JL, .JV, .H2, .H3]), ([.JV, .H2], [.JV, .JT]), ([.JT, .H3], [.JT]),  -- LB26
  ([.JL, .JV, .JT, .H2, .H3], [.PO]), ([.PR], [.JL, .JV, .JT, .H2, .H3]),     -- LB27
  ([.AL, .HL], [.AL, .HL]),                                                   -- LB28
  ([.IS], [.AL, .HL]),                                                        -- LB29
  ([.EB], [.EM])]                                                             -- LB30b

/-- The rules from LB11 on, in their order, for a position after the resolved characters
`last :: earlier` and before `next`: whether a break is allowed. -/
def allowedResolved (last : Item) (earlier : List Item) (next : Item) : Bool :=
  let spaced := beforeSpaces (last :: earlier)
  let l := last.cls
  let n := next.cls
  if l = .WJ ∨ n = .WJ then false                                                         -- LB11
  else if l = .GL then false                                                              -- LB12
  else if l ≠ .SP ∧ l ≠ .BA ∧ l ≠ .HY ∧ n = .GL then false                                -- LB12a
  else if n = .CL ∨ n = .CP ∨ n = .EX ∨ n = .IS ∨ n = .SY then false                      -- LB13
  else if spaced = some .OP then false                                                    -- LB14
  else if spaced = some .QU ∧ n = .OP then false                                          -- LB15
  else if (spaced = some .CL ∨ spaced = some .CP) ∧ n = .NS then false                    -- LB16
  else if spaced = some .B2 ∧ n = .B2 then false                                          -- LB17
  else if l = .SP then true                                                               -- LB18
  else if l = .QU ∨ n = .QU then false                                                    -- LB19
  else if l = .CB ∨ n = .CB then true                                                     -- LB20
  else if n = .BA ∨ n = .HY ∨ n = .NS ∨ l = .BB then false                                -- LB21
  else if (l = .HY ∨ l = .BA) ∧ (earlier.head?.map Item.cls) = some .HL then false        -- LB21a
  else if n = .IN_ then false                                                             -- LB22
  else if (l = .AL ∨ l = .HL ∨ l = .NU) ∧ n = .OP ∧ next.wide = false then false          -- LB30
  else if l = .CP ∧ last.wide = false ∧ (n = .AL ∨ n = .HL ∨ n = .NU) then false
  else if n = .RI ∧ indicators (last :: earlier) % 2 = 1 then false                       -- LB30a
  else !(pairs.any fun p => p.1.contains l && p.2.contains n)                             -- LB21b-LB31

/-- All rules: whether a line can end between the characters `before`, the last one first, and the
character `next`. -/
def allowed (before : List Item) (next : Item) : Bool :=
  match before with
  | [] => false                                                                           -- LB2
  | last :: _ =>
    if last.cls = .CR ∧ next.cls = .LF then false                                         -- LB5
    else if last.cls = .BK ∨ last.cls = .CR ∨ last.cls = .LF ∨ last.cls = .NL then true   -- LB4, LB5
    else if next.cls = .BK ∨ next.cls = .CR ∨ next.cls = .LF ∨ next.cls = .NL then false  -- LB6
    else if next.cls = .SP ∨ next.cls = .ZW then false                                    -- LB7
    else if beforeSpaces before = some .ZW then true                                      -- LB8
    else if last.cls = .ZWJ then false                                                    -- LB8a
    else if isMark next ∧ ¬ takesNoMarks.contains last.cls then false                     -- LB9
    else
      match resolve before with
      | [] => false
      | r :: earlier => allowedResolved r earlier (if isMark next then ⟨.AL, false⟩ else known next)

/-- The places at which the library is claimed to follow the rules. Excluded are: characters without a
class, marks and joiners; the places after line ends, after a zero width space, and at an object; the
place between a space and one of five classes; places after sixteen spaces or more than sixteen regional
indicators; and wide brackets. -/
structure Usual (before : List Item) (next : Item) : Prop where
  classes : ∀ i ∈ next :: before, i.cls ≠ .any ∧ i.cls ≠ .CM ∧ i.cls ≠ .ZWJ
  last : ∀ i ∈ before.head?, i.cls ≠ .BK ∧ i.cls ≠ .CR ∧ i.cls ≠ .LF ∧ i.cls ≠ .NL ∧ i.cls ≠ .CB
  object : next.cls ≠ .CB
  zero : beforeSpaces before ≠ some .ZW
  space : ∀ i ∈ before.head?, i.cls = .SP → next.cls ≠ .QU ∧ next.cls ≠ .BA ∧ next.cls ≠ .HY ∧
    next.cls ≠ .NS ∧ next.cls ≠ .IN_
  spaces : ¬ ((before.take 16).length = 16 ∧ ∀ i ∈ before.take 16, i.cls = .SP)
  flags : indicators before ≤ 16
  wide : next.cls = .OP → next.wide = false
  wide' : ∀ i ∈ before.head?, i.cls = .CP → i.wide = false

/-! ## Wrapping -/

/-- Where a line of at most `n` columns ends, if `after` is what follows it in the text and `opp line
after` says that it could end there: if the rest of the text fits it is the last line. If not, the line
ends at the last opportunity at which it is visible and fits. If there is none, it ends before the first
character that does not fit. -/
inductive EndsAt (columns : Char → Nat) (opp : List Char → List Char → Prop) (n : Nat)
    (line after : List Char) : Prop
  | whole (ends : after = []) (some : line ≠ []) (fits : (line.map columns).sum ≤ n)
  | opportunity (tooLong : n < ((line ++ after).map columns).sum) (can : opp line after)
      (visible : 0 < (line.map columns).sum) (fits : (line.map columns).sum ≤ n)
      (longest : ∀ more after', more ≠ [] → more ++ after' = after → opp (line ++ more) after' →
        n < ((line ++ more).map columns).sum)
  | full (tooLong : n < ((line ++ after).map columns).sum) (some : line ≠ [])
      (cannot : ∀ line' after', line' ++ after' = line ++ after → opp line' after' →
        (line'.map columns).sum = 0 ∨ n < (line'.map columns).sum)
      (fits : (line.map columns).sum ≤ n)
      (longest : ∃ c ∈ after.head?, n < ((line ++ [c]).map columns).sum)

/-- Greedy wrapping of the text that follows `before`: each line ends as `EndsAt` says, and whitespace
after it is left out. -/
inductive Greedy (columns : Char → Nat) (isSpace : Char → Bool)
    (opp : List Char → List Char → List Char → Prop) (n : Nat) :
    List Char → List Char → List (List Char) → Prop
  | nothing {before : List Char} : Greedy columns isSpace opp n before [] []
  | line {before line gap rest : List Char} {ls : List (List Char)}
      (ends : EndsAt columns (opp before) n line (gap ++ rest))
      (spaces : ∀ c ∈ gap, isSpace c = true) (start : ∀ c ∈ rest.head?, isSpace c = false)
      (more : Greedy columns isSpace opp n (before ++ line ++ gap) rest ls) :
      Greedy columns isSpace opp n before (line ++ gap ++ rest) (line :: ls)

/-- A line can end after `line` by the rules. -/
def CanEnd (before line after : List Char) : Prop :=
  line ≠ [] ∧ ∃ c ∈ after.head?, allowed ((before ++ line).reverse.map itemOf) (itemOf c) = true

/-- Texts for which the library is claimed to wrap by the rules: without the classes listed, wide
brackets, sixteen spaces in a row, or one of five classes after a space. -/
structure UsualText (cs : List Char) : Prop where
  classes : ∀ c ∈ cs, classOf c ∉ [.any, .CM, .ZWJ, .BK, .CR, .LF, .NL, .ZW, .CB, .RI, .HL]
  brackets : ∀ c ∈ cs, classOf c = .OP ∨ classOf c = .CP → (itemOf c).wide = false
  spaces : ∀ a b, cs ≠ a ++ List.replicate 16 ' ' ++ b
  afterSpace : ∀ a b c, cs = a ++ ' ' :: c :: b → classOf c ∉ [.QU, .BA, .HY, .NS, .IN_]

end ArgRouter.Spec.Uax14
