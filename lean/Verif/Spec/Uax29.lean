import Verif.Utf8.Grapheme

/-!
# Extended grapheme clusters

The rules of Unicode Standard Annex 29 (version 14, "Unicode Text Segmentation", section 3.1.1), for
texts given by the classes of their characters. The class of a character is that of its entry in the
shipped table (which is data; `C95` is about its origin, and `C127` compares it with the properties
that Unicode gives the characters).
-/

namespace ArgRouter.Spec.Uax29

open ArgRouter.Utf8

/-- The class of a character: the one of its row in the table, `any` if it has none. -/
def classOf (c : Char) : GClass :=
  match graphemeTable.find? fun r => decide (r.first ≤ c.toNat ∧ c.toNat ≤ r.last) with
  | some r => GClass.ofMeta r.md
  | none => .any

/-- `Control`, `CR` and `LF`. -/
def isControl (c : GClass) : Bool := c == .control || c == .CR || c == .LF

/-- The number of regional indicators right before a position. -/
def indicators : List GClass → Nat
  | .regional_indicator :: h => indicators h + 1
  | _ => 0

/-- The text before a position ends with `ExtPict Extend*`. -/
def endsWithPictograph : List GClass → Bool
  | .extend :: h => endsWithPictograph h
  | .extended_pictographic :: _ => true
  | _ => false

/-- The rules, in their order: whether there is no boundary between the characters of the classes
`before`, the last one first, and a character of the class `next`. -/
def joins (before : List GClass) (next : GClass) : Bool :=
  match before with
  | [] => false                                                                           -- GB1
  | last :: earlier =>
    if last = .CR ∧ next = .LF then true                                                  -- GB3
    else if isControl last then false                                                     -- GB4
    else if isControl next then false                                                     -- GB5
    else if last = .L ∧ (next = .L ∨ next = .V ∨ next = .LV ∨ next = .LVT) then true      -- GB6
    else if (last = .LV ∨ last = .V) ∧ (next = .V ∨ next = .T) then true                  -- GB7
    else if (last = .LVT ∨ last = .T) ∧ next = .T then true                               -- GB8
    else if next = .extend ∨ next = .ZWJ then true                                        -- GB9
    else if next = .spacing_mark then true                                                -- GB9a
    else if last = .prepend then true                                                     -- GB9b
    else if last = .ZWJ ∧ endsWithPictograph earlier = true ∧
        next = .extended_pictographic then true                                           -- GB11
    else if next = .regional_indicator ∧ indicators before % 2 = 1 then true              -- GB12, GB13
    else false                                                                            -- GB999

/-- The parts of a text meet after its first `i` characters. -/
def CutAt (parts : List (List Char)) (i : Nat) : Prop := ∃ k, ((parts.take k).flatten).length = i

/-- The places where the library does not follow the rules: between a control character and a mark
(GB4), between a prefix and a control character (GB5), after a joiner that does not follow a pictograph
(GB11), and after more than sixteen regional indicators if their number is odd (GB12, GB13). -/
def Exceptional (before : List GClass) (next : GClass) : Prop :=
  match before with
  | [] => False
  | last :: earlier =>
    (isControl last = true ∧ (next = .extend ∨ next = .ZWJ ∨ next = .spacing_mark)) ∨
    (last = .prepend ∧ isControl next = true) ∨
    (last = .ZWJ ∧ next = .extended_pictographic ∧ endsWithPictograph earlier = false) ∨
    (next = .regional_indicator ∧ indicators before % 2 = 1 ∧ 16 < indicators before)

instance (before : List GClass) (next : GClass) : Decidable (Exceptional before next) := by
  unfold Exceptional; split <;> infer_instance

end ArgRouter.Spec.Uax29
