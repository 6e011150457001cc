import Verif.Spec.Utf8
import Verif.Utf8.TableDoubleWidth
import Verif.Utf8.TableZeroWidth

/-! # Specification vocabulary for line wrapping -/

namespace ArgRouter.Spec

open ArgRouter.Utf8

/-- Columns of a scalar value according to the shipped tables (EastAsianWidth W/F entries take two
columns, otherwise combining/format entries none, otherwise one). -/
def columns (c : Char) : Nat :=
  if ∃ r ∈ doubleWidthTable, r.first ≤ c.toNat ∧ c.toNat ≤ r.last then 2
  else if ∃ r ∈ zeroWidthTable, r.first ≤ c.toNat ∧ c.toNat ≤ r.last then 0
  else 1

/-- `ls` are consecutive non-overlapping pieces of the text, starting at its beginning. Between two
pieces, and after the last one, only whitespace is left out. `P line after` holds for every piece
`line` that is followed in the text by `after`. -/
inductive Pieces (P : List Char → List Char → Prop) : List Char → List (List Char) → Prop
  | nil : Pieces P [] []
  | cons {line gap rest : List Char} {ls : List (List Char)}
      (hgap : ∀ c ∈ gap, isUnicodeWhitespace c = true)
      (hP : P line (gap ++ rest))
      (more : Pieces P rest ls) : Pieces P (line ++ gap ++ rest) (line :: ls)

theorem Pieces.imp {P Q : List Char → List Char → Prop} (h : ∀ l a, P l a → Q l a) :
    ∀ {t ls}, Pieces P t ls → Pieces Q t ls := by
  intro t ls hp
  induction hp with
  | nil => exact .nil
  | cons hgap hP _ ih => exact .cons hgap (h _ _ hP) ih

/-- Every piece satisfies `P` for some following text. -/
theorem Pieces.forall {P : List Char → List Char → Prop} {t ls} (h : Pieces P t ls) :
    ∀ l ∈ ls, ∃ after, P l after := by
  induction h with
  | nil => simp
  | cons _ hP _ ih =>
    intro l hl
    rcases List.mem_cons.1 hl with rfl | hl
    · exact ⟨_, hP⟩
    · exact ih l hl

end ArgRouter.Spec
