import Verif.Spec.Help
import Verif.Spec.Uax14
import Verif.Spec.Utf8
import Verif.Spec.Wrap

/-!
# The help page

What a page of help looks like, from the first line to the last (README.md, "Help Output").
-/

namespace ArgRouter.Spec

/-- A line of the page is about a node at a depth below the one whose help is shown. If the node belongs
to a group, `place` is how many members the group shows and which one this is. -/
structure HelpLine where
  depth : Nat
  place : Option (Nat × Nat)
  node : Node

mutual
/-- The lines about what is below a node: all members of a group; nothing for a mode whose contents are
left out; and otherwise each child followed by what is below it. Nodes that are `hidden` are left out
with everything below them. -/
def linesBelow (hidden : Node → Bool) (flatten : Bool) (depth : Nat) : Node → List HelpLine
  | .mk kind uid hash type policies children =>
    if IsGroup (.mk kind uid hash type policies children) then
      let members := children.filter fun c => !hidden c
      members.mapIdx fun i c => ⟨depth, some (members.length, i), c⟩
    else if Closed flatten (.mk kind uid hash type policies children) then []
    else linesOf hidden flatten depth children
/-- The lines about some children. -/
def linesOf (hidden : Node → Bool) (flatten : Bool) (depth : Nat) : List Node → List HelpLine
  | [] => []
  | c :: cs =>
    (if hidden c then [] else ⟨depth, none, c⟩ :: linesBelow hidden flatten (depth + 1) c) ++
      linesOf hidden flatten depth cs
end

/-- The lines of the page about a node. -/
def helpLines (hidden : Node → Bool) (flatten : Bool) (target : Node) : List HelpLine :=
  ⟨0, none, target⟩ :: linesBelow hidden flatten 1 target

/-- The part of a bracket before the label of a member of a group. -/
def HelpLine.bar (l : HelpLine) : Bytes :=
  match l.place with
  | some (m, i) => barAt m i
  | none => []

/-- The description of a node, if it has one. Groups and root show none. -/
inductive DescribedAs (n : Node) : Bytes → Prop where
  | text {d} : n.kind ≠ .root → ¬ IsGroup n → Policy.description d ∈ n.policies → DescribedAs n d
  | none : n.kind = .root ∨ IsGroup n ∨ (∀ d, Policy.description d ∉ n.policies) → DescribedAs n []

/-- The column at which all descriptions start: the smallest that leaves `ind` columns after the label
of every node, whether hidden or not, where each member of a group counts with a bracket. -/
def IsColumn (Num : Int → Bytes → Prop) (info : HelpInfo) (ind : Nat) (flatten : Bool) (target : Node)
    (D : Nat) : Prop :=
  let needs (l : HelpLine) (e : Nat) : Prop := ∃ label w, LabelText Num info l.node label ∧
    Utf8.terminalWidth label = .ok w ∧ e = l.depth * ind + (if l.place.isSome then 2 else 0) + w + ind
  (∀ l ∈ helpLines (fun _ => false) flatten target, ∃ e, needs l e ∧ e ≤ D) ∧
    ∃ l ∈ helpLines (fun _ => false) flatten target, needs l D

/-- The lines a description is written in, if at most `limit` columns are left: consecutive parts that
fit, between which only whitespace is left out; and those of greedy wrapping if the text is usual. -/
def Wrapped (limit : Nat) (d : Bytes) (ls : List Bytes) : Prop :=
  ∀ cs : List Char, d = enc cs → Plain cs → 0 < limit → ∃ parts : List (List Char),
    ls = parts.map enc ∧ Pieces (fun line _ => line ≠ [] ∧ (line.map columns).sum ≤ limit) cs parts ∧
    (Uax14.UsualText cs → Uax14.Greedy columns isUnicodeWhitespace Uax14.CanEnd limit [] cs parts)

/-- How a line is written: not at all without a label; the indented label behind its bar; and, if the
node has a description, that from column `D` on in lines that are `limit` columns wide at most, all but
the first preceded by `D` spaces. -/
inductive LineText (Num : Int → Bytes → Prop) (info : HelpInfo) (ind D limit : Nat) (l : HelpLine) :
    Bytes → Prop where
  | unlabelled : LabelText Num info l.node [] → l.bar = [] → LineText Num info ind D limit l []
  | label {t} : LabelText Num info l.node t → l.bar ++ t ≠ [] → DescribedAs l.node [] →
      LineText Num info ind D limit l (blanks (l.depth * ind) ++ l.bar ++ t ++ b "\n")
  | described {t d w gap ls} : LabelText Num info l.node t → l.bar ++ t ≠ [] → DescribedAs l.node d →
      d ≠ [] → Utf8.terminalWidth (l.bar ++ t) = .ok w → l.depth * ind + w + gap = D → ind ≤ gap →
      Wrapped limit d ls →
      LineText Num info ind D limit l
        (blanks (l.depth * ind) ++ l.bar ++ t ++ blanks gap ++ (b "\n" ++ blanks D).intercalate ls ++ b "\n")

/-- How a line is written in colour: the codes for red and green text are before the label and before the
description, and the code that ends both is after the end of the line. There are
at least `least` spaces before the label. -/
inductive ColourText (least : Nat) (Num : Int → Bytes → Prop) (info : HelpInfo) (ind D limit : Nat)
    (l : HelpLine) : Bytes → Prop where
  | unlabelled : LabelText Num info l.node [] → l.bar = [] → ColourText least Num info ind D limit l []
  | label {t} : LabelText Num info l.node t → l.bar ++ t ≠ [] → DescribedAs l.node [] →
      ColourText least Num info ind D limit l
        (b "\x1b[31m" ++ blanks (max least (l.depth * ind)) ++ l.bar ++ t ++ b "\n\x1b[0m")
  | described {t d w gap ls} : LabelText Num info l.node t → l.bar ++ t ≠ [] → DescribedAs l.node d →
      d ≠ [] → Utf8.terminalWidth (l.bar ++ t) = .ok w → l.depth * ind + w + gap = D → ind ≤ gap →
      Wrapped limit d ls →
      ColourText least Num info ind D limit l
        (b "\x1b[31m" ++ blanks (max least (l.depth * ind)) ++ l.bar ++ t ++ b "\x1b[32m" ++ blanks gap ++
          (b "\n" ++ blanks D).intercalate ls ++ b "\n\x1b[0m")

/-- A page about a node, on a terminal of `width` columns: heading, lines and closing, where `write D limit`
says how a line is written. Descriptions use the columns from `D` on if there are at least as many as the
format asks for, and are not wrapped otherwise. -/
def PageOf (write : Nat → Nat → HelpLine → Bytes → Prop) (hidden : Node → Bool) (Num : Int → Bytes → Prop)
    (f : HelpFormat) (info : HelpInfo) (width : Nat) (flatten : Bool) (target : Node) (out : Bytes) : Prop :=
  ∃ (D : Nat) (head : Bytes) (texts : List Bytes) (tail : Bytes),
    out = head ++ texts.flatten ++ tail ∧ Heading f head ∧ Closing f tail ∧
    IsColumn Num info f.indent flatten target D ∧
    Zip (write D ((if D + f.offset ≤ width then width else 2 ^ 64 - 1) - D))
      (helpLines hidden flatten target) texts

/-- The page of the default formatter: it leaves out what is switched off. -/
def Page (Num : Int → Bytes → Prop) (f : HelpFormat) (info : HelpInfo) (width : Nat) (flatten : Bool)
    (target : Node) (out : Bytes) : Prop :=
  PageOf (LineText Num info f.indent) SwitchedOff Num f info width flatten target out

/-- The page of the colour formatter: even a label that is not indented has a space before it (C51). -/
def ColourPage (Num : Int → Bytes → Prop) (f : HelpFormat) (info : HelpInfo) (width : Nat) (flatten : Bool)
    (target : Node) (out : Bytes) : Prop :=
  PageOf (ColourText 1 Num info f.indent) SwitchedOff Num f info width flatten target out

/-- The page of the default formatter that is made at compile time: nothing is left out. -/
def FullPage (Num : Int → Bytes → Prop) (f : HelpFormat) (info : HelpInfo) (width : Nat) (flatten : Bool)
    (target : Node) (out : Bytes) : Prop :=
  PageOf (LineText Num info f.indent) (fun _ => false) Num f info width flatten target out

/-- The same for the colour formatter. -/
def FullColourPage (Num : Int → Bytes → Prop) (f : HelpFormat) (info : HelpInfo) (width : Nat)
    (flatten : Bool) (target : Node) (out : Bytes) : Prop :=
  PageOf (ColourText 0 Num info f.indent) (fun _ => false) Num f info width flatten target out

end ArgRouter.Spec
