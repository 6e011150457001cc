import Verif.Spec.Links
import Verif.Spec.Route
import Verif.Spec.Blame

/-!
# Specification vocabulary: what a command line can select
-/

namespace ArgRouter.Spec

/-- A mode that is switched off and has a name. -/
def NamedButOff (mode : Node) : Prop := Disabled mode ∧ mode.noneName.isSome = true

/-- The mode is the given one, or can be reached from it by way of modes inside modes, none of which
is switched off. -/
inductive Reached : Node → Node → Prop
  | here {m : Node} : m.kind = .mode → ¬ NamedButOff m → Reached m m
  | inside {m c n : Node} : m.kind = .mode → ¬ NamedButOff m → c ∈ m.children → Reached c n →
      Reached m n

/-- The node is an argument of the mode: it is in a child that is not a mode itself. -/
def ArgumentOf (mode n : Node) : Prop := ∃ c ∈ mode.children, c.kind ≠ .mode ∧ n ∈ c.nodes

/-- The argument can be selected in the mode: it is one of its arguments and not switched off, or an
argument that is not switched off is an alias for it. -/
def Selectable (mode n : Node) : Prop :=
  (ArgumentOf mode n ∧ ¬ Disabled n) ∨
  ∃ a refs, ArgumentOf mode a ∧ ¬ Disabled a ∧ .alias refs ∈ a.policies ∧ NamedIn refs n ∧
    n ∈ mode.nodes

/-- The value is within the bounds of the argument and no policy of the user's on it objects. Flags
are not checked by themselves: their value is `true`, or counted with the other uses. -/
def ChecksOut (n : Node) (v : Value) : Prop :=
  n.kind ≠ .flag → n.kind ≠ .countingFlag → InBounds n v ∧ Approved n v

/-- An argument of the program itself (not of a mode) that is not switched off handled the command
line: it has no router, or it is the help and showed a text, or its router was called with the value
that parts of the command line stand for, which is within its bounds. -/
def HandledOnTop (root : Node) (argv : List Bytes) (calls : List Call) : Prop :=
  ∃ c ∈ root.children, c.kind ≠ .mode ∧ ∃ x ∈ c.nodes, ¬ Disabled x ∧
    (calls = [] ∨ (x.kind = .help ∧ ∃ text, calls = [⟨x.uid, [.one (.str text)]⟩]) ∨
      ∃ l v, l.node = x ∧ (∀ t ∈ l.tokens, Typed argv t) ∧ UseValue l v ∧
        ChecksOut x v ∧ calls = [⟨x.uid, [v]⟩])

/-- Where the value passed for child number `i` of the mode, which is `c`, comes from: the child was
not given and the value is its fallback, or it is the value that parts of the command line stand for,
for an argument that can be selected and is found in this child first, and is within the bounds of that
argument. -/
def Sourced (argv : List Bytes) (mode : Node) (i : Nat) (c : Node) (v : Value) : Prop :=
  Fallback c v ∨ ∃ l, IsFor mode.children l i ∧ Selectable mode l.node ∧
    (∀ t ∈ l.tokens, Typed argv t) ∧ UseValue l v ∧ ChecksOut l.node v

end ArgRouter.Spec
