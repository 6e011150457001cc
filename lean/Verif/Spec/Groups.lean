import Verif.Spec.Route
import Verif.Spec.Cli
import Verif.Utf8.Grapheme

/-!
# Specification vocabulary: command lines made of labels with their values
-/

namespace ArgRouter.Spec

open Utf8

/-- The token is written with the short prefix, and this text comes after it. -/
def ShortText (cfg : Config) (t : Token) (x : Bytes) : Prop :=
  (t.pre = .short ∧ t.name = x) ∨
  (t.pre = .none ∧ t.name = cfg.shortPrefix ++ x ∧ ¬ cfg.longPrefix <+: t.name)

/-- A named argument that takes exactly `k` values: a flag or counting flag (`k = 0`, with or
without expansion of collapsed short flags), or an argument with a fixed count. -/
structure FixedCount (cfg : Config) (c : Node) (k : Nat) : Prop where
  leaf : c.kind ≠ .mode ∧ c.kind ≠ .aliasGroup ∧ c.kind ≠ .oneOf
  named : c.isNamed = true
  small : k < 2 ^ 63
  matching : MatchPolicies c [.minMaxCount k k] ∨
    (k = 0 ∧ MatchPolicies c [.shortFormExpander, .minMaxCount 0 0])

/-- The token is not for this argument: it is not its label, and, read as collapsed short flags, it
does not begin with it. -/
def NotFor (cfg : Config) (c : Node) (t : Token) : Prop :=
  ¬ IsLabel cfg c t ∧
  ∀ x, ShortText cfg t x → x ≠ [] ∧ ∃ gs, graphemes x = .ok gs ∧ gs.head? ≠ c.shortName

/-- An argument on the command line: which child of the mode it is for, how it is spelled, and its
values. -/
structure Group where
  child : Nat
  label : Token
  values : List Token

/-- The tokens of the group. -/
def Group.tokens (g : Group) : List Token := g.label :: g.values

/-- The group is for its child and for no child before it: the label is the child's, and the number
of values is what it takes. Nothing is asked of the children after it, so they may be positional. -/
def Group.Fits (cfg : Config) (children : List Node) (g : Group) : Prop :=
  ∃ c, children[g.child]? = some c ∧ FixedCount cfg c g.values.length ∧ IsLabel cfg c g.label ∧
    g.label.name ≠ [] ∧
    ∀ (j : Nat) (d : Node), j < g.child → children[j]? = some d →
      (∃ k, FixedCount cfg d k) ∧ NotFor cfg d g.label

/-- The use of an argument that the group is. -/
def Group.use (children : List Node) (g : Group) : List Leaf :=
  (children[g.child]?.map fun c => ⟨c, g.values⟩).toList

/-- No single-use child has two groups. -/
def NoRepeats (children : List Node) (gs : List Group) : Prop :=
  gs.Pairwise fun g h => g.child = h.child →
    ∀ c, children[g.child]? = some c → c.isMultiStage = true

end ArgRouter.Spec
