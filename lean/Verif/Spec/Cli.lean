import Verif.Parse.Node

/-!
# Specification vocabulary: how arguments are spelled on the command line
-/

/-- The policies that can influence which tokens a node takes: all those with a role in matching,
except a runtime switch that is on. -/
def ArgRouter.Policy.matters : ArgRouter.Policy → Bool
  | .valueSeparator _ => true
  | .shortFormExpander => true
  | .runtimeEnable e => !e
  | .runtimeEnableRequired e _ => !e
  | .tokenEndMarker _ => true
  | .minMaxCount _ _ => true
  | .alias _ => true
  | .dependent _ => true
  | _ => false

namespace ArgRouter.Spec

/-- How a user spells the node on the command line: long prefix and long name, or short prefix and
short name where the whole does not start with the long prefix, or the bare name (which a node
that also has prefixed names only answers to if it does not look like one of those). -/
def Spelled (cfg : Config) (n : Node) (s : Bytes) : Prop :=
  (∃ l, n.longName = some l ∧ s = cfg.longPrefix ++ l) ∨
  (∃ x, n.shortName = some x ∧ s = cfg.shortPrefix ++ x ∧ ¬ cfg.longPrefix <+: s) ∨
  (n.noneName = some s ∧ ¬ (n.longName.isSome ∧ cfg.longPrefix <+: s) ∧
    ¬ (n.shortName.isSome ∧ cfg.shortPrefix <+: s ∧ ¬ cfg.longPrefix <+: s))

/-- The token is the label of the node: a raw command line string spelled like it, or an already
classified token with one of its names. -/
def IsLabel (cfg : Config) (n : Node) (t : Token) : Prop :=
  match t.pre with
  | .none => Spelled cfg n t.name
  | .long => n.longName = some t.name
  | .short => n.shortName = some t.name

/-- The policies of the node that influence matching are exactly these (in whatever order they are
declared, and whatever other policies there are). -/
def MatchPolicies (n : Node) (ps : List Policy) : Prop := (n.policies.filter Policy.matters).Perm ps

end ArgRouter.Spec
