import Verif.Parse.Phases
import Verif.Spec.Cli

/-!
# Specification vocabulary: end markers, switched-off nodes, dependencies and aliases
-/

/-- The policy switches its node off. -/
def ArgRouter.Policy.disables : ArgRouter.Policy → Bool
  | .runtimeEnable e => !e
  | .runtimeEnableRequired e _ => !e
  | _ => false

namespace ArgRouter.Spec

/-- The node has a runtime switch that is off. -/
def Disabled (n : Node) : Prop := ∃ p ∈ n.policies, p.disables = true

/-- The tokens before the first occurrence of the marker (all of them if there is none). -/
def beforeMarker (m : Bytes) (l : List Token) : List Token := l.takeWhile fun t => t.name != m

/-- The tokens after the first occurrence of the marker (none if there is none). -/
def afterMarker (m : Bytes) (l : List Token) : List Token :=
  (l.dropWhile fun t => t.name != m).drop 1

/-- The node has been seen: it is the node of the target built so far or of one of its
sub-targets. Nodes are identified by their type hash. -/
def Seen (sofar : Target) (n : Node) : Prop :=
  sofar.node.hash = n.hash ∨ ∃ l ∈ sofar.subs, l.node.hash = n.hash

/-- The node has one of the listed long or short names. -/
def NamedIn (refs : List NameRef) (n : Node) : Prop := ∃ r ∈ n.nameRefs, r ∈ refs

/-- The innermost enclosing node that routes (a mode, usually). -/
def InnermostRouting (parents : List Node) (mode : Node) : Prop :=
  ∃ pre post, parents = pre ++ mode :: post ∧ mode.hasRouter = true ∧
    ∀ n ∈ pre, n.hasRouter = false

end ArgRouter.Spec
