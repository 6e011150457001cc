import Verif.Spec.Grown
import Verif.Spec.Redeclared
import Verif.Spec.Typed
import Verif.Parse.Classes

/-!
# Specification: arguments with more labels

The author of a program gives some of the arguments of a mode a long or a short name they did not have.
Users go on with the command lines they have always used. The property is C122.
-/

namespace ArgRouter.Spec

/-- Policies that name a node. -/
def ForNaming : Policy → Bool
  | .longName _ | .shortName _ | .displayName _ | .errorName _ => true
  | _ => false

/-- Policies with a label that can be typed with a prefix. -/
def IsFlagName : Policy → Bool
  | .longName _ | .shortName _ => true
  | _ => false

/-- All names that aliases and dependencies in the mode refer to. -/
def references (mode : Node) : List NameRef :=
  mode.nodes.flatMap fun n => n.policies.flatMap fun
    | .alias refs => refs
    | .dependent refs => refs
    | _ => []

/-- `q` are the policies `p` of a node with more labels. The node can also have another name in
messages. The new labels are not used: not on the command line `argv`, and not in `refs`. -/
structure NewLabels (cfg : Config) (argv : List Bytes) (refs : List NameRef) (p q : List Policy) :
    Prop where
  others : (p.filter fun x => !ForNaming x) = q.filter fun x => !ForNaming x
  kept : (p.filter IsFlagName).Sublist (q.filter IsFlagName)
  /-- one long and one short name at most -/
  once : ((q.filter IsFlagName).map Policy.kindNo).Nodup
  /-- only an argument that has a label, and not one without a prefix, gets others -/
  named : p.filter IsFlagName = q.filter IsFlagName ∨
    (p.filter IsFlagName ≠ [] ∧ ∀ s, .noneName s ∉ p)
  unreferred : (∀ s, .longName s ∈ q → .longName s ∉ p → .long s ∉ refs) ∧
    ∀ s, .shortName s ∈ q → .shortName s ∉ p → .short s ∉ refs
  /-- no token is for an argument that has the new label only -/
  untyped : ∀ x ∈ q, IsFlagName x = true → x ∉ p → ∀ t, Arises cfg argv t →
    ¬ Mentions cfg (.mk .flag 0 0 boolType (x :: q.filter fun y => !ForNaming y) []) t

/-- The second mode is the first, where arguments have got more labels. `σ` gives the new types for
the old ones. -/
abbrev MoreLabels (cfg : Config) (argv : List Bytes) (σ : Nat → Nat) (mode mode' : Node) : Prop :=
  Alike (NewLabels cfg argv (references mode)) σ mode mode'

/-- The tokens of two messages are the same, or are how the same object is called in the two modes. -/
def SameToken (mode mode' : Node) (t t' : Token) : Prop :=
  t = t' ∨ ∃ x ∈ mode.nodes, ∃ x' ∈ mode'.nodes, x.uid = x'.uid ∧ t = x.tokenType ∧ t' = x'.tokenType

/-- Two failures for the same reason. -/
inductive SameReason (mode mode' : Node) : {α : Type} → Out α → Out α → Prop
  | throws {α : Type} {e e' : Exc} (hec : e.ec = e'.ec) (ht : Zip (SameToken mode mode') e.tokens e'.tokens) :
      SameReason mode mode' (.throw e : Out α) (.throw e')
  | foreign {α : Type} : SameReason mode mode' (.foreign : Out α) .foreign
  | undefined {α : Type} : SameReason mode mode' (.ub : Out α) .ub
  | forever {α : Type} : SameReason mode mode' (.diverge : Out α) .diverge

/-- Two programs with the two modes end alike: both succeed, or both fail for the same reason, or
because of something nobody wants. -/
inductive SameEnd (mode mode' : Node) : Out Unit → Out Unit → Prop
  | succeeds : SameEnd mode mode' (.ok ()) (.ok ())
  | fails {o o' : Out Unit} (hr : SameReason mode mode' o o') : SameEnd mode mode' o o'
  | lost {o o' : Out Unit} (hl : Lost o) (hl' : Lost o') : SameEnd mode mode' o o'

end ArgRouter.Spec
