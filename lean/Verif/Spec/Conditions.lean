import Verif.Spec.Tree
import Verif.Valid.Rules

/-!
# What the conditions of a validator ask for

The documentation of include/arg_router/policy/validator.hpp says for every condition what a node or
a policy must be like for a program to compile. It is written down here without the computations the
library makes.
-/

namespace ArgRouter.Spec

/-- The policy is made from this template: the templates are those of the policies, one for each. -/
inductive MadeFrom : Policy → PKind → Prop
  | longName {s : Bytes} : MadeFrom (.longName s) .longName
  | shortName {s : Bytes} : MadeFrom (.shortName s) .shortName
  | noneName {s : Bytes} : MadeFrom (.noneName s) .noneName
  | displayName {s : Bytes} : MadeFrom (.displayName s) .displayName
  | errorName {s : Bytes} : MadeFrom (.errorName s) .errorName
  | description {s : Bytes} : MadeFrom (.description s) .description
  | required : MadeFrom .required .required
  | defaultValue {v} : MadeFrom (.defaultValue v) .defaultValue
  | minMaxCount {mn mx} : MadeFrom (.minMaxCount mn mx) .minMaxCount
  | valueSeparator {s} : MadeFrom (.valueSeparator s) .valueSeparator
  | shortFormExpander : MadeFrom .shortFormExpander .shortFormExpander
  | tokenEndMarker {m} : MadeFrom (.tokenEndMarker m) .tokenEndMarker
  | runtimeEnable {e} : MadeFrom (.runtimeEnable e) .runtimeEnable
  | runtimeEnableRequired {e v} : MadeFrom (.runtimeEnableRequired e v) .runtimeEnableRequired
  | alias {ns} : MadeFrom (.alias ns) .alias
  | dependent {ns} : MadeFrom (.dependent ns) .dependent
  | minMaxValue {mn mx c} : MadeFrom (.minMaxValue mn mx c) .minMaxValue
  | customParser {f} : MadeFrom (.customParser f) .customParser
  | router : MadeFrom .router .router
  | multiStage {f} : MadeFrom (.multiStage f) .multiStage
  | noResult : MadeFrom .noResult .noResult
  | helpFormatter {f} : MadeFrom (.helpText f) .helpFormatter
  | validation {t f} : MadeFrom (.validation t f) (.validation t)
  | validator : MadeFrom (.other 0) .validator
  | exceptionTranslator : MadeFrom (.other 1) .exceptionTranslator
  | other {t : Nat} : MadeFrom (.other (t + 2)) (.other t)

/-- The node has a policy made from this template. -/
def Carries (n : Node) (k : PKind) : Prop := ∃ q ∈ n.policies, MadeFrom q k

/-- The node or policy is found in the tree at the position `p` (for a policy: the position of its
owner), below `parents`, nearest first. -/
inductive Occurs (root : Node) (p : List Nat) : Item → List Node → Prop
  | node {n : Node} : nodeAt root p = some n → Occurs root p (.node n) (lineage root p)
  | policy {n : Node} {q : Policy} : nodeAt root p = some n → q ∈ n.policies →
      Occurs root p (.policy q) (n :: lineage root p)

/-- A child that can take a varying number of values and does not say where they end: its counts
differ, it is not built up in stages and has no token end marker. -/
def ListLike (n : Node) : Prop :=
  (∃ mn mx, n.minMaxCount = some (mn, mx) ∧ mn ≠ mx) ∧
    ¬ Carries n .multiStage ∧ ¬ Carries n .tokenEndMarker

/-- A mode without a name. -/
def AnonymousMode (modes : List Kind) (n : Node) : Prop :=
  n.kind ∈ modes ∧ n.noneName = none

/-- Once a child is of one of these kinds, all children after it are. -/
def AtEnd (kinds : List Kind) (cs : List Node) : Prop :=
  ∀ (i j : Nat) (c d : Node), i ≤ j → cs[i]? = some c → cs[j]? = some d →
    c.kind ∈ kinds → d.kind ∈ kinds

/-- `m`, at `pm`, is the nearest mode at or above the position `pm ++ r`, or the root if there is no
mode. -/
structure NearestMode (modes : List Kind) (root : Node) (pm r : List Nat) (m : Node) : Prop where
  at_ : nodeAt root pm = some m
  top : m.kind ∈ modes ∨ pm = []
  nearest : ∀ k n, 0 < k → k ≤ r.length → nodeAt m (r.take k) = some n → n.kind ∉ modes

/-- The position, seen from `m`, is not in another mode. (A mode whose type is that of `m` itself is
`m`: a type cannot contain itself.) -/
def SameSpace (modes : List Kind) (m : Node) (q : List Nat) : Prop :=
  ∀ k n, k ≤ q.length → nodeAt m (q.take k) = some n → n.hash = m.hash ∨ n.kind ∉ modes

/-- The position at which the parents of an item start: that of the owner for a policy, that of the
parent for a node. -/
def parentPosition (p : List Nat) : Item → List Nat
  | .policy _ => p
  | .node _ => p.dropLast

/-- The policy is a name of the node that is spelled like this. -/
inductive SpelledName : Policy → PKind → Bytes → Prop
  | long {s : Bytes} : SpelledName (.longName s) .longName s
  | short {s : Bytes} : SpelledName (.shortName s) .shortName s
  | none {s : Bytes} : SpelledName (.noneName s) .noneName s

/-- Two items have the same type. Of policies, only names are compared: two names are of the same type
if they are of the same sort and are spelled the same. -/
inductive SameType : Item → Item → Prop
  | node {n m : Node} : n.hash = m.hash → SameType (.node n) (.node m)
  | policy {x y : Policy} {k : PKind} {s : Bytes} : SpelledName x k s → SpelledName y k s →
      SameType (.policy x) (.policy y)

/-- What the documentation of a condition asks of an item at the position `p` of the tree. -/
def Documented (root : Node) (p : List Nat) (it : Item) (parents : List Node) : Condition → Prop
  | .uniqueInOwner =>
    ∀ owner rest, parents = owner :: rest → ∃ x k, it = .policy x ∧ MadeFrom x k ∧
      ∃ (i : Nat) (q : Policy), owner.policies[i]? = some q ∧ MadeFrom q k ∧
        ∀ (j : Nat) (r : Policy), owner.policies[j]? = some r → MadeFrom r k → j = i
  | .uniqueToMode modes =>
    ∀ pm r m, pm ++ r = parentPosition p it → NearestMode modes root pm r m →
      ∀ q y above, Occurs m q y above → SameSpace modes m q → SameType it y → pm ++ q = p
  | .parentTypes pairs => ∃ i k n, (i, k) ∈ pairs ∧ parents[i]? = some n ∧ n.kind = k
  | .mustHave ks => ∃ n, it = .node n ∧ ∀ k ∈ ks, Carries n k
  | .mustNotHave ks => ∃ n, it = .node n ∧ ∀ k ∈ ks, ¬ Carries n k
  | .childMustHave k => ∃ n, it = .node n ∧ ∀ c ∈ n.children, Carries c k
  | .childMustNotHave k => ∃ n, it = .node n ∧ ∀ c ∈ n.children, ¬ Carries c k
  | .parentMustNotHave k =>
    ∃ x owner rest, it = .policy x ∧ parents = owner :: rest ∧ ¬ Carries owner k
  | .singleAnonymousMode modes =>
    ∃ n, it = .node n ∧ ∀ (i j : Nat) (c d : Node), n.children[i]? = some c → n.children[j]? = some d →
      AnonymousMode modes c → AnonymousMode modes d → i = j
  | .atLeastOneOf ks => ∃ n, it = .node n ∧ ∃ k ∈ ks, Carries n k
  | .nodesAtEnd kinds => ∃ n, it = .node n ∧ AtEnd kinds n.children
  | .anonymousAtEnd modes =>
    ∃ n, it = .node n ∧ ((∃ c ∈ n.children, AnonymousMode modes c) → AtEnd modes n.children)
  | .fixedCountUnlessLast =>
    ∃ n, it = .node n ∧ ∀ (i : Nat) (c : Node), n.children[i]? = some c → ListLike c → i + 1 = n.children.length
  | .minOneIfRequired =>
    ∀ n, it = .node n → Carries n .required → ∀ mn mx, n.minMaxCount = some (mn, mx) → 1 ≤ mn

end ArgRouter.Spec
