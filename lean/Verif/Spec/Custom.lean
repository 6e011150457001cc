import Verif.Parse.Custom

/-!
# What the documentation says about the policies of a node

docs/related_pages/policies.doxy:33-44 and docs/related_pages/nodes.doxy:22-36: the policies that have
a pre-parse phase are called in the order of their priority, the highest first; a policy without a
priority has priority 0; each works on what the one before it left. A policy may say that the tokens
are not for this node, then nobody else is asked; it may report an error, then nobody else is asked
either, and the error is kept until it is known that the tokens are for this node.
-/

namespace ArgRouter.Spec

variable {σ : Type}

/-- The number that a policy is ordered by: what it says, or 0. -/
def importance (p : AnyPolicy σ) : Nat := p.priority.getD 0

/-- `order` is the order in which the policies that have a pre-parse phase take their turns: all of
them, each once, the more important ones first. -/
structure Turns (ps order : List (AnyPolicy σ)) : Prop where
  /-- a policy that comes later is not more important -/
  sorted : order.Pairwise fun p q => importance q ≤ importance p
  /-- for every importance: those policies of the node, in the order of their declaration -/
  ties : ∀ k, order.filter (fun p => importance p = k) =
    ps.filter fun p => p.preParse.isSome ∧ importance p = k

/-- The policies of the library that have a pre-parse phase, and the number each is ordered by: the
`priority` in policy/value_separator.hpp:43, short_form_expander.hpp:28, runtime_enable.hpp:28 (which
`runtime_enable_required` inherits), token_end_marker.hpp:37, min_max_count.hpp:45 and alias.hpp:29;
`dependent` has none. -/
inductive LibraryTurn : Policy → Nat → Prop where
  | valueSeparator (s : Bytes) : LibraryTurn (.valueSeparator s) 1000
  | shortFormExpander : LibraryTurn .shortFormExpander 900
  | runtimeEnable (e : Bool) : LibraryTurn (.runtimeEnable e) 800
  | runtimeEnableRequired (e : Bool) (v : Value) : LibraryTurn (.runtimeEnableRequired e v) 800
  | tokenEndMarker (s : Bytes) : LibraryTurn (.tokenEndMarker s) 760
  | minMaxCount (mn mx : Nat) : LibraryTurn (.minMaxCount mn mx) 750
  | alias (refs : List NameRef) : LibraryTurn (.alias refs) 100
  | dependent (refs : List NameRef) : LibraryTurn (.dependent refs) 0

/-- A phase that has been called: the policy, what there was, what it answered and left. -/
structure PhaseCall (σ : Type) where
  policy : AnyPolicy σ
  found : σ
  answer : PreResult
  left : σ

/-- The call is one of this policy's phase. -/
def PhaseCall.Made (c : PhaseCall σ) : Prop :=
  ∃ f, c.policy.preParse = some f ∧ f c.found = .ok (c.answer, c.left)

/-- The first call finds `s`, every other one what the one before left; the last leaves `s'`. -/
def Linked : σ → List (PhaseCall σ) → σ → Prop
  | s, [], s' => s = s'
  | s, c :: cs, s' => c.found = s ∧ Linked c.left cs s'

/-- Answers after which no other policy is asked. -/
inductive Final : PreResult → Prop where
  | error (e : Exc) : Final (.error e)
  | notMine : Final (.ok .skipNode)

/-- What the answers amount to. -/
inductive AmountsTo (answers : List PreResult) : PreResult → Prop where
  | error {e : Exc} : .error e ∈ answers → AmountsTo answers (.error e)
  | notMine : .ok .skipNode ∈ answers → AmountsTo answers (.ok .skipNode)
  | others : (∀ r ∈ answers, ¬ Final r) → .ok .skipNodeButUseSubTargets ∈ answers →
      AmountsTo answers (.ok .skipNodeButUseSubTargets)
  | mine : (∀ r ∈ answers, r = .ok .validNode) → AmountsTo answers (.ok .validNode)

/-- The policies `order` are asked one after the other, from `s`; these calls are made, and they
amount to `m` and leave `s'`. -/
structure Asked (order : List (AnyPolicy σ)) (s : σ) (calls : List (PhaseCall σ)) (m : PreResult) (s' : σ) :
    Prop where
  made : ∀ c ∈ calls, c.Made
  linked : Linked s calls s'
  inTurn : calls.map PhaseCall.policy <+: order
  /-- only the last answer can be final -/
  before : ∀ c ∈ calls.dropLast, ¬ Final c.answer
  /-- nobody is left out unless an answer was final -/
  after : calls.map PhaseCall.policy = order ∨ ∃ c ∈ calls, Final c.answer
  verdict : AmountsTo (calls.map PhaseCall.answer) m

/-- The label of a node is the first token, which may not have been looked at yet. -/
def OwnLabel (cfg : Config) (n : Node) (a : Adapter) : Prop :=
  n.isNamed = true → ∃ t rest, a.processed ++ a.unprocessed = t :: rest ∧
    (n.matchToken t = true ∧ t.pre ≠ .none ∨
      t.pre = .none ∧ n.matchToken (n.getToken cfg t.name) = true)

/-- The tokens a node gets and those it leaves, given what its policies processed: without the
label. If no policy has processed anything, then a node with a name takes its label only. -/
inductive Takes (n : Node) : Adapter → List Token → List Token → Prop where
  | unnamed (vs rest : List Token) : n.isNamed = false → Takes n ⟨vs, rest⟩ vs rest
  | named (label : Token) (vs rest : List Token) : n.isNamed = true →
      Takes n ⟨label :: vs, rest⟩ vs rest
  | label (label : Token) (rest : List Token) : n.isNamed = true →
      Takes n ⟨[], label :: rest⟩ [] rest

end ArgRouter.Spec
