import Verif.Parse.PreParse

/-!
# Policies written by users

`tree_node` knows nothing about the policies of the library: it looks at any type for which
`policy::is_policy` is true, asks for its `priority` and calls the phase methods it has
(docs/related_pages/policies.doxy:33-44). This module models the loops of the nodes for such
arbitrary policies; `Parse/Phases.lean` and `Parse/Mode.lean` are the same loops for the policies of
the library (`Props/Custom.lean` shows that they are).

The type `σ` stands for everything a pre-parse phase may change: the tokens, the sub-targets of the
target, and whatever else the policy has access to.
-/

namespace ArgRouter

/-- A policy as a node sees it: `policy::has_priority_v` and its value (policy/policy.hpp:180-199),
`policy::has_pre_parse_phase_method_v` (policy/policy.hpp:55-78) and the method, the same for the
validation phase (policy/policy.hpp:104-133). A phase may end in any way. -/
structure AnyPolicy (σ : Type) where
  priority : Option Nat
  preParse : Option (σ → Out (PreResult × σ))
  validate : Option (Value → Out Unit)

namespace AnyPolicy

variable {σ : Type}

/-- `get_priority_or_default`, tree_node.hpp:31-40. -/
def prio (p : AnyPolicy σ) : Nat :=
  match p.priority with
  | some n => n
  | none => 0

/-- `priority_order`, tree_node.hpp:29-44. -/
def before (p q : AnyPolicy σ) : Bool := decide (q.prio < p.prio)

end AnyPolicy

/-- `boost::mp11::mp_sort`, as Boost implements it: the first element splits the others into those
that go before it and the rest; both parts keep their order and are sorted in turn. The bound is
the length of the list. Used at tree_node.hpp:54. -/
def mpSort {α : Type} (lt : α → α → Bool) : Nat → List α → List α
  | 0, l => l
  | _ + 1, [] => []
  | n + 1, x :: xs =>
    mpSort lt n (xs.filter fun y => lt y x) ++ x :: mpSort lt n (xs.filter fun y => !lt y x)

/-- `priority_ordered_policies_type`, tree_node.hpp:53-54. -/
def priorityOrdered {σ : Type} (ps : List (AnyPolicy σ)) : List (AnyPolicy σ) :=
  mpSort AnyPolicy.before ps.length ps

/-- The loop of `pre_parse_impl`, tree_node.hpp:560-580. -/
def preParseLoop {σ : Type} : List (AnyPolicy σ) → PreResult → σ → Out (PreResult × σ)
  | [], m, s => .ok (m, s)
  | p :: ps, m, s =>
    match p.preParse with
    | none => preParseLoop ps m s
    | some f =>
      match m with
      | .error e => preParseLoop ps (.error e) s
      | .ok .skipNode => preParseLoop ps (.ok .skipNode) s
      | .ok act => do
        let (m', s) ← f s
        let m'' : PreResult :=
          match act, m' with
          | .skipNodeButUseSubTargets, .ok .validNode => .ok .skipNodeButUseSubTargets
          | _, m' => m'
        preParseLoop ps m'' s

/-- The phases of a node with these policies. tree_node.hpp:560-580. -/
def preParsePhases {σ : Type} (ps : List (AnyPolicy σ)) (s : σ) : Out (PreResult × σ) :=
  preParseLoop (priorityOrdered ps) (.ok .validNode) s

/-- `tree_node::pre_parse_impl`, tree_node.hpp:547-635, for a node with any policies. The node gives
the names; its policies are `ps`. -/
def customPreParse (cfg : Config) (n : Node) (ps : List (AnyPolicy (Adapter × List Leaf)))
    (args : List Token) (validator : Validator) : M (Option (Target × List Token)) := do
  let (m, a, subs) ← M.lift (preParsePhases ps (⟨[], args⟩, []))
  match checkLabel cfg n m a with
  | none => pure none
  | some a => do
    if !(← validator n) then pure none
    else
      match m with
      | .error e => M.throw e
      | .ok _ =>
        let tokens := if n.isNamed then a.processed.tail else a.processed
        pure (some (⟨n, tokens, subs⟩, a.unprocessed))

/-- The validation phases, multi_arg_base.hpp:114-124, mode.hpp:514-520, 542-548: the policies in the
order of their declaration. -/
def validationPhases {σ : Type} : List (AnyPolicy σ) → Value → Out Unit
  | [], _ => .ok ()
  | p :: ps, v =>
    match p.validate with
    | none => validationPhases ps v
    | some f => do
      f v
      validationPhases ps v

/-- A policy of the model as a policy like any other. Model only: relates policy/*.hpp as modelled by
`Policy` to policy/policy.hpp:30-38. -/
def Policy.asAny (cfg : Config) (owner : Node) (parents : List Node) (processed : Option Target)
    (p : Policy) : AnyPolicy (Adapter × List Leaf) where
  priority := some p.priority
  preParse :=
    if p.hasPreParse then
      some fun s => do
        let (m, a, subs) ← p.phase cfg owner parents processed s.1 s.2
        return (m, a, subs)
    else none
  validate :=
    match p with
    | .minMaxValue lo hi less => some fun v =>
      if (lo.map (less v)).getD false then .throw ⟨.minimum_value_not_reached, [owner.tokenType]⟩
      else if (hi.map (less · v)).getD false then
        .throw ⟨.maximum_value_exceeded, [owner.tokenType]⟩
      else .ok ()
    | .validation _ f => some f
    | _ => none

end ArgRouter
