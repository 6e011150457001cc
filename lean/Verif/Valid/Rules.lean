import Verif.Valid.Walk

/-!
# The validator

`policy::validation::validator`, its conditions and `default_validator`
(include/arg_router/policy/validator.hpp). A `static_assert` that fails, or a condition that does
not compile for the type it is applied to, is `false`.
-/

namespace ArgRouter

namespace Node

/-- `algorithm::has_specialisation<Policy, policies_type>`, algorithm.hpp:112-124. -/
def has (n : Node) (k : PKind) : Bool := n.policies.any fun p => p.kind == k

/-- `algorithm::count_despecialised_v<T, policies_type>`, algorithm.hpp:84-100. -/
def countKind (n : Node) (k : PKind) : Nat := n.policies.countP fun p => p.kind == k

/-- `is_anonymous_mode`, validator.hpp:429-436. -/
def isAnonMode (modes : List Kind) (n : Node) : Bool := modes.contains n.kind && n.isAnonymous

/-- `is_list_like_node`, validator.hpp:548-560: counts that differ, no multi-stage value and no token
end marker. -/
def isListLike (n : Node) : Bool :=
  match n.minMaxCount with
  | some (mn, mx) => mn != mx && !n.isMultiStage && !n.hasTokenEndMarker
  | none => false

/-- `minimum_count()` where the node has such a method. traits.hpp:465-477. -/
def minCount (n : Node) : Option Nat := n.minMaxCount.map (·.1)

/-- `policy::is_required_v`, required.hpp:48-60: the node has a `required_t` policy as base. -/
def isRequired (n : Node) : Bool := n.has .required

end Node

/-- The skip function of the uniqueness check, validator.hpp:227-240: modes other than the start. -/
def skipOtherModes (modes : List Kind) (start : Node) (it : Item) (_ : List Node) : Bool :=
  match it with
  | .policy _ => false
  | .node n => if n.hash = start.hash then false else modes.contains n.kind

/-- The path from the owner of a policy up to its nearest mode or the root, validator.hpp:248-256
(`mode_index`, `path_type`). -/
def pathToMode (modes : List Kind) (parents : List Node) : List Node :=
  parents.take (min (parents.findIdx (fun n => modes.contains n.kind) + 1) parents.length)

/-- `std::is_same_v<Policy, Current>`, validator.hpp:215: the two are of the same type. Simplification:
of the policies, only names are compared; two other policies are never of the same type. -/
def Item.sameType : Item → Item → Bool
  | .node n, .node m => n.hash == m.hash
  | .policy p, .policy q =>
    match p.nameType, q.nameType with
    | some s, some t => s == t
    | _, _ => false
  | _, _ => false

/-- `checker::fn`, validator.hpp:206-220: the visit `v` does not clash with the item `it` at the path
`path`. Types are compared, so a visit whose path has the same *types* is taken for the item itself. -/
def noClash (it : Item) (path : List Node) (v : Visit) : Bool :=
  (path.map Node.hash == v.2.map Node.hash) || !it.sameType v.1

/-- The conditions of policy/validator.hpp:183-593. -/
inductive Condition where
  /-- `despecialised_unique_in_owner` -/
  | uniqueInOwner
  /-- `policy_unique_from_owner_parent_to_mode_or_root` -/
  | uniqueToMode (modes : List Kind)
  /-- `parent_types` -/
  | parentTypes (pairs : List (Nat × Kind))
  /-- `must_have_policies` -/
  | mustHave (ks : List PKind)
  /-- `must_not_have_policies` -/
  | mustNotHave (ks : List PKind)
  /-- `child_must_have_policy` -/
  | childMustHave (k : PKind)
  /-- `child_must_not_have_policy` -/
  | childMustNotHave (k : PKind)
  /-- `policy_parent_must_not_have_policy` -/
  | parentMustNotHave (k : PKind)
  /-- `single_anonymous_mode` -/
  | singleAnonymousMode (modes : List Kind)
  /-- `at_least_one_of_policies` -/
  | atLeastOneOf (ks : List PKind)
  /-- `node_types_must_be_at_end` -/
  | nodesAtEnd (kinds : List Kind)
  /-- `anonymous_mode_must_be_at_end` -/
  | anonymousAtEnd (modes : List Kind)
  /-- `list_like_nodes_must_have_fixed_count_if_not_at_end` -/
  | fixedCountUnlessLast
  /-- `must_have_at_least_min_count_of_1_if_required` -/
  | minOneIfRequired
  deriving DecidableEq, Repr

/-- `node_types_must_be_at_end::check`, validator.hpp:481-502: the child list from the first child of
one of the types on consists of such children. -/
def nodesAtEndCheck (kinds : List Kind) (cs : List Node) : Bool :=
  let flags := cs.map fun c => kinds.contains c.kind
  let first := flags.findIdx id
  if first ≠ flags.length then (flags.drop first).all id else true

/-- `list_like_nodes_must_have_fixed_count_if_not_at_end::check`, validator.hpp:562-574. -/
def fixedCountCheck (cs : List Node) : Bool :=
  let count := cs.countP Node.isListLike
  decide (count ≤ 1) &&
    (if count = 1 then cs.findIdx Node.isListLike == cs.length - 1 else true)

/-- `condition::check<Current, Parents...>()`, validator.hpp:181-593. A node condition applied to a
policy uses `policies_type` or `children_type`, which a policy does not have, so it does not compile.
A policy condition applied to a node with parents finds no such policy in the owner. -/
def Condition.holds (it : Item) (parents : List Node) : Condition → Bool
  | .uniqueInOwner =>
    match parents with
    | [] => true
    | owner :: _ =>
      match it with
      | .policy p => owner.countKind p.kind == 1
      | .node _ => false
  | .uniqueToMode modes =>
    if 1 < parents.length then
      match (pathToMode modes parents).getLast? with
      | some start =>
        (typeWalk (skipOtherModes modes start) [] start).all
          (noClash it (pathToMode modes parents))
      | none => true
    else true
  | .parentTypes pairs =>
    pairs.any fun (i, k) =>
      match parents[i]? with
      | some n => n.kind == k
      | none => false
  | .mustHave ks =>
    match it with
    | .node n => ks.all n.has
    | .policy _ => false
  | .mustNotHave ks =>
    match it with
    | .node n => ks.all fun k => !n.has k
    | .policy _ => false
  | .childMustHave k =>
    match it with
    | .node n => n.children.all fun c => c.has k
    | .policy _ => false
  | .childMustNotHave k =>
    match it with
    | .node n => if 0 < n.children.length then !(n.children.all fun c => c.has k) else true
    | .policy _ => false
  | .parentMustNotHave k =>
    match it, parents with
    | .policy _, owner :: _ => !owner.has k
    | _, _ => false
  | .singleAnonymousMode modes =>
    match it with
    | .node n => decide (n.children.countP (Node.isAnonMode modes) ≤ 1)
    | .policy _ => false
  | .atLeastOneOf ks =>
    match it with
    | .node n => ks.any n.has
    | .policy _ => false
  | .nodesAtEnd kinds =>
    match it with
    | .node n => nodesAtEndCheck kinds n.children
    | .policy _ => false
  | .anonymousAtEnd modes =>
    match it with
    | .node n =>
      if n.children.any (Node.isAnonMode modes) then nodesAtEndCheck modes n.children else true
    | .policy _ => false
  | .fixedCountUnlessLast =>
    match it with
    | .node n => fixedCountCheck n.children
    | .policy _ => false
  | .minOneIfRequired =>
    match it with
    | .node n =>
      match n.isRequired, n.minCount with
      | true, some mn => decide (1 ≤ mn)
      | _, _ => true
    | .policy _ => true

/-- The despecialised types a rule can be for. The types named in policy/validator.hpp:616-732. -/
inductive TypeName where
  | policy (k : PKind)
  | node (k : Kind)
  deriving DecidableEq, Repr

/-- What a rule applies to: `despecialised_any_of_rule<T...>` (validator.hpp:169-178) or
`is_policy` (validator.hpp:73-74, 652-654). -/
inductive RuleKey where
  | anyOf (ts : List TypeName)
  | isPolicy
  deriving DecidableEq, Repr

/-- `fn<Current>::value` of a rule key. policy/validator.hpp:170-178. -/
def RuleKey.matches (it : Item) : RuleKey → Bool
  | .anyOf ts =>
    match it with
    | .node n => ts.contains (.node n.kind)
    | .policy p => ts.contains (.policy p.kind)
  | .isPolicy =>
    match it with
    | .node _ => false
    | .policy _ => true

/-- `rule` / `rule_q`, validator.hpp:73-96: a key and conditions. -/
structure Rule where
  key : RuleKey
  conditions : List Condition
  deriving DecidableEq, Repr

/-- `validate_fn::fn`, validator.hpp:121-143: the first rule whose key matches is used; it is an error
if there is none. -/
def checkItem (rules : List Rule) (v : Visit) : Bool :=
  match rules.find? fun r => r.key.matches v.1 with
  | none => false
  | some r => r.conditions.all (Condition.holds v.1 v.2)

/-- `validator::validate<Root>()`, validator.hpp:147-156: `true` if the program compiles. -/
def validate (rules : List Rule) (root : Node) : Bool :=
  (typeWalk noSkip [] root).all (checkItem rules)

/-- `default_validator`, validator.hpp:616-732. -/
def defaultRules : List Rule := [
  ⟨.anyOf [.policy .longName, .policy .shortName], [.uniqueInOwner, .uniqueToMode [.mode]]⟩,
  ⟨.anyOf [.policy .noneName],
    [.uniqueInOwner, .uniqueToMode [.mode], .parentMustNotHave .longName,
     .parentMustNotHave .shortName, .parentMustNotHave .displayName]⟩,
  ⟨.anyOf [.policy .displayName],
    [.uniqueInOwner, .parentMustNotHave .longName, .parentMustNotHave .shortName,
     .parentMustNotHave .noneName]⟩,
  ⟨.anyOf [.policy .required], [.uniqueInOwner, .parentMustNotHave .defaultValue]⟩,
  ⟨.anyOf [.policy .defaultValue], [.uniqueInOwner, .parentMustNotHave .required]⟩,
  ⟨.anyOf [.policy .router], [.uniqueInOwner, .parentTypes [(0, .mode), (1, .root)]]⟩,
  ⟨.anyOf [.policy .exceptionTranslator], [.uniqueInOwner, .parentTypes [(0, .root)]]⟩,
  ⟨.isPolicy, [.uniqueInOwner]⟩,
  ⟨.anyOf [.node .flag], [.mustNotHave [.multiStage, .noResult, .required, .validator]]⟩,
  ⟨.anyOf [.node .arg], [.mustNotHave [.multiStage, .noResult, .validator]]⟩,
  ⟨.anyOf [.node .multiArg], [.mustNotHave [.multiStage, .noResult, .validator]]⟩,
  ⟨.anyOf [.node .forwarding], [.mustNotHave [.multiStage, .noResult, .validator]]⟩,
  ⟨.anyOf [.node .countingFlag], [.mustNotHave [.noResult, .required, .validator]]⟩,
  ⟨.anyOf [.node .positional],
    [.mustNotHave [.alias, .multiStage, .noResult, .validator], .minOneIfRequired]⟩,
  ⟨.anyOf [.node .oneOf],
    [.mustNotHave [.noResult, .multiStage, .validator], .childMustNotHave .required,
     .childMustNotHave .defaultValue, .parentTypes [(0, .mode)]]⟩,
  ⟨.anyOf [.node .oneOf, .node .aliasGroup],
    [.mustNotHave [.noResult, .validator], .childMustNotHave .required,
     .childMustNotHave .defaultValue, .parentTypes [(0, .mode)]]⟩,
  ⟨.anyOf [.node .mode],
    [.mustNotHave [.multiStage, .required, .runtimeEnableRequired, .alias, .dependent],
     .nodesAtEnd [.positional], .fixedCountUnlessLast, .parentTypes [(0, .root), (0, .mode)]]⟩,
  ⟨.anyOf [.node .help],
    [.mustNotHave [.multiStage, .required, .shortFormExpander, .validator, .runtimeEnable],
     .parentTypes [(0, .root)]]⟩,
  ⟨.anyOf [.node .root],
    [.mustHave [.validator],
     .mustNotHave [.multiStage, .noResult, .runtimeEnable, .runtimeEnableRequired],
     .childMustNotHave .required, .childMustNotHave .alias, .singleAnonymousMode [.mode],
     .anonymousAtEnd [.mode]]⟩]

end ArgRouter
