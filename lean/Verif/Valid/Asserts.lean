import Verif.Valid.Rules
import Verif.Valid.Cyclic
import Verif.Utf8.Grapheme
import Verif.Utf8.Text

/-!
# The static assertions of policies and node classes

Every `static_assert` that depends on the tree: those of the policy classes, those of the node
classes and those in the pre-parse phases of the policies (which are instantiated for every node of
a tree that is parsed). A tree for which one of them fails is not a program. The assertions about C++
types (`value_type`, `push_back`, `std::is_integral` ...) are not modelled, nor are those on the help
output.

An expression in a `static_assert` that has undefined behaviour is not a constant expression, so the
program does not compile: an outcome other than `ok` counts as a failure.
-/

namespace ArgRouter

open Utf8

/-! ## The phases of the policies -/

/-- `has_pre_parse_phase_method`, policy.hpp:59-71; the policies with such a method: alias.hpp:60,
dependent.hpp:48, min_max_count.hpp:72, runtime_enable.hpp:53 (inherited by
`runtime_enable_required`), short_form_expander.hpp:49, token_end_marker.hpp:64,
value_separator.hpp:70. -/
def Policy.hasPreParsePhase : Policy → Bool
  | .alias _ | .dependent _ | .minMaxCount _ _ | .runtimeEnable _ | .runtimeEnableRequired _ _
  | .shortFormExpander | .tokenEndMarker _ | .valueSeparator _ => true
  | _ => false

/-- `has_parse_phase_method`, policy.hpp:85-94; custom_parser.hpp:45. Simplification: whether the
method exists for the value type asked for is not distinguished. -/
def Policy.hasParsePhase : Policy → Bool
  | .customParser _ => true
  | _ => false

/-- `has_validation_phase_method`, policy.hpp:109-124; min_max_value.hpp:63, 164, and the
policies of the user's. -/
def Policy.hasValidationPhase : Policy → Bool
  | .minMaxValue _ _ _ | .validation _ _ => true
  | _ => false

/-- `has_routing_phase_method`, policy.hpp:139-147; router.hpp:38. -/
def Policy.hasRoutingPhase : Policy → Bool
  | .router => true
  | _ => false

/-- `has_missing_phase_method`, policy.hpp:161-170; default_value.hpp:41, required.hpp:34,
runtime_enable.hpp:107. -/
def Policy.hasMissingPhase : Policy → Bool
  | .defaultValue _ | .required | .runtimeEnableRequired _ _ => true
  | _ => false

namespace Node

/-- `any_phases_v`, tree_node.hpp:110-142: none of the node's policies has one of the phases. -/
def noPhase (n : Node) (phases : List (Policy → Bool)) : Bool :=
  phases.all fun f => !(n.policies.any f)

/-- At most one policy with the phase, tree_node.hpp:498-502, 644-663. -/
def atMostOne (n : Node) (phase : Policy → Bool) : Bool := decide (n.policies.countP phase ≤ 1)

/-- `has_description_method_v`. traits.hpp:389-401. -/
def hasDescription (n : Node) : Bool := n.policies.any fun | .description _ => true | _ => false

/-- A long or a short name. traits.hpp:294-325. -/
def hasLabel (n : Node) : Bool := n.longName.isSome || n.shortName.isSome

/-- `minimum_count() == N && maximum_count() == N`. policy/value_separator.hpp:85. -/
def countIs (n : Node) (k : Nat) : Bool := n.minMaxCount == some (k, k)

end Node

/-! ## Policies -/

/-- `utf8::count(s)` in a constant expression. policy/long_name.hpp:42, none_name.hpp:45,
short_name.hpp:49, value_separator.hpp:33, token_end_marker.hpp:97. -/
def countOk (s : Bytes) (f : Nat → Bool) : Bool :=
  match gCount s with
  | .ok n => f n
  | _ => false

/-- `!utf8::contains_whitespace(s)` in a constant expression. policy/long_name.hpp:44,
none_name.hpp:47, token_end_marker.hpp:99. -/
def noWhitespace (s : Bytes) : Bool :=
  match containsWhitespace s with
  | .ok w => !w
  | _ => false

/-- The assertions in the policy classes: long_name.hpp:42-45, short_name.hpp:49-51, none_name.hpp:45-48,
display_name.hpp:48, error_name.hpp:46, description.hpp:42, min_max_count.hpp:38-41,
value_separator.hpp:33-36, token_end_marker.hpp:97-100, alias.hpp:163, dependent.hpp:100. -/
def policyAsserts (cfg : Config) : Policy → Bool
  | .longName s => countOk s (1 < ·) && noWhitespace s
  | .shortName s => countOk s (· == 1) && cfg.shortPrefix ++ s != cfg.longPrefix
  | .noneName s => countOk s (1 < ·) && noWhitespace s
  | .displayName s => !s.isEmpty
  | .errorName s => !s.isEmpty
  | .description s => !s.isEmpty
  | .minMaxCount mn mx => decide (mn ≤ mx)
  | .valueSeparator s => countOk s (· == 1) && !isWhitespace s
  | .tokenEndMarker s => countOk s (0 < ·) && noWhitespace s
  | .alias refs => !refs.isEmpty
  | .dependent refs => !refs.isEmpty
  | _ => true

/-- The assertions in the pre-parse phases of the policies of a node `n` with the given parents
(nearest first). `depth` bounds the instantiations of the cycle checks.
short_form_expander.hpp:59-69, value_separator.hpp:81-87, token_end_marker.hpp:75-83,
runtime_enable.hpp:61-62, alias.hpp:67-88, dependent.hpp:54-62, 106-109. -/
def ownerAsserts (cfg : Config) (depth : Nat) (n : Node) (parents : List Node) : Policy → Bool
  | .shortFormExpander =>
    (match n.shortName with
     | some s => countOk s (· == 1)
     | none => false) && cfg.shortPrefix != cfg.longPrefix
  | .valueSeparator _ => n.countIs 1
  | .tokenEndMarker _ =>
    match n.minMaxCount with
    | some (mn, mx) => mn != mx && !n.isMultiStage
    | none => false
  | .runtimeEnable _ => !n.isRequired
  | .runtimeEnableRequired _ _ => !n.isRequired
  | .alias refs =>
    n.noPhase [Policy.hasParsePhase, Policy.hasValidationPhase, Policy.hasRoutingPhase] &&
      (match nearestModeLike (n :: parents) with
       | none => false
       | some mode => aliasCheck depth mode n refs == .accept)
  | .dependent refs =>
    match nearestModeLike parents with
    | none => false
    | some mode => linkCheck depth .dependent mode refs == .accept
  | _ => true

/-! ## Node classes -/

/-- multi_arg_base.hpp:27-45 (policies only, no fixed count of zero, named). -/
def multiArgBaseAsserts (n : Node) : Bool :=
  n.children.isEmpty && n.minMaxCount.isSome && !n.countIs 0 && (n.isNamed || n.displayName.isSome)

/-- dependency/detail.hpp:122-157. -/
def basicOneOfAsserts (n : Node) : Bool :=
  decide (2 ≤ n.children.length) && (n.children.any fun c => !c.hasNoResult) && !n.isNamed &&
    !n.hasDescription &&
    n.policies.any Policy.hasMissingPhase &&
    n.noPhase [Policy.hasPreParsePhase, Policy.hasParsePhase, Policy.hasRoutingPhase]

/-- The assertions in the node classes for a node with the given parents: flag.hpp:35-48, 107-111,
counting_flag.hpp:36-44, 102-106, arg.hpp:36-38, multi_arg.hpp:28-38, 85-87, positional_arg.hpp:31-38,
91-93, forwarding_arg.hpp:30-33, 80-82, dependency/alias_group.hpp:62-66, dependency/one_of.hpp:24-34,
mode.hpp:65-71, 106-109, 212-230, 244-245, 406-410, help.hpp:57-64, 123, 228-233, root.hpp:63-97. A root
has no public `pre_parse`, so it is not a child of another node (root.hpp:50-51, 160). -/
def classAsserts (n : Node) (parents : List Node) : Bool :=
  match n.kind with
  | .flag =>
    n.children.isEmpty && n.hasLabel && n.displayName.isNone && n.noneName.isNone &&
      n.noPhase [Policy.hasParsePhase, Policy.hasValidationPhase]
  | .countingFlag =>
    n.children.isEmpty && n.hasLabel && n.displayName.isNone && n.noneName.isNone &&
      n.noPhase [Policy.hasParsePhase, Policy.hasRoutingPhase]
  | .arg =>
    multiArgBaseAsserts n && n.noneName.isNone && n.displayName.isNone
  | .multiArg =>
    multiArgBaseAsserts n && n.noneName.isNone && n.displayName.isNone && !n.countIs 1 &&
      (match n.minMaxCount with
       | some (mn, _) => decide (1 ≤ mn)
       | none => false) &&
      n.noPhase [Policy.hasRoutingPhase]
  | .positional =>
    multiArgBaseAsserts n && n.displayName.isSome && n.longName.isNone && n.shortName.isNone &&
      n.noneName.isNone && n.noPhase [Policy.hasRoutingPhase]
  | .forwarding =>
    multiArgBaseAsserts n && n.displayName.isNone && n.longName.isNone && n.shortName.isNone &&
      n.noPhase [Policy.hasRoutingPhase]
  | .aliasGroup =>
    basicOneOfAsserts n &&
      n.children.all fun c =>
        !(c.isMultiStage && !c.hasNoResult && c.policies.any Policy.hasValidationPhase)
  | .oneOf =>
    basicOneOfAsserts n && n.children.all (fun c => !c.isMultiStage) &&
      n.noPhase [Policy.hasValidationPhase]
  | .mode =>
    !n.children.isEmpty && n.longName.isNone && n.shortName.isNone && n.displayName.isNone &&
      (!n.isAnonymous || !n.hasDescription) && (n.isAnonymous || n.errorName.isNone) &&
      (!n.isAnonymous || n.children.all fun c => c.kind != .mode) &&
      n.noPhase [Policy.hasParsePhase, Policy.hasValidationPhase, Policy.hasMissingPhase] &&
      (n.children.all fun c => c.kind == .mode || !c.hasRouter) &&
      (!n.isAnonymous || decide (parents.length ≤ 1)) &&
      (n.hasRouter || (!n.isAnonymous && n.children.all fun c => c.kind == .mode))
  | .help =>
    n.children.isEmpty && n.hasLabel && n.displayName.isNone && n.noneName.isNone &&
      !parents.isEmpty &&
      n.noPhase [Policy.hasParsePhase, Policy.hasValidationPhase, Policy.hasMissingPhase]
  | .root =>
    parents.isEmpty &&
      n.noPhase [Policy.hasPreParsePhase, Policy.hasParsePhase, Policy.hasValidationPhase,
        Policy.hasRoutingPhase, Policy.hasMissingPhase] &&
      !n.isNamed && n.displayName.isNone && n.errorName.isNone && !n.hasDescription &&
      n.has .validator && !n.children.isEmpty &&
      n.children.all fun c => c.hasNoResult || c.hasRouter

/-- The policies every object of a class has, because the class adds them: flag.hpp:38-42,
counting_flag.hpp:48-52, arg.hpp:22-34, help.hpp:66-70, mode.hpp:22-43, 55-63, dependency/detail.hpp:82-115,
root.hpp:26-56. -/
def classPolicies (n : Node) : Bool :=
  match n.kind with
  | .flag => n.has .defaultValue && n.countIs 0
  | .countingFlag => n.isMultiStage && n.countIs 0
  | .arg => n.countIs 1
  | .help => n.has .helpFormatter && n.has .noResult && n.minMaxCount == some (0, sizeMax)
  | .mode => n.has .noResult && (n.noneName.isSome || n.errorName.isSome)
  | .oneOf => n.displayName.isSome && n.errorName.isSome
  | .aliasGroup => n.displayName.isSome && n.errorName.isSome
  | .root => n.has .exceptionTranslator
  | _ => true

/-- All assertions on one node: its class, its policies, and tree_node.hpp:498-502, 644-663 (instantiated
for nodes that parse values). -/
def nodeAsserts (cfg : Config) (depth : Nat) (n : Node) (parents : List Node) : Bool :=
  classPolicies n && classAsserts n parents && n.atMostOne Policy.hasRoutingPhase &&
    (match n.kind with
     | .arg | .multiArg | .positional | .forwarding =>
       n.atMostOne Policy.hasParsePhase && n.atMostOne Policy.hasMissingPhase
     | _ => true) &&
    n.policies.all fun p => policyAsserts cfg p && ownerAsserts cfg depth n parents p

/-- The assertion in the line formatters that descriptions have no tabs (default_help_formatter.hpp:58-59,
colour_help_formatter.hpp:46-47). A help node makes the help of every node of the tree (help.hpp:183-225,
236-275), so one is enough to have it checked everywhere. Simplification: a formatter that is not one of the
library's need not make this assertion. -/
def helpAsserts (root : Node) : Bool :=
  !(root.nodes.any fun n => n.kind == .help) ||
    root.nodes.all fun n => n.policies.all fun
      | .description d => !d.contains 9
      | _ => true

/-- `root.parse(...)` compiles for a root with this validator: the assertions hold for every node
(the root with its children), and so do the rules (root.hpp:128). -/
def compiles (cfg : Config) (depth : Nat) (rules : List Rule) (root : Node) : Bool :=
  (root.kind == .root) && validate rules root &&
    ((root.walk []).all fun (n, parents) => nodeAsserts cfg depth n parents) && helpAsserts root

end ArgRouter
