import Verif.Parse.Token

/-!
# The parse tree

Policies, nodes and their static queries. In C++ the tree is a type; here it is a value, and a
compile-time `if constexpr (has_xyz_method_v<Node>)` is a query on the policy list.
-/

namespace ArgRouter

/-- A value produced by parsing one token. `int` also stands for enums. Simplification: values of
user-defined types are represented by the integer or byte string they were parsed from. What
`parser<T>::parse` returns, parsing/global_parser.hpp:25-118. -/
inductive Scalar where
  | bool (v : Bool)
  | int (v : Int)
  | str (v : Bytes)
  deriving DecidableEq, Repr

/-- A value of a node's `value_type`: a single value or a container of values. Simplification: the
`std::variant` of a `one_of` is represented by the held value. tree_node.hpp:25-60 (`value_type`
of the classes, e.g. flag.hpp:54, multi_arg_base.hpp:51). -/
inductive Value where
  | one (s : Scalar)
  | many (l : List Scalar)
  deriving DecidableEq, Repr

/-- The long/short name policies listed in `alias(...)` and `dependent(...)`; a policy type is
identified by its kind and its string (alias.hpp:163-167, dependent.hpp:100-104). -/
inductive NameRef where
  | long (n : Bytes)
  | short (n : Bytes)
  deriving DecidableEq, Repr

/-- `std::numeric_limits<std::size_t>::max()` on a 64 bit platform. Used at
policy/min_max_count.hpp:85-90, 135 and help.hpp:97-99. -/
def sizeMax : Nat := 2 ^ 64 - 1

/-- The policies shipped with the library, include/arg_router/policy/*.hpp (policies by `is_policy`,
policy/policy.hpp:30-38), and those of the user's that only validate values. -/
inductive Policy where
  /-- `long_name_t` -/
  | longName (n : Bytes)
  /-- `short_name_t` -/
  | shortName (n : Bytes)
  /-- `none_name_t` -/
  | noneName (n : Bytes)
  /-- `display_name_t` -/
  | displayName (n : Bytes)
  /-- `error_name_t` -/
  | errorName (n : Bytes)
  /-- `description_t` -/
  | description (s : Bytes)
  /-- `required_t` -/
  | required
  /-- `default_value` -/
  | defaultValue (v : Value)
  /-- `min_max_count_t` -/
  | minMaxCount (mn mx : Nat)
  /-- `value_separator_t` -/
  | valueSeparator (s : Bytes)
  /-- `short_form_expander_t` -/
  | shortFormExpander
  /-- `token_end_marker_t` -/
  | tokenEndMarker (s : Bytes)
  /-- `runtime_enable` -/
  | runtimeEnable (enabled : Bool)
  /-- `runtime_enable_required` -/
  | runtimeEnableRequired (enabled : Bool) (v : Value)
  /-- `alias_t` -/
  | alias (refs : List NameRef)
  /-- `dependent_t` -/
  | dependent (refs : List NameRef)
  /-- `min_max_value_t` / `min_max_value_ct` with its less-than comparison -/
  | minMaxValue (lo hi : Option Value) (less : Value → Value → Bool)
  /-- `custom_parser` -/
  | customParser (f : Bytes → Out Scalar)
  /-- `router` -/
  | router
  /-- `multi_stage_value` with its merge function -/
  | multiStage (merge : Option Value → Value → Option Value)
  /-- `no_result_value` -/
  | noResult
  /-- the help formatter of a `help_t` node, as the function from the tokens given to it to the help
  output for its root, help.hpp:178-275. `Help/Program` puts it there. -/
  | helpText (f : List Token → Out Bytes)
  /-- a policy of the user's with a validation phase and nothing else, as `is_even` in
  examples/c++17/custom_policy_and_node/main.cpp:48-62. The tag tells such classes apart. -/
  | validation (tag : Nat) (f : Value → Out Unit)
  /-- policies that take no part in parsing (formatters, texts, translators, validators, ...) -/
  | other (tag : Nat)

/-- What the parsing code needs to know of a node's `value_type`. parsing/global_parser.hpp:25-118,
multi_arg_base.hpp:98-112. -/
structure ValueType where
  /-- a container with `push_back` that is not a string, multi_arg_base.hpp:101-103 -/
  isList : Bool
  /-- `value_type{}` -/
  zero : Value
  /-- `parser<value_type>::parse` (for containers: of the element type), global_parser.hpp -/
  parse : Bytes → Out Scalar

/-- The node classes. flag.hpp:29, counting_flag.hpp:30, arg.hpp:22, multi_arg.hpp:24,
positional_arg.hpp:27, forwarding_arg.hpp:25, mode.hpp:56, root.hpp:54, help.hpp:49,
dependency/alias_group.hpp:34, dependency/one_of.hpp:20. -/
inductive Kind where
  | flag | countingFlag | arg | multiArg | positional | forwarding
  | aliasGroup | oneOf | mode | help | root
  deriving DecidableEq, Repr

/-- A tree node: its class, the identity of the object (`uid`), `utility::type_hash` of its type,
its value type, its policies in declaration order (including those the class adds) and its
children (tree_node.hpp:29-70). -/
inductive Node where
  | mk (kind : Kind) (uid hash : Nat) (vt : ValueType) (policies : List Policy)
      (children : List Node)

namespace Node

/-- The class of a node, tree_node.hpp:25. -/
def kind : Node → Kind | .mk k _ _ _ _ _ => k
/-- Model only: tells two objects of the same type apart (their addresses,
dependency/one_of.hpp:132). -/
def uid : Node → Nat | .mk _ u _ _ _ _ => u
/-- The type of a node as `utility::type_hash`, utility/type_hash.hpp:29-31. -/
def hash : Node → Nat | .mk _ _ h _ _ _ => h
/-- The node's `value_type`, tree_node.hpp:25-60. -/
def vt : Node → ValueType | .mk _ _ _ v _ _ => v
/-- `policies_type`, tree_node.hpp:51. -/
def policies : Node → List Policy | .mk _ _ _ _ p _ => p
/-- `children()`, tree_node.hpp:148-154. -/
def children : Node → List Node | .mk _ _ _ _ _ c => c

/-- `long_name()` if the node has such a policy (traits::has_long_name_method). traits.hpp:294-306,
policy/long_name.hpp:39. -/
def longName (n : Node) : Option Bytes :=
  n.policies.findSome? fun | .longName s => some s | _ => none
/-- `short_name()`. traits.hpp:313-325, policy/short_name.hpp:44. -/
def shortName (n : Node) : Option Bytes :=
  n.policies.findSome? fun | .shortName s => some s | _ => none
/-- `none_name()`. traits.hpp:351-363, policy/none_name.hpp:42. -/
def noneName (n : Node) : Option Bytes :=
  n.policies.findSome? fun | .noneName s => some s | _ => none
/-- `display_name()`. traits.hpp:332-344, policy/display_name.hpp:45. -/
def displayName (n : Node) : Option Bytes :=
  n.policies.findSome? fun | .displayName s => some s | _ => none
/-- `error_name()`. traits.hpp:370-382, policy/error_name.hpp:43. -/
def errorName (n : Node) : Option Bytes :=
  n.policies.findSome? fun | .errorName s => some s | _ => none

/-- `is_named`, tree_node.hpp:68-70. -/
def isNamed (n : Node) : Bool := n.longName.isSome || n.shortName.isSome || n.noneName.isSome

/-- `minimum_count()` and `maximum_count()`. traits.hpp:446-477, policy/min_max_count.hpp:48, 51. -/
def minMaxCount (n : Node) : Option (Nat × Nat) :=
  n.policies.findSome? fun | .minMaxCount a c => some (a, c) | _ => none

/-- `has_token_end_marker_method_v`. traits.hpp:427-439, policy/token_end_marker.hpp:49. -/
def hasTokenEndMarker (n : Node) : Bool :=
  n.policies.any fun | .tokenEndMarker _ => true | _ => false

/-- `has_multi_stage_value_v`. policy/multi_stage_value.hpp:62-80. -/
def isMultiStage (n : Node) : Bool :=
  n.policies.any fun | .multiStage _ => true | _ => false

/-- `has_no_result_value_v`: `alias_t` derives from `no_result_value`, alias.hpp:22. -/
def hasNoResult (n : Node) : Bool :=
  n.policies.any fun | .noResult => true | .alias _ => true | _ => false

/-- has a policy with a routing phase (`router`). policy/policy.hpp:140-154, policy/router.hpp:37-41. -/
def hasRouter (n : Node) : Bool := n.policies.any fun | .router => true | _ => false

/-- `runtime_enabled()` where the node has such a method. traits.hpp:653-665,
policy/runtime_enable.hpp:37. -/
def runtimeEnabled (n : Node) : Option Bool :=
  n.policies.findSome? fun
    | .runtimeEnable e => some e
    | .runtimeEnableRequired e _ => some e
    | _ => none

/-- A mode without a `none_name`, mode.hpp:104. -/
def isAnonymous (n : Node) : Bool := n.noneName.isNone

/-- has a `parse(parse_target, ...)` method (traits::has_parse_method): every class but the
dependency groups and root. parsing/parse_target.hpp:150-159. -/
def hasParse (n : Node) : Bool :=
  match n.kind with
  | .aliasGroup => false
  | .oneOf => false
  | .root => false
  | _ => true

/-- `parsing::match<Node>(token)`, parsing.hpp:35-57. -/
def matchToken (n : Node) (t : Token) : Bool :=
  (t.pre == .long && n.longName == some t.name) ||
  (t.pre == .short && n.shortName == some t.name) ||
  (t.pre == .none && n.noneName == some t.name)

/-- `parsing::node_token_type<Node>()`, parsing.hpp:67-83. A node without any name does not
compile; the model gives it an empty name. -/
def tokenType (n : Node) : Token :=
  match n.errorName with
  | some s => ⟨.none, s⟩
  | none =>
  match n.displayName with
  | some s => ⟨.none, s⟩
  | none =>
  match n.longName with
  | some s => ⟨.long, s⟩
  | none =>
  match n.shortName with
  | some s => ⟨.short, s⟩
  | none =>
  match n.noneName with
  | some s => ⟨.none, s⟩
  | none => ⟨.none, []⟩

/-- `get_token_type(node, name)`. parsing/token_type.hpp:126-146. -/
def getToken (cfg : Config) (n : Node) (s : Bytes) : Token :=
  getTokenTypeNode cfg n.longName.isSome n.shortName.isSome s

/-- The name policies of a node as references. The policies `alias(...)` and `dependent(...)` refer
to, policy/alias.hpp:26, policy/dependent.hpp:27. -/
def nameRefs (n : Node) : List NameRef :=
  n.policies.filterMap fun
    | .longName s => some (.long s)
    | .shortName s => some (.short s)
    | _ => none

mutual
/-- `utility::tree_recursor`, tree_recursor.hpp:22-34: the node and its descendants, each with its
parents (nearest first), in pre-order. `ps` are the parents of the start node. -/
def walk (ps : List Node) : Node → List (Node × List Node)
  | .mk k u h v p cs => (.mk k u h v p cs, ps) :: walkList (.mk k u h v p cs :: ps) cs
/-- The loop of `tree_recursor_impl` over the children, utility/tree_recursor.hpp:22-34. -/
def walkList (ps : List Node) : List Node → List (Node × List Node)
  | [] => []
  | c :: cs => walk ps c ++ walkList ps cs
end

/-- The nodes visited by `tree_recursor`. utility/tree_recursor.hpp:22-34. -/
def nodes (n : Node) : List Node := (walk [] n).map (·.1)

mutual
/-- The owners found by `tree_type_recursor_collector` with the visitor of alias.hpp:183-201 and
dependent.hpp:114-132: for every node, first what its children contribute, then the node once for
each of its policies that is listed in `refs` (tree_recursor.hpp:55-80). -/
def owners (refs : List NameRef) : Node → List Node
  | .mk k u h v p cs =>
    ownersList refs cs ++
      ((Node.mk k u h v p cs).nameRefs.filter (refs.contains ·)).map fun _ => .mk k u h v p cs
/-- The same for a list of nodes: the loop over the children, utility/tree_recursor.hpp:36-53. -/
def ownersList (refs : List NameRef) : List Node → List Node
  | [] => []
  | c :: cs => owners refs c ++ ownersList refs cs
end

end Node

/-- `policy::nearest_mode_like`, policy.hpp:206-229: the first node with a routing policy. -/
def nearestModeLike (ns : List Node) : Option Node := ns.find? Node.hasRouter

/-- `is_runtime_disabled`, parsing.hpp:132-147. -/
def isRuntimeDisabled (ns : List Node) : Bool := ns.any fun n => n.runtimeEnabled == some false

end ArgRouter
