import Verif.Parse.Mode

/-!
# The node classes and the policies they add

The constructors below are the creation functions of the library applied to explicit policies (the
conversion of plain strings to policies is modelled in `Util/StringPolicy`).
-/

namespace ArgRouter

/-- `bool`: parsed with `parser<bool>` by nodes that take values; flags never parse. flag.hpp:54,
parsing/global_parser.hpp:57-96. -/
def boolType : ValueType := ⟨false, .one (.bool false), fun _ => .ub⟩

/-- The policies a flag or counting flag with a short name gets in front: flag.hpp:139-150,
counting_flag.hpp:147-163. -/
def expanderIf (cfg : Config) (user : List Policy) : List Policy :=
  if cfg.longPrefix != cfg.shortPrefix && user.any (fun | .shortName _ => true | _ => false)
  then [.shortFormExpander] else []

/-- `flag(policies...)`, flag.hpp:28-36, 64-70, 135-156. -/
def mkFlag (cfg : Config) (uid hash : Nat) (user : List Policy) : Node :=
  .mk .flag uid hash boolType
    ([.defaultValue (.one (.bool false)), .minMaxCount 0 0] ++ expanderIf cfg user ++ user) []

/-- `counting_flag_t::merge_impl`, counting_flag.hpp:108-117, for an unsigned `T` of `width` bits:
`static_cast<T>(static_cast<std::size_t>(*result) + 1)`. Simplification: signed types and enums
are not distinguished from the unsigned type of their width; `bool` is not modelled. -/
def countingMerge (width : Nat) (old : Option Value) (_ : Value) : Option Value :=
  match old with
  | some (.one (.int n)) => some (.one (.int ((n + 1) % 2 ^ width)))
  | _ => some (.one (.int (1 % 2 ^ width)))

/-- `counting_flag<T>(policies...)`, counting_flag.hpp:29-36, 68-74, 143-169. -/
def mkCountingFlag (cfg : Config) (uid hash : Nat) (width : Nat) (user : List Policy) : Node :=
  .mk .countingFlag uid hash ⟨false, .one (.int 0), fun _ => .ub⟩
    ([.multiStage (countingMerge width), .minMaxCount 0 0] ++ expanderIf cfg user ++ user) []

/-- `arg<T>(policies...)`, arg.hpp:22-34, 54-59. -/
def mkArg (uid hash : Nat) (vt : ValueType) (user : List Policy) : Node :=
  .mk .arg uid hash vt (.minMaxCount 1 1 :: user) []

/-- `add_missing_min_max_policy`, policy/min_max_count.hpp:190-212, as used by multi_arg_base.hpp:25,
61-77. -/
def addCount (minCount : Nat) (user : List Policy) : List Policy :=
  if user.any (fun | .minMaxCount _ _ => true | _ => false) then user
  else .minMaxCount minCount sizeMax :: user

/-- `multi_arg<T>(policies...)`, multi_arg.hpp:23-26, 111-123. -/
def mkMultiArg (uid hash : Nat) (vt : ValueType) (user : List Policy) : Node :=
  .mk .multiArg uid hash vt (addCount 1 user) []

/-- `positional_arg<T>(policies...)`, positional_arg.hpp:26-29. -/
def mkPositional (uid hash : Nat) (vt : ValueType) (user : List Policy) : Node :=
  .mk .positional uid hash vt (addCount 0 user) []

/-- `std::vector<std::string_view>`. forwarding_arg.hpp:26, 39. -/
def stringList : ValueType := ⟨true, .many [], fun s => .ok (.str s)⟩

/-- `forwarding_arg(policies...)`, forwarding_arg.hpp:24-28. -/
def mkForwarding (uid hash : Nat) (user : List Policy) : Node :=
  .mk .forwarding uid hash stringList (addCount 0 user) []

/-- `add_anonymous_error_name_to_mode`, mode.hpp:22-43: the policies in front of those given. -/
def modePolicies (user : List Policy) : List Policy :=
  (if user.any (fun | .noneName _ => true | .errorName _ => true | _ => false) then []
   else [.errorName (b "(Anon mode)")]) ++ .noResult :: user

/-- `mode(...)` with its explicit policies and children, mode.hpp:55-63. -/
def mkMode (uid hash : Nat) (user : List Policy) (children : List Node) : Node :=
  .mk .mode uid hash boolType (modePolicies user) children

/-- `generate_string_of_child_names`, dependency/detail.hpp:16-71: the group's name and, separated by
commas, the names of its children as `node_token_type` has them. -/
def groupName (cfg : Config) (name : Bytes) (children : List Node) : Bytes :=
  (name ++ (children.map fun c => c.tokenType.str cfg ++ b ",").flatten).dropLast

/-- `add_names`, dependency/detail.hpp:73-115: the error name goes in front of the policies, and the
default display name in front of that if none is given. -/
def groupPolicies (cfg : Config) (default : Bytes) (user : List Policy) (children : List Node) :
    List Policy :=
  match user.findSome? fun | .displayName s => some s | _ => none with
  | some s => .errorName (groupName cfg s children) :: user
  | none => .displayName default :: .errorName (groupName cfg default children) :: user

/-- `one_of(...)` with its explicit policies and children, dependency/one_of.hpp:19-69, 143-147. -/
def mkOneOf (cfg : Config) (uid hash : Nat) (vt : ValueType) (user : List Policy)
    (children : List Node) : Node :=
  .mk .oneOf uid hash vt (groupPolicies cfg (b "One of: ") user children) children

/-- `alias_group(...)` with its explicit policies and children, dependency/alias_group.hpp:33-96,
137-141. -/
def mkAliasGroup (cfg : Config) (uid hash : Nat) (vt : ValueType) (user : List Policy)
    (children : List Node) : Node :=
  .mk .aliasGroup uid hash vt (groupPolicies cfg (b "Alias Group: ") user children) children

/-- `root(children...)` with a validator and the exception translator root adds, root.hpp:26-56 (the
policies `other 0` and `other 1` of the model). -/
def mkRoot (uid hash : Nat) (children : List Node) : Node :=
  .mk .root uid hash boolType [.other 0, .other 1] children

end ArgRouter
