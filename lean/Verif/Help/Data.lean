import Verif.Parse.Node
import Verif.Util.Decimal

/-!
# Help data

What each node contributes to the help output: model of the `help_data_type` members of the node
classes and of `help_t::generate_runtime_help_data`. In C++ the labels are compile-time strings.
-/

namespace ArgRouter

/-- A `min_max_value_ct` policy, min_max_value.hpp:97-184: the bounds known at compile time, and
whether their type is unsigned. The run-time policy `min_max_value_t` has no static
`minimum_value()`/`maximum_value()` and leaves no trace in the help output. -/
structure CtRange where
  lo : Option Int
  hi : Option Int
  unsigned : Bool

/-- What the help output depends on besides the tree: the token prefixes and the compile-time value
range of each node. Simplification: a range is attached here rather than being a `Policy`.
config.hpp:52, 58 and tree_node.hpp:229-257. -/
structure HelpInfo where
  cfg : Config
  range : Node → Option CtRange

/-- A row of help data with the rows below it: `help_data_type` with its `children`, and
`runtime_help_data`, tree_node.hpp:163-429 and tree_node_fwd.hpp:19. -/
inductive HelpRow where
  | mk (label description : Bytes) (children : List HelpRow)

namespace Node

/-- `description()`. traits.hpp:389-401, policy/description.hpp:39. -/
def descriptionText (n : Node) : Option Bytes :=
  n.policies.findSome? fun | .description s => some s | _ => none

/-- `value_separator()`. traits.hpp:408-420, policy/value_separator.hpp:55. -/
def separator (n : Node) : Option Bytes :=
  n.policies.findSome? fun | .valueSeparator s => some s | _ => none

/-- `value_suffix`, tree_node.hpp:177-224. -/
def valueSuffix (info : HelpInfo) (n : Node) : Bytes :=
  match info.range n with
  | none => []
  | some r =>
    if r.lo.isNone && r.hi.isNone then []
    else
      let minValue := match r.lo with
        | some v => ctsOfInt v
        | none => if r.unsigned then b "0" else b "-N"
      let maxValue := match r.hi with
        | some v => ctsOfInt v
        | none => b "N"
      b "<" ++ minValue ++ b "-" ++ maxValue ++ b ">"

/-- `value_separator_suffix`, tree_node.hpp:229-261. -/
def valueSeparatorSuffix (info : HelpInfo) (n : Node) : Bytes :=
  let suffix := n.valueSuffix info
  let valueStr := if suffix == [] then b "<Value>" else suffix
  match n.separator with
  | some s => s ++ valueStr
  | none => if n.minMaxCount == some (1, 1) then b " " ++ valueStr else []

/-- `label_generator`, tree_node.hpp:266-294. -/
def labelGenerator (info : HelpInfo) (n : Node) : Bytes :=
  match n.longName, n.shortName with
  | some l, some s =>
    info.cfg.longPrefix ++ l ++ b "," ++ info.cfg.shortPrefix ++ s ++ n.valueSeparatorSuffix info
  | some l, none => info.cfg.longPrefix ++ l ++ n.valueSeparatorSuffix info
  | none, some s => info.cfg.shortPrefix ++ s ++ n.valueSeparatorSuffix info
  | none, none =>
    match n.noneName with
    | some s => s ++ n.valueSeparatorSuffix info
    | none => []

/-- `count_suffix`, tree_node.hpp:313-353. -/
def countSuffix (n : Node) : Bytes :=
  match n.minMaxCount with
  | none => b "[0,N]"
  | some (mn, mx) =>
    if mn == mx then b "[" ++ ctsOfInt mn ++ b "]"
    else b "[" ++ ctsOfInt mn ++ b "," ++ (if mx == sizeMax then b "N" else ctsOfInt mx) ++ b "]"

/-- `help_data_type::label` of the node classes: tree_node.hpp:416, multi_arg.hpp:51-54,
forwarding_arg.hpp:46-49, positional_arg.hpp:50-61, mode.hpp:111-144, root.hpp,
alias_group.hpp:73-75, one_of.hpp:51. -/
def helpLabel (info : HelpInfo) (n : Node) : Bytes :=
  match n.kind with
  | .flag | .countingFlag | .arg | .help => n.labelGenerator info
  | .multiArg | .forwarding => n.labelGenerator info ++ b " " ++ n.countSuffix
  | .positional => b "<" ++ n.displayName.getD [] ++ b "> " ++ n.countSuffix
  | .aliasGroup => n.displayName.getD [] ++ n.valueSuffix info
  | .oneOf => n.displayName.getD []
  | .mode => if n.isAnonymous then b " " else n.labelGenerator info
  | .root => []

/-- `help_data_type::description`: the description policy's text if there is one
(tree_node.hpp:298-309), nothing for the groups and root. -/
def helpDescription (n : Node) : Bytes :=
  match n.kind with
  | .aliasGroup | .oneOf | .root => []
  | _ => n.descriptionText.getD []

/-- The `filter` of `generate_runtime_help_data`, help.hpp:141-151. -/
def helpShown (n : Node) : Bool := n.runtimeEnabled != some false

end Node

/-- `top_bar`, detail.hpp:170. -/
def topBar : Bytes := b "┌ "
/-- `middle_bar`, detail.hpp:171. -/
def middleBar : Bytes := b "├ "
/-- `bottom_bar`, detail.hpp:172. -/
def bottomBar : Bytes := b "└ "

/-- `prefixer`, detail.hpp:163-168: the child's label behind a bar, and none of its children. -/
def prefixStatic (bar : Bytes) : HelpRow → HelpRow
  | .mk l d _ => .mk (bar ++ l) d []

/-- `children_help_data_type::children`, detail.hpp:184-188: all middle, then the first one replaced,
then the last one (of a single child it is the last one that stays). -/
def barsStatic : List HelpRow → List HelpRow
  | [] => []
  | r :: rs =>
    ((prefixStatic topBar r :: rs.map (prefixStatic middleBar)).dropLast) ++
      [prefixStatic bottomBar ((r :: rs).getLast (by simp))]

/-- Puts a bar before the label of a run-time row, detail.hpp:205-211. -/
def prefixRuntime (bar : Bytes) : HelpRow → HelpRow
  | .mk l d cs => .mk (bar ++ l) d cs

/-- The bars of run-time rows after the first, detail.hpp:207-211. -/
def barsRest : List HelpRow → List HelpRow
  | [] => []
  | [r] => [prefixRuntime bottomBar r]
  | r :: s :: rs => prefixRuntime middleBar r :: barsRest (s :: rs)

/-- `children_help_data_type::runtime_children` after the data has been gathered,
detail.hpp:190-214. -/
def barsRuntime : List HelpRow → List HelpRow
  | r :: s :: rs => prefixRuntime topBar r :: barsRest (s :: rs)
  | rs => rs

mutual
/-- `help_data_type<Flatten>` of a node, including its `children`: tree_node.hpp:416-428 (leaf
nodes), mode.hpp:111-144, root.hpp, detail.hpp:160-188 (groups). -/
def staticHelp (info : HelpInfo) (flatten : Bool) : Node → HelpRow
  | .mk k u h v p cs =>
    .mk ((Node.mk k u h v p cs).helpLabel info) (Node.mk k u h v p cs).helpDescription
      (match k with
       | .root => staticHelps info flatten cs
       | .mode =>
         if (Node.mk k u h v p cs).isAnonymous || flatten then staticHelps info flatten cs else []
       | .aliasGroup | .oneOf => barsStatic (staticHelps info flatten cs)
       | _ => [])
/-- `all_children_help`, tree_node.hpp:407-409. -/
def staticHelps (info : HelpInfo) (flatten : Bool) : List Node → List HelpRow
  | [] => []
  | c :: cs => staticHelp info flatten c :: staticHelps info flatten cs
end

mutual
/-- `help_data_type<Flatten>::runtime_children` of a node, or the default where the class has none:
tree_node.hpp:370-404, mode.hpp:132-143, detail.hpp:190-214, help.hpp:154-162. Note that modes and
groups continue with `Flatten` set. -/
def runtimeRows (info : HelpInfo) (flatten : Bool) : Node → List HelpRow
  | .mk k u h v p cs =>
    match k with
    | .mode =>
      if (Node.mk k u h v p cs).isAnonymous || flatten then defaultRows info true cs else []
    | .aliasGroup | .oneOf => barsRuntime (defaultRows info true cs)
    | _ => defaultRows info flatten cs
/-- `default_leaf_help_data_type<Flatten>::runtime_children`, tree_node.hpp:370-404. -/
def defaultRows (info : HelpInfo) (flatten : Bool) : List Node → List HelpRow
  | [] => []
  | c :: cs =>
    if c.helpShown then
      .mk (c.helpLabel info) c.helpDescription (runtimeRows info flatten c) ::
        defaultRows info flatten cs
    else defaultRows info flatten cs
end

/-- `generate_runtime_help_data`, help.hpp:135-165. -/
def runtimeHelp (info : HelpInfo) (flatten : Bool) (target : Node) : HelpRow :=
  .mk (target.helpLabel info) target.helpDescription (runtimeRows info flatten target)

mutual
/-- The rows in the order in which `line_formatter_dispatch` visits them, each with its depth,
default_help_formatter.hpp:335-368. -/
def HelpRow.flat (depth : Nat) : HelpRow → List (Nat × Bytes × Bytes)
  | .mk l d cs => (depth, l, d) :: HelpRow.flatList (depth + 1) cs
/-- The loop over the children, policy/default_help_formatter.hpp:342-348, 360-367. -/
def HelpRow.flatList (depth : Nat) : List HelpRow → List (Nat × Bytes × Bytes)
  | [] => []
  | r :: rs => HelpRow.flat depth r ++ HelpRow.flatList depth rs
end

end ArgRouter
