import Verif.Basic

/-!
# `list`

Flattening of `list(...)` parameters of a node.
-/

namespace ArgRouter

/-- A parameter of a node factory: a policy or node, or a `list` (list.hpp:20-50). -/
inductive Param (α : Type) where
  | elem (a : α)
  | list (children : List (Param α))

mutual
/-- `detail::list_expander_impl`, list.hpp:67-88, on the parameters still to be handled, with the
result so far. A list is expanded onto the result first, the rest follows. Simplification: tuples
of types are lists of values. -/
def expandOne {α : Type} (result : List α) : Param α → List α
  | .elem a => result ++ [a]
  | .list cs => expandAll result cs
/-- `list_expander_unpacker`, list.hpp:58-65. -/
def expandAll {α : Type} (result : List α) : List (Param α) → List α
  | [] => result
  | p :: ps => expandAll (expandOne result p) ps
end

/-- `list_expander`, list.hpp:97-101. -/
def listExpander {α : Type} (params : List (Param α)) : List α := expandAll [] params

/-- The children of a `tree_node` built from `params`, tree_node.hpp:437 (`common_filter_tuple` of
the expanded parameters; the `static_assert` of tree_node.hpp:61-65 makes everything else a
policy). -/
def childrenOf {α : Type} (isNode : α → Bool) (params : List (Param α)) : List α :=
  (listExpander params).filter isNode

/-- `policy::is_policy` of one parameter. policy/policy.hpp:30-38, used at tree_node.hpp:436. -/
def policyParam {α : Type} (isNode : α → Bool) : Param α → Option α
  | .elem a => if isNode a then none else some a
  | .list _ => none

/-- The policies of a `tree_node` built from `params`, tree_node.hpp:436: the parameters
themselves are filtered, not the expanded ones. -/
def policiesOf {α : Type} (isNode : α → Bool) (params : List (Param α)) : List α :=
  params.filterMap (policyParam isNode)

/-- The `static_assert` of `list` (list.hpp:27-28) and of `tree_node` (tree_node.hpp:61-65): list
children are tree nodes (a `list` is not one). -/
def paramsCompile {α : Type} (isNode : α → Bool) (params : List (Param α)) : Bool :=
  params.all fun
    | .elem _ => true
    | .list cs => cs.all fun
      | .elem a => isNode a
      | .list _ => false

end ArgRouter
