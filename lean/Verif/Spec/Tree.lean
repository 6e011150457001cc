import Verif.Parse.Node

/-!
# Positions in a tree

A node of a tree is identified by its position: the list of child indices that leads to it from the
root. Positions are ordered lexicographically, a prefix coming first, which is the order of a
depth-first walk that visits parents before children and siblings in declaration order.
-/

namespace ArgRouter.Spec

/-- The node at a position. -/
def nodeAt : Node → List Nat → Option Node
  | n, [] => some n
  | n, i :: p =>
    match n.children[i]? with
    | some c => nodeAt c p
    | none => none

/-- The proper ancestors of a position, nearest first, root last. -/
def lineage : Node → List Nat → List Node
  | _, [] => []
  | n, i :: p =>
    match n.children[i]? with
    | some c => lineage c p ++ [n]
    | none => []

/-- `p` is the position of a node of the tree. -/
def IsPosition (root : Node) (p : List Nat) : Prop := ∃ n, nodeAt root p = some n

end ArgRouter.Spec
