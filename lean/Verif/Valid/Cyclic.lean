import Verif.Valid.Walk

/-!
# The compile-time checks of `alias` and `dependent`

The two policies have the same checker (alias.hpp:182-241, dependent.hpp:113-172).
-/

namespace ArgRouter

/-- The two policies that refer to other nodes. policy/alias.hpp:22, policy/dependent.hpp:23. -/
inductive LinkKind where
  | alias | dependent
  deriving DecidableEq, Repr

/-- The names in the policy of this kind, if the node has one: `aliased_policies_type`,
`depends_policies_type`. policy/alias.hpp:26, policy/dependent.hpp:27. -/
def Node.links (k : LinkKind) (n : Node) : Option (List NameRef) :=
  n.policies.findSome? fun
    | .alias refs => if k = .alias then some refs else none
    | .dependent refs => if k = .dependent then some refs else none
    | _ => none

/-- `alias_targets`, alias.hpp:182-208, and `depends_targets`, dependent.hpp:113-139: the nodes of the
mode that carry the names. `none`: a static assertion fails, because the number of nodes found is not
the number of names, or because a node is found twice. -/
def linkTargets (mode : Node) (refs : List NameRef) : Option (List Node) :=
  if (mode.owners refs).length = refs.length ∧ ((mode.owners refs).map Node.hash).Nodup then
    some (mode.owners refs)
  else none

/-- The outcome of the check. `endless`: the recursion is not finished within the given number of
steps (the compiler stops at its own limit, with an error). policy/alias.hpp:210-241,
policy/dependent.hpp:141-172. -/
inductive Verdict where
  | accept | reject | endless
  deriving DecidableEq, Repr

/-- `cyclic_dependency_checker::check`, alias.hpp:210-241, dependent.hpp:141-172, for the policy with
the names `self`: a work list from index `I` on. A node with a policy of the kind is a failure if it
is this very policy type (the same names); otherwise its targets are appended. Simplification: the
part of the list before `I` is dropped. The second `return` is also instantiated after an append, on a
part of the same work list, which does not change the verdict. -/
def cyclicCheck (k : LinkKind) (mode : Node) (self : List NameRef) : Nat → List Node → Verdict
  | 0, _ => .endless
  | _ + 1, [] => .accept
  | fuel + 1, n :: rest =>
    match n.links k with
    | none => cyclicCheck k mode self fuel rest
    | some refs =>
      if refs = self then .reject
      else
        match linkTargets mode refs with
        | none => .reject
        | some ts => cyclicCheck k mode self fuel (rest ++ ts)

/-- The check of the policy with the names `self`, alias.hpp:82-84, dependent.hpp:60-62. -/
def linkCheck (fuel : Nat) (k : LinkKind) (mode : Node) (self : List NameRef) : Verdict :=
  match linkTargets mode self with
  | none => .reject
  | some ts => cyclicCheck k mode self fuel ts

/-- `node_fixed_count`, alias.hpp:169-178: `none` if a static assertion fails. -/
def fixedCountOf (n : Node) : Option Nat :=
  match n.minMaxCount with
  | none => none
  | some (mn, mx) => if mn = mx then some mn else none

/-- The compile-time checks of an alias in its owner, alias.hpp:79-88 (count, targets, cycles) and
`check_target_counts`, 243-253. -/
def aliasCheck (fuel : Nat) (mode owner : Node) (self : List NameRef) : Verdict :=
  match fixedCountOf owner, linkTargets mode self with
  | some count, some ts =>
    match cyclicCheck .alias mode self fuel ts with
    | .accept => if ts.all fun t => fixedCountOf t == some count then .accept else .reject
    | v => v
  | _, _ => .reject

end ArgRouter
