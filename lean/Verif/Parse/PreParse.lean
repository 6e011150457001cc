import Verif.Parse.Phases
import Verif.Parse.Suggest

/-!
# Pre-parsing of nodes

Model of `tree_node::pre_parse` (include/arg_router/tree_node.hpp:547-635) and of the `pre_parse`
methods of the node classes.
-/

namespace ArgRouter

/-- A router invocation observed by the user: which node's router, with which arguments. For the help
node the argument is the help output. policy/router.hpp:37-41, help.hpp:201-222. -/
structure Call where
  node : Nat
  args : List Value
  deriving DecidableEq, Repr

/-- The state that outlives a step: the `last_typeid_` of every `one_of` object
(dependency/one_of.hpp:132; it is `mutable` and lives as long as the tree) and the log of router
calls. -/
structure St where
  sel : List (Nat × Nat)
  calls : List Call
  deriving DecidableEq, Repr

/-- The state of a freshly constructed tree. dependency/one_of.hpp:132. -/
def St.fresh : St := ⟨[], []⟩

/-- `last_typeid_` of the `one_of` object `uid`. dependency/one_of.hpp:93-100, 132. -/
def St.lastTypeId (s : St) (uid : Nat) : Option Nat := s.sel.lookup uid

/-- Code with state; a thrown exception leaves the state as it is at that point. Model only: the C++
statements of mode.hpp:233-416 and root.hpp:147-180 run in this order. -/
def M (α : Type) := St → Out α × St

namespace M

/-- Model only: a value; the `return` of mode.hpp:233-416. -/
def pure {α : Type} (a : α) : M α := fun s => (.ok a, s)

/-- Model only: one statement after the other, as in mode.hpp:233-416. -/
def bind {α β : Type} (m : M α) (f : α → M β) : M β := fun s =>
  match m s with
  | (.ok a, s') => f a s'
  | (.throw e, s') => (.throw e, s')
  | (.foreign, s') => (.foreign, s')
  | (.ub, s') => (.ub, s')
  | (.diverge, s') => (.diverge, s')

instance : Monad M where
  pure := pure
  bind := bind

/-- Stateless code. Model only: e.g. parsing/parsing.hpp:35-83. -/
def lift {α : Type} (o : Out α) : M α := fun s => (o, s)

/-- The `throw` of a library exception, e.g. mode.hpp:413. -/
def throw {α : Type} (e : Exc) : M α := lift (.throw e)

end M

/-- The validator of `pre_parse_data`, pre_parse_data.hpp:28-65: gets the matching node. -/
abbrev Validator := Node → M Bool

/-- `always_returns_true`, pre_parse_data.hpp:13-19. -/
def alwaysTrue : Validator := fun _ => pure true

/-- The part of `tree_node::pre_parse_impl` that finds the label, tree_node.hpp:585-613: given the
result of the phases, the processed and unprocessed tokens, returns them with the label consumed
and recognised, or `none` for "no match". -/
def checkLabel (cfg : Config) (n : Node) (m : PreResult) (a : Adapter) : Option Adapter :=
  match m with
  | .ok .skipNode => none
  | .ok .skipNodeButUseSubTargets => some a
  | _ =>
    if n.isNamed then
      let a : Option Adapter :=
        match a.processed, a.unprocessed with
        | [], [] => none
        | [], u :: us => some ⟨[u], us⟩
        | _ :: _, _ => some a
      match a with
      | none => none
      | some ⟨[], _⟩ => none
      | some ⟨first :: rest, us⟩ =>
        let first := if first.pre == .none then n.getToken cfg first.name else first
        if n.matchToken first then some ⟨first :: rest, us⟩ else none
    else some a

/-- `tree_node::pre_parse_impl`, tree_node.hpp:547-635. Returns the target and the arguments left;
`none` leaves the arguments of the caller untouched (the C++ works on a copy, 554, and assigns at
624). -/
def leafPreParse (cfg : Config) (n : Node) (parents : List Node) (args : List Token)
    (processed : Option Target) (validator : Validator) : M (Option (Target × List Token)) := do
  let (m, a, subs) ← M.lift
    (runPhases cfg n parents processed (sortPolicies n.policies) (.ok .validNode) ⟨[], args⟩ [])
  match checkLabel cfg n m a with
  | none => pure none
  | some a => do
    if !(← validator n) then pure none
    else
      match m with
      | .error e => M.throw e
      | .ok _ =>
        let tokens := if n.isNamed then a.processed.tail else a.processed
        pure (some (⟨n, tokens, subs⟩, a.unprocessed))

/-- The same function written with the caller's argument vector as a mutable cell
(`pre_parse_data.args()` is a reference, pre_parse_data.hpp:39): the result also gives the content
of that vector when the call ends, in every way it can end. -/
def leafPreParseRef (cfg : Config) (n : Node) (parents : List Node) (processed : Option Target)
    (validator : Validator) (args : List Token) (s : St) : Out (Option Target) × List Token × St :=
  -- 553-580: the phases work on a copy of the arguments
  match runPhases cfg n parents processed (sortPolicies n.policies) (.ok .validNode) ⟨[], args⟩ []
    with
  | .throw e => (.throw e, args, s)
  | .foreign => (.foreign, args, s)
  | .ub => (.ub, args, s)
  | .diverge => (.diverge, args, s)
  | .ok (m, a, subs) =>
    -- 585-613
    match checkLabel cfg n m a with
    | none => (.ok none, args, s)
    | some a =>
      -- 616-618
      match validator n s with
      | (.throw e, s) => (.throw e, args, s)
      | (.foreign, s) => (.foreign, args, s)
      | (.ub, s) => (.ub, args, s)
      | (.diverge, s) => (.diverge, args, s)
      | (.ok false, s) => (.ok none, args, s)
      | (.ok true, s) =>
        -- 621
        match m with
        | .error e => (.throw e, args, s)
        | .ok _ =>
          -- 624-634
          let args := a.unprocessed
          let tokens := if n.isNamed then a.processed.tail else a.processed
          (.ok (some ⟨n, tokens, subs⟩), args, s)

/-- The validator a `one_of` wraps around the one it is given, dependency/one_of.hpp:90-104. -/
def oneOfValidator (oneOf : Node) (inner : Validator) : Validator := fun child => do
  let last : Option Nat ← fun s => (.ok (s.lastTypeId oneOf.uid), s)
  match last with
  | some h =>
    if h ≠ child.hash then M.throw ⟨.one_of_selected_type_mismatch, [oneOf.tokenType]⟩
    else inner child
  | none => do
    (fun s => (.ok (), { s with sel := (oneOf.uid, child.hash) :: s.sel }) : M Unit)
    inner child

mutual
/-- `pre_parse` of a node that is not a mode: flag.hpp:73-79, counting_flag.hpp:77-83,
multi_arg_base.hpp:81-86, help.hpp:118-126 (all `tree_node::pre_parse`),
dependency/alias_group.hpp:112-126 and dependency/one_of.hpp:84-129. The groups pass their own
parents on, not themselves. -/
def preParse (cfg : Config) (parents : List Node) (args : List Token) (processed : Option Target) :
    Node → Validator → M (Option (Target × List Token))
  | .mk k u h v p cs, validator =>
    match k with
    | .aliasGroup => preParseGroup cfg parents args processed validator cs
    | .oneOf =>
      let self := Node.mk k u h v p cs
      preParseOneOf cfg parents args processed (oneOfValidator self validator) cs
    | _ => leafPreParse cfg (.mk k u h v p cs) parents args processed validator
/-- The children of an `alias_group`, in order, until one matches.
dependency/alias_group.hpp:111-126. -/
def preParseGroup (cfg : Config) (parents : List Node) (args : List Token)
    (processed : Option Target) (validator : Validator) :
    List Node → M (Option (Target × List Token))
  | [] => pure none
  | c :: cs => do
    match ← preParse cfg parents args processed c validator with
    | some r => pure (some r)
    | none => preParseGroup cfg parents args processed validator cs
/-- The children of a `one_of`, in order, until one matches; the wrapped validator is then run once
more on the matching child (one_of.hpp:119-123). -/
def preParseOneOf (cfg : Config) (parents : List Node) (args : List Token)
    (processed : Option Target) (validator : Validator) :
    List Node → M (Option (Target × List Token))
  | [] => pure none
  | c :: cs => do
    match ← preParse cfg parents args processed c validator with
    | some r => do
      let _ ← validator c
      pure (some r)
    | none => preParseOneOf cfg parents args processed validator cs
end

end ArgRouter
