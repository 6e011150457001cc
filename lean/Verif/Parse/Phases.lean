import Verif.Parse.Adapter
import Verif.Parse.Node
import Verif.Utf8.Grapheme

/-!
# The pre-parse phases of the policies

Model of the `pre_parse_phase` methods in include/arg_router/policy/*.hpp and of the loop that runs
them, include/arg_router/tree_node.hpp:547-635.
-/

namespace ArgRouter

open Utf8

/-- `pre_parse_action`, parsing.hpp:15-24. -/
inductive Action where
  | skipNode
  | validNode
  | skipNodeButUseSubTargets
  deriving DecidableEq, Repr

/-- A `parse_target` without sub-targets: the node to run and the value tokens it will get,
parse_target.hpp:28-141. The stored closure is determined by the node. -/
structure Leaf where
  node : Node
  tokens : List Token

/-- A `parse_target` with sub-targets. In the library sub-targets never have sub-targets of their
own: `mode_t` flattens them (mode.hpp:328-334) and `alias_t` creates them without (alias.hpp:137). -/
structure Target where
  node : Node
  tokens : List Token
  subs : List Leaf

/-- `pre_parse_result`, parsing.hpp:27. -/
abbrev PreResult := Except Exc Action

/-- Policy priorities (`constexpr static auto priority` in each policy; default 0,
tree_node.hpp:29-54). -/
def Policy.priority : Policy → Nat
  | .valueSeparator _ => 1000
  | .shortFormExpander => 900
  | .runtimeEnable _ => 800
  | .runtimeEnableRequired _ _ => 800
  | .tokenEndMarker _ => 760
  | .minMaxCount _ _ => 750
  | .defaultValue _ => 500
  | .required => 450
  | .alias _ => 100
  | _ => 0

/-- `has_pre_parse_phase_method_v`. policy/policy.hpp:59-78. -/
def Policy.hasPreParse : Policy → Bool
  | .valueSeparator _ => true
  | .shortFormExpander => true
  | .runtimeEnable _ => true
  | .runtimeEnableRequired _ _ => true
  | .tokenEndMarker _ => true
  | .minMaxCount _ _ => true
  | .alias _ => true
  | .dependent _ => true
  | _ => false

/-- Insert before the first element of lower or equal priority: building from the right this is a
stable sort by descending priority. `mp_sort` with `priority_order`, tree_node.hpp:29-54. -/
def insertPriority (p : Policy) : List Policy → List Policy
  | [] => [p]
  | q :: qs => if q.priority ≤ p.priority then p :: q :: qs else q :: insertPriority p qs

/-- `priority_ordered_policies_type`, tree_node.hpp:29-54. -/
def sortPolicies : List Policy → List Policy
  | [] => []
  | p :: ps => insertPriority p (sortPolicies ps)

/-- `std::string_view::find_first_of(chars)`: index of the first byte that is one of `chars`. Used at
policy/value_separator.hpp:97. -/
def findFirstOf (s chars : Bytes) : Option Nat := s.findIdx? fun c => chars.contains c

/-- `value_separator_t::pre_parse_phase`, policy/value_separator.hpp:70-126. -/
def valueSeparatorPhase (cfg : Config) (owner : Node) (sep : Bytes) (a : Adapter) :
    Out (PreResult × Adapter) :=
  if a.isEmpty then .ok (.ok .validNode, a)
  else do
    let first := Adapter.begin_
    let firstToken ← a.deref first
    match findFirstOf firstToken.name sep with
    | none =>
      let processed :=
        if firstToken.pre == .none then getTokenType cfg firstToken.name else firstToken
      if owner.matchToken processed then
        return (.error ⟨.missing_value_separator, [owner.tokenType]⟩, a)
      else return (.ok .skipNode, a)
    | some idx =>
      if idx + sep.length ≤ firstToken.name.length then
        let value := firstToken.name.drop (idx + sep.length)
        if value.isEmpty then return (.ok .skipNode, a)
        else do
          let (a, _) ← a.insert (first.add 1) ⟨.none, value⟩
          let a ← a.set first ⟨firstToken.pre, firstToken.name.take idx⟩
          return (.ok .validNode, a)
      -- `substr` with a position past the end throws std::out_of_range
      else .foreign

/-- `short_form_expander_t::pre_parse_phase`, policy/short_form_expander.hpp:49-115. `reserve` with
a wrapped-around size throws `std::length_error` (line 100). -/
def shortFormExpanderPhase (cfg : Config) (owner : Node) (a : Adapter) :
    Out (PreResult × Adapter) :=
  if a.isEmpty then .ok (.ok .validNode, a)
  else do
    let first := Adapter.begin_
    let firstToken ← a.deref first
    let tt := if firstToken.pre == .none then owner.getToken cfg firstToken.name else firstToken
    if tt.pre != .short then return (.ok .validNode, a)
    else if tt.name.length == (owner.shortName.getD []).length then return (.ok .validNode, a)
    else
      let a := a.transfer first
      if a.unprocessed.length + tt.name.length == 0 then .foreign
      else do
        let gcs ← graphemes tt.name
        let a := { a with unprocessed := gcs.tail.map (Token.mk .short) ++ a.unprocessed }
        let a ← a.set first ⟨.short, gcs.headD []⟩
        return (.ok .validNode, a)

/-- `token_end_marker_t::pre_parse_phase`, policy/token_end_marker.hpp:64-94. -/
def tokenEndMarkerPhase (owner : Node) (marker : Bytes) (a : Adapter) :
    Out (PreResult × Adapter) := do
  let it ← a.findFrom (fun t => t.name == marker) (a.size + 1)
    (Adapter.begin_.add (if owner.isNamed then 1 else 0))
  let a := a.transfer it
  let (a, _) ← a.erase it
  return (.ok .validNode, a)

/-- `size_t` subtraction of one, wrapping. policy/min_max_count.hpp:113. -/
def sizePred (n : Nat) : Nat := if n = 0 then sizeMax else n - 1

/-- `static_cast<std::ptrdiff_t>(n)` of a `size_t`. policy/min_max_count.hpp:113. -/
def toDiff (n : Nat) : Int := if n < 2 ^ 63 then n else (n : Int) - 2 ^ 64

/-- `min_max_count_t::pre_parse_phase`, policy/min_max_count.hpp:72-116. -/
def minMaxCountPhase (owner : Node) (mn mx : Nat) (a : Adapter) : PreResult × Adapter :=
  let offset := if owner.isNamed then 1 else 0
  let mnCount := if mn = sizeMax then mn else mn + offset
  let mxCount := if mx = sizeMax then mx else mx + offset
  let numTokens := if owner.hasTokenEndMarker then a.processed.length else a.size
  if owner.hasTokenEndMarker && decide (numTokens > mxCount) then
    (.error ⟨.maximum_count_exceeded, [owner.tokenType]⟩, a)
  else if numTokens < mnCount then
    (.error ⟨.minimum_count_not_reached, [owner.tokenType]⟩, a)
  else
    (.ok .validNode,
      a.transfer (Adapter.begin_.add (toDiff (min (sizePred mxCount) (sizePred numTokens)))))

/-- `runtime_enable::pre_parse_phase`, policy/runtime_enable.hpp:53-66. -/
def runtimeEnablePhase (enabled : Bool) (a : Adapter) : PreResult × Adapter :=
  (.ok (if enabled then .validNode else .skipNode), a)

/-- `alias_t::pre_parse_phase`, policy/alias.hpp:60-154. `parents` are the owner's parents. The
model returns `ub` where the C++ does not compile (no count, no mode). The fixed count of the owner
is its minimum count (169-179). -/
def aliasPhase (cfg : Config) (owner : Node) (parents : List Node) (refs : List NameRef)
    (a : Adapter) (subs : List Leaf) : Out (PreResult × Adapter × List Leaf) :=
  match owner.minMaxCount, nearestModeLike (owner :: parents) with
  | some (count, _), some mode =>
    if count + 1 > a.size then
      .ok (.error ⟨.too_few_values_for_alias, [owner.tokenType]⟩, a, subs)
    else do
      let label ← a.deref Adapter.begin_
      let label := if label.pre == .none then owner.getToken cfg label.name else label
      if !owner.matchToken label then return (.ok .skipNode, a, subs)
      else
        let a := a.transfer (Adapter.begin_.add count)
        let values := ((a.processed ++ a.unprocessed).drop 1).take count
        let new := (mode.nodes.filter fun n => n.nameRefs.any (refs.contains ·)).map
          fun n => Leaf.mk n values
        return (.ok .skipNodeButUseSubTargets,
          { a with processed := a.processed.drop (count + 1) }, subs ++ new)
  | _, _ => .ub

/-- `dependent_t::pre_parse_phase`, policy/dependent.hpp:48-91. -/
def dependentPhase (parents : List Node) (processed : Option Target) (refs : List NameRef)
    (a : Adapter) : Out (PreResult × Adapter) :=
  match nearestModeLike parents, processed with
  | some mode, some target =>
    let missing := (mode.owners refs).find? fun n =>
      !(target.node.hash == n.hash || target.subs.any fun s => s.node.hash == n.hash)
    match missing with
    | some n => .ok (.error ⟨.dependent_argument_missing, [n.tokenType]⟩, a)
    | none => .ok (.ok .validNode, a)
  | _, _ => .ub

/-- One policy's phase: the result, the adapter and the sub-targets of the node's own target. The calls at tree_node.hpp:560-580. -/
def Policy.phase (cfg : Config) (owner : Node) (parents : List Node) (processed : Option Target) :
    Policy → Adapter → List Leaf → Out (PreResult × Adapter × List Leaf)
  | .valueSeparator s, a, subs => do
    let (r, a) ← valueSeparatorPhase cfg owner s a; return (r, a, subs)
  | .shortFormExpander, a, subs => do
    let (r, a) ← shortFormExpanderPhase cfg owner a; return (r, a, subs)
  | .runtimeEnable e, a, subs => let (r, a) := runtimeEnablePhase e a; .ok (r, a, subs)
  | .runtimeEnableRequired e _, a, subs => let (r, a) := runtimeEnablePhase e a; .ok (r, a, subs)
  | .tokenEndMarker m, a, subs => do
    let (r, a) ← tokenEndMarkerPhase owner m a; return (r, a, subs)
  | .minMaxCount mn mx, a, subs => let (r, a) := minMaxCountPhase owner mn mx a; .ok (r, a, subs)
  | .alias refs, a, subs => aliasPhase cfg owner parents refs a subs
  | .dependent refs, a, subs => do
    let (r, a) ← dependentPhase parents processed refs a; return (r, a, subs)
  | _, a, subs => .ok (.ok .validNode, a, subs)

/-- The loop over the priority-ordered policies, tree_node.hpp:560-580. -/
def runPhases (cfg : Config) (owner : Node) (parents : List Node) (processed : Option Target) :
    List Policy → PreResult → Adapter → List Leaf → Out (PreResult × Adapter × List Leaf)
  | [], m, a, subs => .ok (m, a, subs)
  | p :: ps, m, a, subs =>
    if p.hasPreParse then
      match m with
      | .error _ => .ok (m, a, subs)
      | .ok .skipNode => .ok (m, a, subs)
      | .ok act => do
        let (m', a, subs) ← p.phase cfg owner parents processed a subs
        let m'' : PreResult :=
          match act, m' with
          | .skipNodeButUseSubTargets, .ok .validNode => .ok .skipNodeButUseSubTargets
          | _, _ => m'
        runPhases cfg owner parents processed ps m'' a subs
    else runPhases cfg owner parents processed ps m a subs

end ArgRouter
