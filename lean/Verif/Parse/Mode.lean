import Verif.Parse.PreParse

/-!
# Modes

Model of include/arg_router/mode.hpp: `pre_parse` (232-338) and `parse` (340-552).
-/

namespace ArgRouter

/-- `verify_match`, mode.hpp:439-459. -/
def verifyMatch (already : Bool) (front : Token) : Validator := fun child =>
  if child.isMultiStage then pure true
  else if child.isNamed then
    if already then M.throw ⟨.argument_has_already_been_set, [front]⟩ else pure true
  else pure (!already)

/-- One pass over the children of a mode, mode.hpp:289-318: the first child that is not a mode and
matches, with its index. `i` is the index of the first child in the list. -/
def modeStep (cfg : Config) (parents : List Node) (target : Target) (matched : List Bool)
    (front : Token) (args : List Token) :
    List Node → Nat → M (Option (Nat × Target × List Token))
  | [], _ => pure none
  | c :: cs, i =>
    if c.kind == .mode then modeStep cfg parents target matched front args cs (i + 1)
    else do
      match ← preParse cfg parents args (some target) c (verifyMatch (matched[i]?.getD false) front)
        with
      | some (t, args') => pure (some (i, t, args'))
      | none => modeStep cfg parents target matched front args cs (i + 1)

/-- What a matched child contributes to the mode's target, mode.hpp:328-334. -/
def flattenMatch (t : Target) : List Leaf :=
  if t.subs.isEmpty then [⟨t.node, t.tokens⟩] else t.subs

/-- The loop over the arguments, mode.hpp:285-335. `fuel` bounds the number of iterations
(`diverge` when exceeded; C18 shows that this does not happen). -/
def modeLoop (cfg : Config) (mode : Node) (parents : List Node) :
    Nat → Target → List Bool → List Token → M (Target × List Token)
  | _, target, _, [] => pure (target, [])
  | 0, _, _, _ :: _ => M.lift .diverge
  | fuel + 1, target, matched, front :: rest => do
    match ← modeStep cfg (mode :: parents) target matched front (front :: rest) mode.children 0 with
    | none =>
      if matched.all id then M.throw ⟨.unhandled_arguments, front :: rest⟩
      else M.lift (unknownArgument cfg mode front)
    | some (i, t, args') =>
      modeLoop cfg mode parents fuel
        { target with subs := target.subs ++ flattenMatch t } (matched.set i true) args'

/-- Total number of bytes in the names of the tokens. Model only: part of the bound on the rounds of
mode.hpp:285-337. -/
def totalBytes (args : List Token) : Nat := (args.map fun t => t.name.length).sum

/-- An upper bound on the iterations of `modeLoop` (model only). The loop is mode.hpp:285-337. -/
def modeFuel (mode : Node) (args : List Token) : Nat :=
  (totalBytes args + 1) * (mode.children.length + 1)

mutual
/-- `mode_t::pre_parse_impl`, mode.hpp:232-338. Returns the mode's target and the arguments left.
Simplification: the C++ consumes from the caller's vector directly; here the vector is returned. -/
def preParseMode (cfg : Config) (parents : List Node) (args : List Token) (validator : Validator) :
    Node → M (Option (Target × List Token))
  | .mk k u h v p cs => do
    let self := Node.mk k u h v p cs
    if self.isAnonymous then modeBody cfg self parents validator args
    else
      match ← leafPreParse cfg self parents args none validator with
      | none => pure none
      | some (_, args) =>
        if args.isEmpty then modeBody cfg self parents validator args
        else
          match ← preParseChildModes cfg (self :: parents) args validator cs with
          | some r => pure (some r)
          | none => modeBody cfg self parents validator args
/-- The child modes in order, until one matches, mode.hpp:258-273. -/
def preParseChildModes (cfg : Config) (parents : List Node) (args : List Token)
    (validator : Validator) : List Node → M (Option (Target × List Token))
  | [] => pure none
  | .mk k u h v p cs :: ns =>
    if k == .mode then do
      match ← preParseMode cfg parents args validator (.mk k u h v p cs) with
      | some r => pure (some r)
      | none => preParseChildModes cfg parents args validator ns
    else preParseChildModes cfg parents args validator ns
/-- The rest of `pre_parse_impl`, mode.hpp:276-337. -/
def modeBody (cfg : Config) (mode : Node) (parents : List Node) (validator : Validator)
    (args : List Token) : M (Option (Target × List Token)) := do
  if !(← validator mode) then pure none
  else
    let r ← modeLoop cfg mode parents (modeFuel mode args) ⟨mode, [], []⟩
      (List.replicate mode.children.length false) args
    pure (some r)
end

/-- Record a router call. policy/router.hpp:37-41. -/
def callRouter (n : Node) (args : List Value) : M Unit := fun s =>
  (.ok (), { s with calls := s.calls ++ [⟨n.uid, args⟩] })

/-- Run the routing phase if the node has one, flag.hpp:96-101,
multi_arg_base.hpp:126-131. -/
def callIfRouter (n : Node) (args : List Value) : M Unit :=
  if n.hasRouter then callRouter n args else pure ()

/-- The validation phases of a node's policies in declaration order
(`min_max_value_t`, policy/min_max_value.hpp:62-78; `min_max_value_ct`, 163-183; those of the user's). -/
def runValidation (n : Node) (v : Value) : List Policy → M Unit
  | [] => pure ()
  | .minMaxValue lo hi less :: ps =>
    if (lo.map (less v)).getD false then M.throw ⟨.minimum_value_not_reached, [n.tokenType]⟩
    else if (hi.map (less · v)).getD false then M.throw ⟨.maximum_value_exceeded, [n.tokenType]⟩
    else runValidation n v ps
  | .validation _ f :: ps => do
    M.lift (f v)
    runValidation n v ps
  | _ :: ps => runValidation n v ps

/-- `tree_node::parse_impl`, tree_node.hpp:637-671: the custom parser if there is one, else the
global parser of the value type. -/
def parseToken (n : Node) (s : Bytes) : Out Scalar :=
  match n.policies.findSome? fun | .customParser f => some f | _ => none with
  | some f => f s
  | none => n.vt.parse s

/-- Parse every token, multi_arg_base.hpp:104-107. -/
def parseTokens (n : Node) : List Token → Out (List Scalar)
  | [] => .ok []
  | t :: ts => do
    let v ← parseToken n t.name
    let vs ← parseTokens n ts
    return v :: vs

/-- The value of a node from its tokens, multi_arg_base.hpp:100-112. -/
def parseValue (n : Node) (tokens : List Token) : Out Value :=
  if n.vt.isList then do
    let vs ← parseTokens n tokens
    return .many vs
  else
    match tokens with
    | [] => .ok n.vt.zero
    | t :: _ => do
      let v ← parseToken n t.name
      return .one v

/-- The help output of a help node for the tokens given to it, help.hpp:178-225. -/
def helpOutput (n : Node) (tokens : List Token) : Out Bytes :=
  match n.policies.findSome? fun | .helpText f => some f | _ => none with
  | some f => f tokens
  | none => .ok []

/-- `parse` of the nodes that are not modes: flag.hpp:90-104, counting_flag.hpp:93-99,
multi_arg_base.hpp:98-134, help.hpp:179-225. Without a router the help output is printed and the
process exits; this is recorded like a router call (simplification: were the help node a child of a
mode, which the default validator rejects, nothing more would happen in that mode). `none`: no
value. The dependency groups and root have no such method. -/
def parseLeaf (l : Leaf) : M (Option Value) :=
  match l.node.kind with
  | .flag => do
    callIfRouter l.node [.one (.bool true)]
    pure (some (.one (.bool true)))
  | .countingFlag => pure (some (.one (.bool true)))
  | .arg | .multiArg | .positional | .forwarding => do
    let v ← M.lift (parseValue l.node l.tokens)
    runValidation l.node v l.node.policies
    callIfRouter l.node [v]
    pure (some v)
  | .help => do
    let text ← M.lift (helpOutput l.node l.tokens)
    callRouter l.node [.one (.str text)]
    pure none
  | _ => M.lift .ub

/-- `match_child`, mode.hpp:418-437: the first node with this hash in the child's subtree that is
not a mode and has a `parse` method. -/
def matchChild (hash : Nat) (child : Node) : Option Node :=
  child.nodes.find? fun n => n.kind != .mode && n.hasParse && n.hash == hash

/-- The first child whose subtree contains the hash, mode.hpp:359-371. -/
def findChild (hash : Nat) : List Node → Nat → Option (Nat × Node × Node)
  | [], _ => none
  | c :: cs, i =>
    match matchChild hash c with
    | some n => some (i, c, n)
    | none => findChild hash cs (i + 1)

/-- The merge function of a multi-stage node, multi_stage_value.hpp:45-48. -/
def mergeValue (n : Node) (old : Option Value) (v : Value) : Option Value :=
  match n.policies.findSome? fun | .multiStage f => some f | _ => none with
  | some f => f old v
  | none => some v

/-- `process_result`, mode.hpp:461-486. -/
def processResult (results : List (Option Value)) (i : Nat) (child sub : Node) (v : Value) :
    M (List (Option Value)) :=
  if child.hasNoResult then pure results
  else
    let old := (results[i]?).getD none
    if sub.isMultiStage then pure (results.set i (mergeValue sub old v))
    else if old.isSome then M.throw ⟨.argument_has_already_been_set, [sub.tokenType]⟩
    else pure (results.set i (some v))

/-- The loop over the sub-targets, mode.hpp:351-373. -/
def processSubs (children : List Node) : List Leaf → List (Option Value) → M (List (Option Value))
  | [], results => pure results
  | l :: ls, results => do
    match ← parseLeaf l with
    | none => processSubs children ls results
    | some v =>
      match findChild l.node.hash children 0 with
      | none => processSubs children ls results
      | some (i, child, sub) => do
        let results ← processResult results i child sub v
        processSubs children ls results

/-- The missing phases in declaration order, mode.hpp:497-506: `default_value`
(policy/default_value.hpp:40-45), `required_t` (policy/required.hpp:33-42) and
`runtime_enable_required` (policy/runtime_enable.hpp:106-118). -/
def runMissing (n : Node) : List Policy → Option Value → M (Option Value)
  | [], r => pure r
  | .defaultValue v :: ps, _ => runMissing n ps (some v)
  | .required :: _, _ => M.throw ⟨.missing_required_argument, [n.tokenType]⟩
  | .runtimeEnableRequired e v :: ps, _ =>
    if e then M.throw ⟨.missing_required_argument, [n.tokenType]⟩ else runMissing n ps (some v)
  | _ :: ps, r => runMissing n ps r

/-- `process_missing_token`, mode.hpp:492-521. -/
def processMissing (child : Node) : M Value := do
  let r ← runMissing child child.policies none
  let v := r.getD child.vt.zero
  runValidation child v child.policies
  pure v

/-- One child of the loop over the results, mode.hpp:376-385: children without a result value are
skipped, present values are kept. -/
def fillResult (c : Node) (r : Option Value) : M (Option Value) :=
  if c.hasNoResult then pure none
  else
    match r with
    | some v => pure (some v)
    | none => do
      let v ← processMissing c
      pure (some v)

/-- The loop over the results, mode.hpp:376-385. -/
def fillMissing : List Node → List (Option Value) → M (List (Option Value))
  | c :: cs, r :: rs => do
    let r' ← fillResult c r
    let rs' ← fillMissing cs rs
    pure (r' :: rs')
  | _, rs => pure rs

/-- `multi_stage_validation`, mode.hpp:523-552, for one child. -/
def validateStages (c : Node) (r : Option Value) : M Unit :=
  if !c.hasNoResult && (c.isMultiStage || c.children.any Node.isMultiStage) then
    match r with
    | some v => runValidation c v c.policies
    | none => M.lift .ub
  else pure ()

/-- The loop over the children, mode.hpp:387-391, 523-552. -/
def multiStageValidation : List Node → List (Option Value) → M Unit
  | c :: cs, r :: rs => do
    validateStages c r
    multiStageValidation cs rs
  | _, _ => pure ()

/-- The arguments of the router: the results of the children that have one, in child order,
mode.hpp:398-405. -/
def routerArgs : List Node → List (Option Value) → List Value
  | c :: cs, r :: rs =>
    if c.hasNoResult then routerArgs cs rs else r.toList ++ routerArgs cs rs
  | _, _ => []

/-- `mode_t::parse_impl`, mode.hpp:340-416. -/
def parseMode (mode : Node) (subs : List Leaf) : M Unit := do
  let results ← processSubs mode.children subs (List.replicate mode.children.length none)
  let results ← fillMissing mode.children results
  multiStageValidation mode.children results
  if mode.hasRouter then callRouter mode (routerArgs mode.children results)
  else M.throw ⟨.mode_requires_arguments, [mode.tokenType]⟩

/-- `parse_target::operator()` of a target returned by a root child.
parsing/parse_target.hpp:125-134. -/
def runTarget (t : Target) : M Unit := do
  if t.node.kind == .mode then parseMode t.node t.subs
  else do
    let _ ← parseLeaf ⟨t.node, t.tokens⟩
    pure ()

/-- Offer the command line to a child of root: the overload of `pre_parse` is chosen by the class of
the child. root.hpp:157-167, where `child.pre_parse` is called. -/
def offerTo (cfg : Config) (root : Node) (args : List Token) (c : Node) :
    M (Option (Target × List Token)) :=
  if c.kind == .mode then preParseMode cfg [root] args alwaysTrue c
  else preParse cfg [root] args none c alwaysTrue

/-- The loop over the children of root, root.hpp:157-167. -/
def rootLoop (cfg : Config) (root : Node) (args : List Token) : List Node → M Bool
  | [] => pure false
  | c :: cs => do
    match ← offerTo cfg root args c with
    | none => rootLoop cfg root args cs
    | some (t, args') => do
      if !args'.isEmpty then M.throw ⟨.unhandled_arguments, args'⟩
      else do
        runTarget t
        pure true

/-- `root_t::parse(vector<token_type>)`, root.hpp:147-180. The exception is the
`multi_lang_exception` handed to `translate_exception` (modelled in `Exc`). -/
def rootParse (cfg : Config) (root : Node) (args : List Token) : M Unit := do
  if ← rootLoop cfg root args root.children then pure ()
  else
    let front : Token := args.headD ⟨.none, []⟩
    if front.name.isEmpty then M.throw ⟨.no_arguments_passed, []⟩
    else M.lift (unknownArgument cfg root front)

/-- `root_t::parse(Iter, Iter)`, root.hpp:190-200: the command line arguments after the program
name. `argc`/`argv` is 228-232. -/
def parseArgs (cfg : Config) (root : Node) (args : List Bytes) : M Unit :=
  rootParse cfg root (args.map (Token.mk .none))

end ArgRouter
