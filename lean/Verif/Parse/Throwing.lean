import Verif.Exc.Root

/-!
# Routers that throw

The model in `Parse/Mode.lean` records router calls and lets every router return. Here the same code is
modelled with routers that may end in any way. Nothing but the calls differs; `parseWith_returns` in
`Props/Throwing.lean` shows that the two agree when every router returns.
-/

namespace ArgRouter

/-- What the routers of a program do: how the call of the router of a node (identified by its uid)
with these arguments ends. policy/router.hpp:37-41. -/
abbrev Routers := Nat → List Value → Out Unit

/-- Call a router (`policy::router`, policy/router.hpp:19-45): the call is recorded, and ends as it does. -/
def callWith (rt : Routers) (n : Node) (args : List Value) : M Unit := fun s =>
  (rt n.uid args, { s with calls := s.calls ++ [⟨n.uid, args⟩] })

/-- `callIfRouter` with routers that may throw, flag.hpp:96-101, multi_arg_base.hpp:126-131. -/
def callIfWith (rt : Routers) (n : Node) (args : List Value) : M Unit :=
  if n.hasRouter then callWith rt n args else pure ()

/-- `parseLeaf` with routers that may throw: flag.hpp:90-104, counting_flag.hpp:93-99,
multi_arg_base.hpp:98-134, help.hpp:179-225. -/
def parseLeafWith (rt : Routers) (l : Leaf) : M (Option Value) :=
  match l.node.kind with
  | .flag => do
    callIfWith rt l.node [.one (.bool true)]
    pure (some (.one (.bool true)))
  | .countingFlag => pure (some (.one (.bool true)))
  | .arg | .multiArg | .positional | .forwarding => do
    let v ← M.lift (parseValue l.node l.tokens)
    runValidation l.node v l.node.policies
    callIfWith rt l.node [v]
    pure (some v)
  | .help => do
    let text ← M.lift (helpOutput l.node l.tokens)
    callWith rt l.node [.one (.str text)]
    pure none
  | _ => M.lift .ub

/-- `processSubs` with routers that may throw, mode.hpp:351-373. -/
def processSubsWith (rt : Routers) (children : List Node) :
    List Leaf → List (Option Value) → M (List (Option Value))
  | [], results => pure results
  | l :: ls, results => do
    match ← parseLeafWith rt l with
    | none => processSubsWith rt children ls results
    | some v =>
      match findChild l.node.hash children 0 with
      | none => processSubsWith rt children ls results
      | some (i, child, sub) => do
        let results ← processResult results i child sub v
        processSubsWith rt children ls results

/-- `parseMode` with routers that may throw, mode.hpp:340-416. -/
def parseModeWith (rt : Routers) (mode : Node) (subs : List Leaf) : M Unit := do
  let results ← processSubsWith rt mode.children subs (List.replicate mode.children.length none)
  let results ← fillMissing mode.children results
  multiStageValidation mode.children results
  if mode.hasRouter then callWith rt mode (routerArgs mode.children results)
  else M.throw ⟨.mode_requires_arguments, [mode.tokenType]⟩

/-- `runTarget` with routers that may throw, parsing/parse_target.hpp:125-134. -/
def runTargetWith (rt : Routers) (t : Target) : M Unit := do
  if t.node.kind == .mode then parseModeWith rt t.node t.subs
  else do
    let _ ← parseLeafWith rt ⟨t.node, t.tokens⟩
    pure ()

/-- `rootLoop` with routers that may throw, root.hpp:157-167. -/
def rootLoopWith (rt : Routers) (cfg : Config) (root : Node) (args : List Token) :
    List Node → M Bool
  | [] => pure false
  | c :: cs => do
    match ← offerTo cfg root args c with
    | none => rootLoopWith rt cfg root args cs
    | some (t, args') => do
      if !args'.isEmpty then M.throw ⟨.unhandled_arguments, args'⟩
      else do
        runTargetWith rt t
        pure true

/-- `root_t::parse`, root.hpp:147-180 and 190-200, up to the handler, with routers that may throw. -/
def parseWith (rt : Routers) (cfg : Config) (root : Node) (args : List Bytes) : M Unit := do
  let args := args.map (Token.mk .none)
  if ← rootLoopWith rt cfg root args root.children then pure ()
  else
    let front : Token := args.headD ⟨.none, []⟩
    if front.name.isEmpty then M.throw ⟨.no_arguments_passed, []⟩
    else M.lift (unknownArgument cfg root front)

/-- `rootSeen` with routers that may throw, root.hpp:147-180: the routers run inside the `try`, so a
`multi_lang_exception` of theirs is translated as well (173-178), and nothing else is caught. -/
def seenWith (rt : Routers) (cfg : Config) (custom fallback : Translations) (root : Node)
    (args : List Bytes) (s : St) : Seen × St :=
  match parseWith rt cfg root args s with
  | (.ok _, s') => (.returned, s')
  | (.throw e, s') =>
    (match translate cfg custom fallback e.ec.num e.tokens with
      | .ok msg => .parseException msg
      | .foreign => .foreign
      | .throw _ => .foreign
      | .ub => .ub
      | .diverge => .diverge, s')
  | (.foreign, s') => (.foreign, s')
  | (.ub, s') => (.ub, s')
  | (.diverge, s') => (.diverge, s')

end ArgRouter
