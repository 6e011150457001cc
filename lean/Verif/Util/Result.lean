import Verif.Basic

/-!
# `result`, the boolean parser and parse targets

include/arg_router/utility/result.hpp, parsing/global_parser.hpp, parsing/parse_target.hpp.
-/

namespace ArgRouter

/-- `utility::result`, result.hpp:18-207: a `std::variant` of a value and an exception. -/
inductive Res (α : Type) where
  | value (a : α)
  | error (e : Exc)

namespace Res
variable {α : Type}

/-- `std::variant::index`. `data_`, utility/result.hpp:206. -/
def index : Res α → Nat
  | value _ => 0
  | error _ => 1

/-- `has_result`, utility/result.hpp:48. -/
def hasResult (r : Res α) : Bool := r.index == 0
/-- `has_error`, utility/result.hpp:54. -/
def hasError (r : Res α) : Bool := !r.hasResult
/-- `explicit operator bool`, utility/result.hpp:60. -/
def toBool (r : Res α) : Bool := r.hasResult
/-- `operator!`, utility/result.hpp:66. -/
def not (r : Res α) : Bool := r.hasError

/-- `std::get<0>`: throws `std::bad_variant_access` when the other alternative is held. Used at
utility/result.hpp:78-189. -/
def get0 : Res α → Out α
  | value a => .ok a
  | error _ => .foreign

/-- `std::get<1>`. Used at utility/result.hpp:173-201. -/
def get1 : Res α → Out Exc
  | value _ => .foreign
  | error e => .ok e

/-- `operator==` of two results, utility/result.hpp:73-79; `eqv` is `==` of the value type. -/
def eqRes (eqv : α → α → Bool) (a c : Res α) : Out Bool :=
  if a.hasError || c.hasError then .ok false
  else do
    let x ← a.get0
    let y ← c.get0
    .ok (eqv x y)

/-- `operator==` with a value, utility/result.hpp:97-104 (124-128 is the same with the arguments
swapped). -/
def eqVal (eqv : α → α → Bool) (a : Res α) (v : α) : Out Bool :=
  if a.hasError then .ok false
  else do
    let x ← a.get0
    .ok (eqv x v)

/-- `operator!=` of two results, utility/result.hpp:86-89. -/
def neRes (eqv : α → α → Bool) (a c : Res α) : Out Bool := do
  let r ← a.eqRes eqv c
  .ok !r

/-- `operator!=` with a value, utility/result.hpp:112-116. -/
def neVal (eqv : α → α → Bool) (a : Res α) (v : α) : Out Bool := do
  let r ← a.eqVal eqv v
  .ok !r

/-- `get_if`, utility/result.hpp:147-159. -/
def getIf (r : Res α) : Out (Option α) :=
  if r.hasResult then do
    let x ← r.get0
    .ok (some x)
  else .ok none

/-- `get` (utility/result.hpp:182-192) and `extract` (168-174). -/
def get (r : Res α) : Out α :=
  if r.hasResult then r.get0
  else do
    let e ← r.get1
    .throw e

/-- `throw_exception`, utility/result.hpp:198-203. -/
def throwException (r : Res α) : Out Unit :=
  if r.hasError then do
    let e ← r.get1
    .throw e
  else .ok ()

end Res

/-- The words for `true` in `parser<bool>::parse`, global_parser.hpp:64-71. -/
def trueTokens : List Bytes := [b "true", b "yes", b "y", b "on", b "1", b "enable"]
/-- The words for `false`, global_parser.hpp:73-80. -/
def falseTokens : List Bytes := [b "false", b "no", b "n", b "off", b "0", b "disable"]

/-- `parser<bool>::parse`, global_parser.hpp:57-96. -/
def parseBool (token : Bytes) : Out Bool :=
  if trueTokens.contains token then .ok true
  else if falseTokens.contains token then .ok false
  else .throw ⟨.failed_to_parse, [⟨.none, token⟩]⟩

/-- `parser<T>::parse` for types constructible from a view, global_parser.hpp:52-55. -/
def parseText (token : Bytes) : Out Bytes := .ok token

/-- A `parse_target`, parsing/parse_target.hpp:28-141. `parse`: the function to call, identified by
a number, one per constructed target; `none`: an empty `std::function`. Simplification: sub-targets
are left out (they are data like the tokens). -/
structure PTarget where
  parse : Option Nat
  tokens : List Token

/-- The targets of a program (`none`: not alive), the number constructed, and the calls of parse
functions made so far (function and tokens), latest first. Model only: variables of type
parsing/parse_target.hpp:28-141. -/
structure PTState where
  objs : Nat → Option PTarget
  next : Nat
  calls : List (Nat × List Token)

/-- Bind variable `i`. Model only: a declaration or assignment of a variable of type
parsing/parse_target.hpp:28-141. -/
def PTState.put (st : PTState) (i : Nat) (t : Option PTarget) : PTState :=
  { st with objs := fun j => if j = i then t else st.objs j }

/-- An operation of a program using parse targets. parsing/parse_target.hpp:40-134. -/
inductive PTOp where
  /-- construct a target for a node, 40-54 -/
  | make (i : Nat) (tokens : List Token)
  /-- move construct `i` from `j` -/
  | move (i j : Nat)
  /-- move assign `j` to `i` -/
  | assignMove (i j : Nat)
  /-- `i.tokens(...)`, 119 -/
  | setTokens (i : Nat) (tokens : List Token)
  /-- `i()`, 125-134 -/
  | invoke (i : Nat)
  /-- the end of the lifetime of `i` -/
  | destroy (i : Nat)
  deriving DecidableEq, Repr

/-- Run an operation; the second component is whether a parse function was called. The defaulted move
operations leave the source without tokens, and without a function (as in libstdc++ and libc++;
the standard leaves that state of a `std::function` open). parsing/parse_target.hpp:40-134. -/
def PTOp.run (st : PTState) : PTOp → Option (PTState × Bool)
  | .make i ts =>
    match st.objs i with
    | some _ => none
    | none => some ({ st with next := st.next + 1 }.put i (some ⟨some st.next, ts⟩), false)
  | .move i j =>
    match st.objs i, st.objs j with
    | none, some t => some ((st.put i (some t)).put j (some ⟨none, []⟩), false)
    | _, _ => none
  | .assignMove i j =>
    match st.objs i, st.objs j with
    | some _, some t =>
      if i = j then some (st, false)
      else some ((st.put i (some t)).put j (some ⟨none, []⟩), false)
    | _, _ => none
  | .setTokens i ts =>
    match st.objs i with
    | some t => some (st.put i (some { t with tokens := ts }), false)
    | none => none
  | .invoke i =>
    match st.objs i with
    | some t =>
      match t.parse with
      | some f =>
        -- the function is moved out and cleared, then `*this` is moved into its parameter
        some ({ st with calls := (f, t.tokens) :: st.calls }.put i (some ⟨none, []⟩), true)
      | none => some (st, false)
    | none => none
  | .destroy i =>
    match st.objs i with
    | some _ => some (st.put i none, false)
    | none => none

/-- Run a program. parsing/parse_target.hpp:40-134. -/
def runPT (st : PTState) : List PTOp → Option PTState
  | [] => some st
  | op :: ops =>
    match op.run st with
    | some (st', _) => runPT st' ops
    | none => none

/-- No target yet. Model only: before parsing/parse_target.hpp:40 is first called. -/
def PTState.init : PTState := ⟨fun _ => none, 0, []⟩

end ArgRouter
