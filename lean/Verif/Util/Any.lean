import Verif.Basic

/-!
# `unsafe_any`

The type-erased container of parse results, include/arg_router/utility/unsafe_any.hpp.
-/

namespace ArgRouter

/-- Where a value was constructed: in the buffer of a variable of the program, or of a temporary. The
buffer is `storage_`, utility/unsafe_any.hpp:195-203. -/
inductive AnyPlace where
  | var (n : Nat)
  | temp
  deriving DecidableEq, Repr

/-- A value held by a container. `id` identifies the C++ object: every constructor call makes a new
one. `small`: it lives in the container's buffer (`use_internal_storage`, unsafe_any.hpp:26-27);
otherwise on the heap. `pinned`: its type stores its own address. `home`: where it was
constructed. Simplification: the value itself is a number. -/
structure Stored where
  id : Nat
  value : Nat
  small : Bool
  pinned : Bool
  home : AnyPlace
  deriving DecidableEq, Repr

/-- The containers of a program (`none`: not alive; `some none`: empty), the number of values
constructed so far and the values destroyed so far. Model only: variables of type
utility/unsafe_any.hpp:21-206. -/
structure AnyState where
  objs : Nat → Option (Option Stored)
  next : Nat
  destroyed : List Nat

/-- Bind variable `i`. Model only: a declaration or assignment of a variable,
utility/unsafe_any.hpp:43-123. -/
def AnyState.put (st : AnyState) (i : Nat) (c : Option (Option Stored)) : AnyState :=
  { st with objs := fun j => if j = i then c else st.objs j }

/-- The destructor, utility/unsafe_any.hpp:127-132: the destroyer is only set when a value is held. -/
def AnyState.drop (st : AnyState) (c : Option Stored) : AnyState :=
  match c with
  | some s => { st with destroyed := s.id :: st.destroyed }
  | none => st

/-- An operation of a program using containers. utility/unsafe_any.hpp:34-132. -/
inductive AnyOp where
  /-- `unsafe_any i;` -/
  | empty (i : Nat)
  /-- `unsafe_any i{value};` with a value of a type that is small or not, pinned or not -/
  | make (i value : Nat) (small pinned : Bool)
  /-- `unsafe_any i{j};` -/
  | copy (i j : Nat)
  /-- `unsafe_any i{std::move(j)};` -/
  | move (i j : Nat)
  /-- `i = j;` -/
  | assign (i j : Nat)
  /-- `i = std::move(j);` -/
  | assignMove (i j : Nat)
  /-- the end of the lifetime of `i` -/
  | destroy (i : Nat)
  deriving DecidableEq, Repr

/-- The copier, utility/unsafe_any.hpp:54-56 and 85-87, followed by the swap of the copy constructor,
108-112: a new value is constructed in a temporary container, whose bytes then become those of
the new container. An empty container has no copier: calling it throws `std::bad_function_call`
(`none`). -/
def AnyState.clone (st : AnyState) (c : Option Stored) : Option (Stored × AnyState) :=
  match c with
  | some s => some ({ s with id := st.next, home := .temp }, { st with next := st.next + 1 })
  | none => none

/-- Run an operation. The flag tells whether it threw. `none`: the program uses a container that is
not alive or declares one that is. utility/unsafe_any.hpp:34-132, 186-193. -/
def AnyOp.run (st : AnyState) : AnyOp → Option (AnyState × Bool)
  | .empty i =>
    match st.objs i with
    | some _ => none
    | none => some (st.put i (some none), false)
  | .make i v small pinned =>
    -- 43-61, 72-95
    match st.objs i with
    | some _ => none
    | none =>
      some ({ st with next := st.next + 1 }.put i
        (some (some ⟨st.next, v, small, pinned, .var i⟩)), false)
  | .copy i j =>    -- 108-112
    match st.objs i, st.objs j with
    | none, some c =>
      match st.clone c with
      | some (s, st) => some (st.put i (some (some s)), false)
      | none => some (st, true)
    | _, _ => none
  | .move i j =>
    -- 107: swapped with a new empty container
    match st.objs i, st.objs j with
    | none, some c => some ((st.put i (some c)).put j (some none), false)
    | _, _ => none
  | .assign i j =>
    -- 119-123: the by-value parameter is copy constructed, swapped and destroyed
    match st.objs i, st.objs j with
    | some old, some c =>
      match st.clone c with
      | some (s, st) => some ((st.put i (some (some s))).drop old, false)
      | none => some (st, true)
    | _, _ => none
  | .assignMove i j =>
    -- 119-123: the by-value parameter is move constructed, swapped and destroyed
    match st.objs i, st.objs j with
    | some _, some c =>
      let st := st.put j (some none)
      match st.objs i with
      | some old => some ((st.put i (some c)).drop old, false)
      | none => none
    | _, _ => none
  | .destroy i =>
    match st.objs i with
    | some c => some ((st.put i none).drop c, false)
    | none => none

/-- Run a program; thrown exceptions are caught after each operation. The flags of the operations are
collected in order. utility/unsafe_any.hpp:34-193. -/
def runAny (st : AnyState) : List AnyOp → Option (AnyState × List Bool)
  | [] => some (st, [])
  | op :: ops =>
    match op.run st with
    | some (st', e) => (runAny st' ops).map fun r => (r.1, e :: r.2)
    | none => none

/-- `get`, utility/unsafe_any.hpp:147-179: undefined behaviour without a value, and for a value that
stores its own address once its bytes are elsewhere. -/
def anyGet (st : AnyState) (i : Nat) : Out Nat :=
  match st.objs i with
  | some (some s) => if s.small && s.pinned && s.home != .var i then .ub else .ok s.value
  | _ => .ub

/-- `has_value`, utility/unsafe_any.hpp:139. -/
def anyHasValue (st : AnyState) (i : Nat) : Bool :=
  match st.objs i with
  | some (some _) => true
  | _ => false

/-- No container yet. Model only: before utility/unsafe_any.hpp:34 is first called. -/
def AnyState.init : AnyState := ⟨fun _ => none, 0, []⟩

end ArgRouter
