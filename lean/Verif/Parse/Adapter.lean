import Verif.Parse.Token

/-!
# The token adapter

Model of include/arg_router/parsing/dynamic_token_adapter.hpp: a view of two token vectors
(processed, unprocessed) as one sequence.
-/

namespace ArgRouter

/-- `dynamic_token_adapter`, dynamic_token_adapter.hpp:22-466. Simplification: the two vectors are
held by value; the C++ class holds pointers to them. -/
structure Adapter where
  processed : List Token
  unprocessed : List Token
  deriving DecidableEq, Repr

/-- `dynamic_token_adapter::iterator`, parsing/dynamic_token_adapter.hpp:31-304. `owned = false` is
`owner_ == nullptr`, the end iterator of 289. -/
structure AIter where
  owned : Bool
  i : Int
  deriving DecidableEq, Repr

namespace Adapter

/-- `size`, parsing/dynamic_token_adapter.hpp:360. -/
def size (a : Adapter) : Nat := a.processed.length + a.unprocessed.length

/-- `empty`, parsing/dynamic_token_adapter.hpp:364. -/
def isEmpty (a : Adapter) : Bool := a.processed.isEmpty && a.unprocessed.isEmpty

/-- `begin`, parsing/dynamic_token_adapter.hpp:347. -/
def begin_ : AIter := ⟨true, 0⟩

/-- `end`, parsing/dynamic_token_adapter.hpp:354. -/
def end_ : AIter := ⟨false, 0⟩

/-- `iterator::operator+`, parsing/dynamic_token_adapter.hpp:50-72. -/
def _root_.ArgRouter.AIter.add (it : AIter) (n : Int) : AIter := { it with i := it.i + n }

/-- `iterator::is_end`, parsing/dynamic_token_adapter.hpp:293-296. -/
def isEnd (a : Adapter) (it : AIter) : Bool := !it.owned || decide (it.i ≥ a.size)

/-- `iterator::operator==` for two iterators of this adapter (or end iterators),
parsing/dynamic_token_adapter.hpp:245-259. -/
def itEq (a : Adapter) (x y : AIter) : Bool :=
  if a.isEnd x && a.isEnd y then true
  else if a.isEnd x || a.isEnd y then false
  else x.i == y.i

/-- `iterator::operator*`, parsing/dynamic_token_adapter.hpp:210-218. Out of range is undefined
behaviour. -/
def deref (a : Adapter) (it : AIter) : Out Token :=
  if it.owned then
    if it.i ≥ a.processed.length then
      match a.unprocessed[(it.i - a.processed.length).toNat]? with
      | some t => .ok t
      | none => .ub
    else if it.i < 0 then .ub
    else
      match a.processed[it.i.toNat]? with
      | some t => .ok t
      | none => .ub
  else .ub

/-- `transfer`, parsing/dynamic_token_adapter.hpp:447-461. -/
def transfer (a : Adapter) (it : AIter) : Adapter :=
  let i : Int := if a.isEnd it then (a.size : Int) - 1 else it.i
  if i < 0 ∨ i < a.processed.length then a
  else
    let count := (i + 1 - a.processed.length).toNat
    { processed := a.processed ++ a.unprocessed.take count
      unprocessed := a.unprocessed.drop count }

/-- `iterator::set`, parsing/dynamic_token_adapter.hpp:280-284. -/
def set (a : Adapter) (it : AIter) (t : Token) : Out Adapter :=
  let a := a.transfer it
  if it.owned ∧ 0 ≤ it.i ∧ it.i < a.processed.length then
    .ok { a with processed := a.processed.set it.i.toNat t }
  else .ub

/-- `insert(it, value)`, parsing/dynamic_token_adapter.hpp:385-395. The position is computed after
the transfer. -/
def insert (a : Adapter) (it : AIter) (t : Token) : Out (Adapter × AIter) :=
  let a := a.transfer (it.add (-1))
  let at_ : Int := if a.isEnd it then a.processed.length else it.i
  if 0 ≤ at_ ∧ at_ ≤ a.processed.length then
    .ok ({ a with processed := a.processed.take at_.toNat ++ t :: a.processed.drop at_.toNat },
      ⟨true, it.i⟩)
  else .ub

/-- `insert(it, first, last)`, parsing/dynamic_token_adapter.hpp:404-415. -/
def insertRange (a : Adapter) (it : AIter) (ts : List Token) : Out (Adapter × AIter) :=
  let a := a.transfer (it.add (-1))
  let at_ : Int := if a.isEnd it then a.processed.length else it.i
  if 0 ≤ at_ ∧ at_ ≤ a.processed.length then
    .ok ({ a with processed := a.processed.take at_.toNat ++ ts ++ a.processed.drop at_.toNat },
      ⟨true, it.i⟩)
  else .ub

/-- `erase`, parsing/dynamic_token_adapter.hpp:423-439. -/
def erase (a : Adapter) (it : AIter) : Out (Adapter × AIter) :=
  if a.isEnd it then .ok (a, it)
  else if it.i < 0 then .ub
  else if it.i < a.processed.length then
    .ok ({ a with processed := a.processed.eraseIdx it.i.toNat }, it)
  else
    .ok ({ a with unprocessed := a.unprocessed.eraseIdx (it.i - a.processed.length).toNat }, it)

/-- `std::find_if(tokens.begin() + offset, tokens.end(), pred)` as used by policies: repeated
`operator*`, `operator++` and comparison with `end()`. Structural on the number of tokens left.
parsing/dynamic_token_adapter.hpp:50-54, 175, 210-218 and 245-268. -/
def findFrom (a : Adapter) (p : Token → Bool) : Nat → AIter → Out AIter
  | 0, _ => .ok end_
  | fuel + 1, it =>
    if a.itEq it end_ then .ok it
    else do
      let t ← a.deref it
      if p t then return it else a.findFrom p fuel (it.add 1)

end Adapter

end ArgRouter
