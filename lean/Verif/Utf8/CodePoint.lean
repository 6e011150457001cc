import Verif.Basic

/-!
# Code points

Model of include/arg_router/utility/utf8/code_point.hpp. `code_point::type` is `std::uint32_t`
(code_point.hpp:16); the values that occur are small, so a natural number is used (`decode_lt`).
-/

namespace ArgRouter.Utf8


/-- `code_point::count`, code_point.hpp:129-141: number of bytes whose top two bits are not `10`. -/
def cpCount (s : Bytes) : Nat :=
  s.foldl (fun result c => result + if (c &&& 0xC0) != 0x80 then 1 else 0) 0

/-- `code_point::size`, code_point.hpp:148-175. Note the strict comparisons of lines 165 and 170,
kept as they are. -/
def cpSize (s : Bytes) : Nat :=
  match s with
  | [] => 0
  | first :: _ =>
    if first &&& 0x80 == 0 then 1
    else if first < 0xDF then 2
    else if first < 0xEF then 3
    else 4

/-- The loop of `code_point::decode`, code_point.hpp:207-213: fold the subsequent bytes in,
six bits each. -/
def decodeTail (acc : Nat) : Bytes → Nat
  | [] => acc
  | c :: cs => decodeTail ((acc <<< 6) ||| (c.toNat &&& 0x3F)) cs

/-- `code_point::decode`, code_point.hpp:184-216. -/
def decode (s : Bytes) : Option Nat :=
  let n := cpSize s
  match s with
  | [] => none
  | first :: rest =>
    if n == 1 then some first.toNat
    else if s.length < n then none
    else some (decodeTail (first.toNat &&& (0x1F >>> (n - 2))) (rest.take (n - 1)))

/-- `code_point::iterator::operator*`, code_point.hpp:316-320 (`substr` clamps to the end). -/
def cpDeref (s : Bytes) : Bytes := s.take (cpSize s)

/-- `code_point::iterator::operator++`, code_point.hpp:326-331. `remove_prefix` past the end is
undefined behaviour. -/
def cpNext (s : Bytes) : Out Bytes :=
  if cpSize s ≤ s.length then .ok (s.drop (cpSize s)) else .ub

/-- A full iteration `for (auto cp : code_point::iterator::range(str))`
(code_point.hpp:242-347): the list of dereferenced values. `fuel` bounds the number of steps. -/
def cpListAux : Nat → Bytes → Out (List Bytes)
  | _, [] => .ok []
  | 0, _ :: _ => .diverge
  | fuel + 1, s@(_ :: _) => do
    let s' ← cpNext s
    let rest ← cpListAux fuel s'
    return cpDeref s :: rest

/-- All code points of a string by full iteration. `code_point::iterator::range`,
utility/utf8/code_point.hpp:220-348. -/
def cpList (s : Bytes) : Out (List Bytes) := cpListAux s.length s

end ArgRouter.Utf8
