import Verif.Util.Result
import Verif.Parse.Node

/-!
# Numbers and other values from text

Model of the `parser` specialisations of include/arg_router/parsing/global_parser.hpp for arithmetic
types. They call `boost::conversion::try_lexical_convert`. Boost is not part of the repository; its
conversion to integers is modelled here from its documentation and its well-known source
(boost/lexical_cast/detail/converter_lexical_streams.hpp `shr_signed`, `shr_unsigned`,
boost/lexical_cast/detail/lcast_unsigned_converters.hpp `lcast_ret_unsigned`) for the classic locale
(no grouping of digits). That it is read correctly is part of the trusted base of C85. Floating point
types are not modelled.
-/

namespace ArgRouter

/-- The decimal digit a byte stands for. Boost, as called at parsing/global_parser.hpp:43. -/
def digitOf (c : UInt8) : Option Nat :=
  if 48 ≤ c.toNat ∧ c.toNat ≤ 57 then some (c.toNat - 48) else none

/-- `lcast_ret_unsigned::main_convert_loop`: goes through the digits from the last to the first for
an unsigned type of `bits` bits. `value`: the value so far; `multiplier`: the weight of the digit
before, modulo the size of the type; `overflowed`: that weight exceeds the type. Boost, as called
at parsing/global_parser.hpp:43. -/
def lcastLoop (bits : Nat) : (rest : Bytes) → (value multiplier : Nat) → (overflowed : Bool) → Option Nat
  | [], value, _, _ => some value
  | c :: cs, value, multiplier, overflowed =>
    let maxv := 2 ^ bits - 1
    let overflowed := overflowed || decide (maxv / 10 < multiplier)
    let multiplier := multiplier * 10 % 2 ^ bits
    match digitOf c with
    | none => none
    | some d =>
      let sub := multiplier * d % 2 ^ bits
      if d ≠ 0 && (overflowed || decide (maxv / d < multiplier) || decide (maxv - sub < value)) then none
      else lcastLoop bits cs (value + sub) multiplier overflowed

/-- `lcast_ret_unsigned::convert`. Boost, as called at parsing/global_parser.hpp:43. -/
def lcastUnsigned (bits : Nat) (s : Bytes) : Option Nat :=
  match s.reverse with
  | [] => none
  | c :: cs =>
    match digitOf c with
    | none => none
    | some d => lcastLoop bits cs d 1 false

/-- The sign in front: `minus` (45) or `plus` (43). Boost, as called at parsing/global_parser.hpp:43. -/
def splitSign : Bytes → Bool × Bytes
  | 45 :: s => (true, s)
  | 43 :: s => (false, s)
  | s => (false, s)

/-- `shr_unsigned`: a minus sign negates modulo the size of the type. Boost, as called at
parsing/global_parser.hpp:43. -/
def lexUnsigned (bits : Nat) (s : Bytes) : Option Int :=
  let (minus, digits) := splitSign s
  (lcastUnsigned bits digits).map fun v =>
    if minus then ((2 ^ bits - v) % 2 ^ bits : Nat) else (v : Int)

/-- `shr_signed`, through the unsigned type of the same size. Boost, as called at
parsing/global_parser.hpp:43. -/
def lexSigned (bits : Nat) (s : Bytes) : Option Int :=
  let (minus, digits) := splitSign s
  match lcastUnsigned bits digits with
  | none => none
  | some v =>
    if minus then (if v ≤ 2 ^ (bits - 1) then some (-(v : Int)) else none)
    else (if v ≤ 2 ^ (bits - 1) - 1 then some (v : Int) else none)

/-- `char`, `signed char` and `unsigned char` (so `int8_t` and `uint8_t`): the text is one character,
which is the value. Boost, as called at parsing/global_parser.hpp:43. -/
def lexChar (signed : Bool) : Bytes → Option Int
  | [c] => some (if signed && decide (128 ≤ c.toNat) then (c.toNat : Int) - 256 else c.toNat)
  | _ => none

/-- An integral type: its size in bits and whether it has a sign. The `T` of
parsing/global_parser.hpp:35-50. -/
structure IntType where
  bits : Nat
  signed : Bool
  deriving DecidableEq, Repr

/-- `try_lexical_convert` to an integral type. Boost, as called at parsing/global_parser.hpp:43. -/
def lexInt (t : IntType) (s : Bytes) : Option Int :=
  if t.bits = 8 then lexChar t.signed s
  else if t.signed then lexSigned t.bits s
  else lexUnsigned t.bits s

/-- `parser<T>::parse` for arithmetic types other than `bool`, global_parser.hpp:35-48. -/
def parseInt (t : IntType) (token : Bytes) : Out Int :=
  match lexInt t token with
  | some v => .ok v
  | none => .throw ⟨.failed_to_parse, [⟨.none, token⟩]⟩

/-- The value type of an argument of an integral type. parsing/global_parser.hpp:35-50. -/
def intType (t : IntType) : ValueType :=
  ⟨false, .one (.int 0), fun s => do let v ← parseInt t s; return .int v⟩

/-- The value type of an argument of type `bool`. parsing/global_parser.hpp:57-96. -/
def boolValue : ValueType :=
  ⟨false, .one (.bool false), fun s => do let v ← parseBool s; return .bool v⟩

/-- The value type of an argument of type `std::string_view` or another type made from one,
global_parser.hpp:52-55. -/
def textType : ValueType := ⟨false, .one (.str []), fun s => do let v ← parseText s; return .str v⟩

/-- `std::vector<T>`: the elements are parsed one by one, global_parser.hpp:106-117. `std::optional<T>`
is parsed like `T` (94-100) and needs no definition: an empty optional is only ever a default value. -/
def listOf (t : ValueType) : ValueType := ⟨true, .many [], t.parse⟩

end ArgRouter
