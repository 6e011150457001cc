import Verif.Basic

/-!
# Integers as compile-time strings

Model of include/arg_router/math.hpp and of `convert_integral_to_cts`,
include/arg_router/utility/compile_time_string.hpp:240-266 and 450-478 (both builds of the class are
the same code). Integers are unbounded here: `math::abs` of the most negative value of a type does
not compile, so no type width is involved.
-/

namespace ArgRouter

/-- The loop of `math::num_digits`, math.hpp:45-48: `while (value /= base) ++i`. The first argument
bounds the number of iterations; `value` iterations always suffice. -/
def numDigitsLoop : Nat → (value i : Nat) → Nat
  | 0, _, i => i
  | fuel + 1, value, i => if value / 10 = 0 then i else numDigitsLoop fuel (value / 10) (i + 1)

/-- `math::num_digits`, math.hpp:37-51. -/
def numDigits (value : Int) : Nat := numDigitsLoop value.natAbs value.natAbs 1

/-- `math::pow`, math.hpp:62-68. -/
def ctPow (base : Nat) : Nat → Nat
  | 0 => 1
  | e + 1 => base * ctPow base e

/-- `convert_integral_to_cts::build`, compile_time_string.hpp:246-260. The first argument bounds the
recursion depth; each step removes a digit, so the number of digits suffices. -/
def ctsBuild : Nat → Bytes → Nat → Bytes
  | 0, str, _ => str
  | fuel + 1, str, value =>
    let n := numDigits value
    let power10 := ctPow 10 (n - 1)
    let digit := value / power10
    if n ≠ 1 then ctsBuild fuel (str ++ [UInt8.ofNat (48 + digit)]) (value % power10)
    else str ++ [UInt8.ofNat (48 + digit)]

/-- `convert_integral_to_cts`, compile_time_string.hpp:240-266. -/
def ctsOfInt (value : Int) : Bytes :=
  let digits := ctsBuild (numDigits value) [] value.natAbs
  if value < 0 then 45 :: digits else digits

end ArgRouter
