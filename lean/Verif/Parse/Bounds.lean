import Verif.Parse.Mode
import Verif.Util.Number

/-!
# Bounds and defaults whose type is not that of the argument

`min_max_value_t` and `min_max_value_ct` have a type of their own, which is that of the numbers written in
the declaration. The numbers they are compared with have the type of the argument. C++ converts one of the
two, or both. The conversions are those of the language for a 64 bit platform: a number that the type
cannot hold is taken modulo `2^bits` (implementation-defined for signed types before C++20, but the same
in all the compilers the project supports).
-/

namespace ArgRouter

namespace IntType

/-- `int`, the type of a number without suffix. What `ValueType` is in `min_max_value(0, 100)`,
policy/min_max_value.hpp:195-203. -/
def int : IntType := ⟨32, true⟩

/-- What a number becomes when it is converted to a type. C++, at policy/min_max_value.hpp:70, 74. -/
def convert (t : IntType) (v : Int) : Int :=
  if t.signed then (v + 2 ^ (t.bits - 1)) % 2 ^ t.bits - 2 ^ (t.bits - 1) else v % 2 ^ t.bits

/-- Integral promotion: types smaller than `int` are computed with as `int`. C++, at
policy/min_max_value.hpp:172, 178. -/
def promoted (t : IntType) : IntType := if t.bits < 32 then int else t

/-- The usual arithmetic conversions: the type in which numbers of two types are compared. C++, at
policy/min_max_value.hpp:172, 178. -/
def common (a c : IntType) : IntType :=
  let a := a.promoted
  let c := c.promoted
  if a.signed = c.signed then ⟨max a.bits c.bits, a.signed⟩
  else if a.signed then (if c.bits < a.bits then a else c)
  else if a.bits < c.bits then c else a

end IntType

/-- `value < bound`, each converted to the type `t`. policy/min_max_value.hpp:70, 74, 172, 178. -/
def lessAs (t : IntType) : Value → Value → Bool
  | .one (.int x), .one (.int y) => decide (t.convert x < t.convert y)
  | _, _ => false

/-- A bound as a value. policy/min_max_value.hpp:81-82, 129-152. -/
def boundOf (x : Option Int) : Option Value := x.map fun v => .one (.int v)

/-- `min_max_value(min, max)`, `min_value(min)` and `max_value(max)` with numbers of the type `bound`,
policy/min_max_value.hpp:21-84, 195-237: `std::less<bound>` converts the value of the argument to the type of the
bound. -/
def runTimeBounds (bound : IntType) (lo hi : Option Int) : Policy :=
  .minMaxValue (boundOf lo) (boundOf hi) (lessAs bound)

/-- `min_max_value<Min, Max>()`, `min_value<Min>()` and `max_value<Max>()` with numbers of the type `bound`
for an argument of the type `arg`, policy/min_max_value.hpp:97-184, 245-271: the operators `<` and `>`
convert both to their common type. -/
def compileTimeBounds (arg bound : IntType) (lo hi : Option Int) : Policy :=
  .minMaxValue (boundOf lo) (boundOf hi) (lessAs (IntType.common arg bound))

/-- `default_value{v}` with a number, for an argument of the type `arg`: `missing_phase` returns it converted
to the type of the argument. policy/default_value.hpp:40-45. -/
def numberDefault (arg : IntType) (v : Int) : Policy := .defaultValue (.one (.int (arg.convert v)))

/-- The static assertions of `min_max_value_ct`: it has a bound, and the minimum is not above the maximum.
policy/min_max_value.hpp:100-101, 120-126. -/
def boundsAssert (lo hi : Option Int) : Bool :=
  (lo.isSome || hi.isSome) &&
    match lo, hi with
    | some x, some y => decide (x ≤ y)
    | _, _ => true

end ArgRouter
