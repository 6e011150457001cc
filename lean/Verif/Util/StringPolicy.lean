import Verif.Utf8.Grapheme

/-!
# Bare strings

Conversion of the compile-time strings given to a node factory to policies.
-/

namespace ArgRouter

open Utf8

/-- A parameter of a node factory before conversion: a compile-time string or anything else.
utility/string_to_policy.hpp:17-24. -/
inductive FactoryParam (α : Type) where
  | str (s : Bytes)
  | other (a : α)

/-- `detail::multi_char_finder`, string_to_policy.hpp:27. -/
def isMultiChar (s : Bytes) : Bool := match gCount s with | .ok n => decide (n > 1) | _ => false

/-- `detail::single_char_finder`, string_to_policy.hpp:30. -/
def isSingleChar (s : Bytes) : Bool := match gCount s with | .ok n => n == 1 | _ => false

/-- The mappers of utility/string_to_policy.hpp:50-175. -/
inductive Mapper where
  /-- `first_string_mapper`, 50-69 -/
  | firstString
  /-- `second_string_mapper`, 76-105 -/
  | secondString
  /-- `single_char_mapper`, 112-131 -/
  | singleChar
  /-- `first_text_mapper`, 138-153 -/
  | firstText
  /-- `second_text_mapper`, 160-175 -/
  | secondText
  deriving DecidableEq, Repr

/-- The string a mapper picks (`void` when there is none), string_to_policy.hpp:50-175. -/
def Mapper.pick (m : Mapper) (strings : List Bytes) : Option Bytes :=
  match m with
  | .firstString => strings.find? isMultiChar
  | .secondString =>
    let first := (strings.findIdx? isMultiChar).getD strings.length
    let dropped := if first == strings.length then [] else strings.drop (first + 1)
    dropped.find? isMultiChar
  | .singleChar => strings.find? isSingleChar
  | .firstText => strings[0]?
  | .secondText => strings[1]?

/-- `detail::string_finder`, string_to_policy.hpp:24: the string, if the parameter is one. -/
def FactoryParam.string? {α : Type} : FactoryParam α → Option Bytes
  | .str s => some s
  | .other _ => none

/-- The parameter, if it is not a string. utility/string_to_policy.hpp:193-195. -/
def FactoryParam.other? {α : Type} : FactoryParam α → Option α
  | .str _ => none
  | .other a => some a

/-- `convert`, string_to_policy.hpp:185-213: the policies built from the strings come first, the
other parameters follow in order. A mapping is a mapper with the policy it makes. `none`: the
`static_assert` at 207-208 fails. -/
def convertStrings {α : Type} (mappings : List (Mapper × (Bytes → α)))
    (params : List (FactoryParam α)) : Option (List α) :=
  let rest := params.filterMap FactoryParam.other?
  let strings := params.filterMap FactoryParam.string?
  let mapped := mappings.filterMap fun m => (m.1.pick strings).map m.2
  if strings.length == mapped.length then some (mapped ++ rest) else none

/-- The mappings of flag (flag.hpp:151-155), counting_flag, arg (arg.hpp:105-109), multi_arg and
help, for the policies long name, description and short name. -/
def labelledMappings {α : Type} (long desc short : Bytes → α) : List (Mapper × (Bytes → α)) :=
  [(.firstString, long), (.secondString, desc), (.singleChar, short)]

/-- The mappings of mode (mode.hpp:577-580: none name) and positional_arg (positional_arg.hpp:
123-126: display name). -/
def textMappings {α : Type} (name desc : Bytes → α) : List (Mapper × (Bytes → α)) :=
  [(.firstText, name), (.secondText, desc)]

/-- The mappings of forwarding_arg (forwarding_arg.hpp:107-110). -/
def forwardingMappings {α : Type} (name desc : Bytes → α) : List (Mapper × (Bytes → α)) :=
  [(.firstString, name), (.secondString, desc)]

end ArgRouter
