import Verif.Parse.Token

/-!
# Error messages

Model of include/arg_router/utility/exception_formatter.hpp, of the messages in
include/arg_router/exception.hpp and of include/arg_router/policy/exception_translator.hpp.
-/

namespace ArgRouter

/-- `std::string_view::find(c, pos)`; `none` is `npos`. Used at
utility/exception_formatter.hpp:64-65. -/
def findByte (c : UInt8) (s : Bytes) (pos : Nat) : Option Nat :=
  ((s.drop pos).findIdx? (· == c)).map (pos + ·)

/-- `exception_formatter::placeholder`, exception_formatter.hpp:55-59. -/
structure Placeholder where
  start : Nat
  joining : Bytes
  deriving DecidableEq, Repr

/-- `placeholders_impl`, exception_formatter.hpp:61-78. When the closing brace found lies before the
opening one, the count `end - start - 1` wraps around and `substr` takes the rest of the string.
`fuel` bounds the recursion (`current` grows in every step, so the length of the string is enough;
model only). -/
def placeholdersFrom (s : Bytes) : Nat → Nat → List Placeholder
  | 0, _ => []
  | fuel + 1, current =>
    match findByte 0x7B s current, findByte 0x7D s (current + 1) with
    | some start, some end_ =>
      ⟨start, if start < end_ then (s.drop (start + 1)).take (end_ - start - 1)
        else s.drop (start + 1)⟩ :: placeholdersFrom s fuel (end_ + 1)
    | _, _ => []

/-- `generate_placeholders`, exception_formatter.hpp:85-88. -/
def placeholders (s : Bytes) : List Placeholder := placeholdersFrom s (s.length + 1) 0

/-- `is_greedy`, exception_formatter.hpp:80-83. -/
def Placeholder.isGreedy (p : Placeholder) : Bool := decide (p.joining.length > 0)

/-- `placeholder_check`, exception_formatter.hpp:111-126: the messages that compile. -/
def placeholderCheck (s : Bytes) : Bool :=
  let phs := placeholders s
  if phs.length > 1 then
    let greedy := phs.countP Placeholder.isGreedy
    greedy ≤ 1 && (greedy != 1 || (phs.getLast?.map Placeholder.isGreedy).getD false)
  else true

/-- `std::string::replace(pos, count, str)`: throws `std::out_of_range` when `pos` is past the end;
`count` is clamped. A negative position is a wrapped-around `size_t`. Used at
utility/exception_formatter.hpp:153, 169. -/
def strReplace (s : Bytes) (pos : Int) (count : Nat) (by_ : Bytes) : Out Bytes :=
  if 0 ≤ pos ∧ pos ≤ s.length then
    .ok (s.take pos.toNat ++ by_ ++ s.drop (pos.toNat + count))
  else .foreign

/-- `std::string::insert(pos, str)`. Used at utility/exception_formatter.hpp:163. -/
def strInsert (s : Bytes) (pos : Int) (by_ : Bytes) : Out Bytes := strReplace s pos 0 by_

/-- The loop that consumes the remaining tokens, exception_formatter.hpp:159-165. -/
def fmtGreedy (cfg : Config) (joining : Bytes) : List Token → Bytes → Int → Out Bytes
  | [], str, _ => .ok str
  | t :: ts, str, pos => do
    let next := joining ++ t.str cfg
    let str ← strInsert str pos next
    fmtGreedy cfg joining ts str (pos + next.length)

/-- The loop over the placeholders, exception_formatter.hpp:144-172. `offset` is a `size_t` that
wraps around; only its sum with a position is used, so an integer does. -/
def fmtLoop (cfg : Config) : List Placeholder → List Token → Bytes → Int → Out Bytes
  | [], _, str, _ => .ok str
  | ph :: phs, t :: ts, str, offset => do
    let next := t.str cfg
    let pos : Int := ph.start + offset
    let str ← strReplace str pos (ph.joining.length + 2) next
    let offset := offset + (next.length - 2)
    if ph.joining.isEmpty then fmtLoop cfg phs ts str offset
    else do
      let str ← fmtGreedy cfg ph.joining ts str (pos + next.length)
      fmtLoop cfg phs [] str offset
  | ph :: phs, [], str, offset => do
    let str ← strReplace str (ph.start + offset) (ph.joining.length + 2) []
    fmtLoop cfg phs [] str (offset - 2)

/-- `fmt`, exception_formatter.hpp:128-175. -/
def fmt (cfg : Config) (s : Bytes) (tokens : List Token) : Out Bytes :=
  fmtLoop cfg (placeholders s) tokens s 0

/-- `format`, exception_formatter.hpp:96-106. -/
def format (cfg : Config) (s : Bytes) (tokens : List Token) : Out Bytes :=
  if (placeholders s).length > 0 then fmt cfg s tokens
  else if !tokens.isEmpty then fmt cfg (s ++ b ": {, }") tokens
  else .ok s

/-- The constructor `parse_exception(message, tokens)`, exception.hpp:168-172. -/
def plainMessage (cfg : Config) (message : Bytes) (tokens : List Token) : Bytes :=
  message ++ (if tokens.isEmpty then [] else b ": " ++ tokensStr cfg tokens)

/-- The values of the enumerators, exception.hpp:33-63. -/
def ErrorCode.num : ErrorCode → Nat
  | .unknown_argument => 0
  | .unhandled_arguments => 1
  | .argument_has_already_been_set => 2
  | .failed_to_parse => 3
  | .no_arguments_passed => 4
  | .minimum_value_not_reached => 5
  | .maximum_value_exceeded => 6
  | .minimum_count_not_reached => 7
  | .maximum_count_exceeded => 8
  | .unknown_argument_with_suggestion => 9
  | .mode_requires_arguments => 100
  | .missing_required_argument => 101
  | .too_few_values_for_alias => 102
  | .dependent_argument_missing => 103
  | .one_of_selected_type_mismatch => 104
  | .missing_value_separator => 105

/-- A tuple `error_code_translations`: pairs of an error code and a message.
policy/exception_translator.hpp:45-47. -/
abbrev Translations := List (Nat × Bytes)

/-- `default_error_code_translations`, exception.hpp:67-102. -/
def defaultTranslations : Translations :=
  [(0, b "Unknown argument"),
   (1, b "Unhandled arguments"),
   (2, b "Argument has already been set"),
   (3, b "Failed to parse"),
   (4, b "No arguments passed"),
   (5, b "Minimum value not reached"),
   (6, b "Maximum value exceeded"),
   (7, b "Minimum count not reached"),
   (8, b "Maximum count exceeded"),
   (9, b "Unknown argument: {}. Did you mean { }?"),
   (100, b "Mode requires arguments"),
   (101, b "Missing required argument"),
   (102, b "Too few values for alias"),
   (103, b "Dependent argument missing (needs to be before the requiring token on the command line)"),
   (104, b "Only one argument from a \"One Of\" can be used at once"),
   (105, b "Expected a value separator")]

/-- `boost::lexical_cast<string>(n)` of an unsigned integer. Used at
policy/exception_translator.hpp:73. -/
def natToBytes (n : Nat) : Bytes := b (toString n)

/-- The loop of `translate_exception`, exception_translator.hpp:57-66: the first entry for the code
decides. `none`: no entry. -/
def translateLoop (cfg : Config) (code : Nat) (tokens : List Token) :
    Translations → Option (Out Bytes)
  | [] => none
  | (c, msg) :: ts =>
    if c = code then some (format cfg msg tokens) else translateLoop cfg code tokens ts

/-- `translate_exception`, exception_translator.hpp:55-75: the message (`what()`) of the
`parse_exception` thrown. `custom` and `fallback` are the translations of the two template
parameters (`[]` where there are none, 44-47). -/
def translate (cfg : Config) (custom fallback : Translations) (code : Nat) (tokens : List Token) :
    Out Bytes :=
  match translateLoop cfg code tokens (custom ++ fallback) with
  | some r => r
  | none =>
    .ok (plainMessage cfg (b "Untranslated error code (" ++ natToBytes code ++ b ")") tokens)

end ArgRouter
