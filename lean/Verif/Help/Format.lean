import Verif.Help.Data
import Verif.Utf8.Line

/-!
# The help formatters

Model of include/arg_router/policy/default_help_formatter.hpp, colour_help_formatter.hpp and of
`help_t::parse` and `find_help_target`, include/arg_router/help.hpp:178-275.
-/

namespace ArgRouter
open Utf8

/-- A number of spaces. `create_sequence_cts_t<n, ' '>`, used at
policy/default_help_formatter.hpp:55, 65, 75. -/
def spaces (n : Nat) : Bytes := List.replicate n 32

/-- Subtraction of `std::size_t` values, which wraps around. Used at
policy/default_help_formatter.hpp:61-62, 69, 105-106, 113. -/
def sizeSub (a c : Nat) : Nat := (a + (2 ^ 64 - c % 2 ^ 64)) % 2 ^ 64

/-- `stream << std::setw(n) << ' '`: pads to the width with spaces. `setw` takes an `int`; a `size_t`
beyond its range is converted modulo 2^32 and a width that is not positive has no effect, but the
space itself is always written. policy/default_help_formatter.hpp:136-141. -/
def setwSpace (n : Nat) : Bytes :=
  let m := n % 2 ^ 32
  spaces (max 1 (if m < 2 ^ 31 then m else 0))

/-- `set_gap`, default_help_formatter.hpp:136-141. -/
def setGap (n : Nat) : Bytes := if n > 0 then setwSpace n else []

/-- The settings of `default_help_formatter_t` and the texts of the help node's policies
(`program_name`, `program_version`, `program_intro`, `program_addendum`, `flatten_help`).
policy/default_help_formatter.hpp:227-231. -/
structure HelpFormat where
  indent : Nat
  offset : Nat
  name : Option Bytes
  version : Option Bytes
  intro : Option Bytes
  addendum : Option Bytes
  flattenHelp : Bool

/-- The description lines, default_help_formatter.hpp:112-122: each line but the first is preceded
by a newline and the gap. -/
def joinLines (gap : Bytes) : List Bytes → Bytes
  | [] => []
  | [l] => l
  | l :: m :: ls => l ++ [10] ++ gap ++ joinLines gap (m :: ls)

/-- `default_line_formatter::format`, default_help_formatter.hpp:93-127. -/
def formatRow (indentSize descStart columns : Nat) (row : Nat × Bytes × Bytes) : Out Bytes :=
  let (depth, label, description) := row
  if label == [] then .ok []
  else
    let indent := depth * indentSize
    if description == [] then .ok (setGap indent ++ label ++ [10])
    else do
      let width ← terminalWidth label
      let gap := sizeSub (sizeSub descStart indent) width
      let ls ← lines description (sizeSub columns descStart)
      return setGap indent ++ label ++ setGap gap ++ joinLines (setGap descStart) ls ++ [10]

/-- `red_colour`, `green_colour` and `reset_colour`, colour_help_formatter.hpp:24-26. -/
def red : Bytes := b "\x1b[31m"
/-- `green_colour`, policy/colour_help_formatter.hpp:26. -/
def green : Bytes := b "\x1b[32m"
/-- `reset_colour`, policy/colour_help_formatter.hpp:24. -/
def resetColour : Bytes := b "\x1b[0m"

/-- `colour_line_formatter::format`, colour_help_formatter.hpp:81-113. Here the spaces are written
with `setw` directly. -/
def formatRowColour (indentSize descStart columns : Nat) (row : Nat × Bytes × Bytes) : Out Bytes :=
  let (depth, label, description) := row
  if label == [] then .ok []
  else
    let indent := depth * indentSize
    if description == [] then
      .ok (red ++ setwSpace indent ++ label ++ [10] ++ resetColour)
    else do
      let width ← terminalWidth label
      let gap := sizeSub (sizeSub descStart indent) width
      let ls ← lines description (sizeSub columns descStart)
      return red ++ setwSpace indent ++ label ++ green ++ setwSpace gap ++
        joinLines (setwSpace descStart) ls ++ [10] ++ resetColour

mutual
/-- `description_column_start`, default_help_formatter.hpp:318-333. -/
def descColumn (indentSize depth : Nat) : HelpRow → Nat → Out Nat
  | .mk label _ cs, currentMax => do
    let width ← terminalWidth label
    descColumns indentSize (depth + 1) cs (max currentMax (depth * indentSize + width + indentSize))
/-- The loop over the children in `description_column_start`,
policy/default_help_formatter.hpp:326-330. -/
def descColumns (indentSize depth : Nat) : List HelpRow → Nat → Out Nat
  | [], currentMax => .ok currentMax
  | r :: rs, currentMax => do
    let m ← descColumn indentSize depth r currentMax
    descColumns indentSize depth rs m
end

/-- `line_formatter_dispatch`, default_help_formatter.hpp:351-368: the rows one after another. -/
def formatRows (format : Nat × Bytes × Bytes → Out Bytes) : List (Nat × Bytes × Bytes) → Out Bytes
  | [] => .ok []
  | r :: rs => do
    let x ← format r
    let y ← formatRows format rs
    return x ++ y

/-- `default_preamble_formatter`, default_help_formatter.hpp:145-186. -/
def preamble (f : HelpFormat) : Bytes :=
  (match f.name with
   | some n => n ++ (match f.version with | some v => b " " ++ v | none => []) ++ b "\n\n"
   | none => []) ++
  (match f.intro with
   | some i => i ++ b "\n\n"
   | none => [])

/-- `default_addendum_formatter`, default_help_formatter.hpp:189-212. -/
def addendumText (f : HelpFormat) : Bytes :=
  match f.addendum with
  | some a => b "\n" ++ a ++ b "\n"
  | none => []

/-- The column count handed to the line formatter, default_help_formatter.hpp:288-310. -/
def usedColumns (f : HelpFormat) (columns descStart : Nat) : Nat :=
  if columns ≥ descStart + f.offset then columns else sizeMax

/-- `generate_help_impl` with run-time help data, default_help_formatter.hpp:265-316. `columns` is
what `terminal::columns()` returned. -/
def generateHelp (line : Nat → Nat → Nat → Nat × Bytes × Bytes → Out Bytes) (f : HelpFormat)
    (info : HelpInfo) (columns : Nat) (flatten : Bool) (target : Node) : Out Bytes := do
  let descStart ← descColumn f.indent 0 (staticHelp info flatten target) 0
  let body ← formatRows (line f.indent descStart (usedColumns f columns descStart))
    ((runtimeHelp info flatten target).flat 0)
  return preamble f ++ body ++ addendumText f

/-- `find_help_target`, help.hpp:236-275: returns the node whose help is shown.
`tokens.front()` of an empty vector is undefined behaviour. -/
def findHelpTarget (cfg : Config) : List Token → Node → Out Node
  | [], node =>
    if node.runtimeEnabled == some false then .ub else .ok node
  | t :: ts, node =>
    if node.runtimeEnabled == some false then .throw ⟨.unknown_argument, [t]⟩
    else
      match node.children.find? fun c => c.matchToken (c.getToken cfg t.name) with
      | some c => findHelpTarget cfg ts c
      | none => .throw ⟨.unknown_argument, [t]⟩

/-- `help_t::parse`, help.hpp:178-225: the text printed or handed to the help node's router.
`isRoot` decides `std::is_same_v<root_type, node_type>`; only the root has the root's type. -/
def helpParse (line : Nat → Nat → Nat → Nat × Bytes × Bytes → Out Bytes) (f : HelpFormat)
    (info : HelpInfo) (columns : Nat) (tokens : List Token) (root : Node) : Out Bytes := do
  let target ← findHelpTarget info.cfg tokens root
  generateHelp line f info columns (f.flattenHelp || target.kind != .root) target

end ArgRouter
