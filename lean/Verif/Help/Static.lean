import Verif.Help.Format

/-!
# Help at compile time

Model of the overload of `generate_help` without run-time help data, default_help_formatter.hpp:251-255,
and of the compile-time overloads of the line formatters. Both formatters assert that no description has a
tab (default_help_formatter.hpp:58-59, colour_help_formatter.hpp:46-47); what is said here is about
programs in which none has.
-/

namespace ArgRouter
open Utf8

/-- `default_line_formatter::format<DescStart, Depth, HelpData>`, default_help_formatter.hpp:50-82. The gaps
are compile-time strings (`create_sequence_cts_t`), so that `setw` has no part in it. -/
def formatRowStatic (indentSize descStart columns : Nat) (row : Nat × Bytes × Bytes) : Out Bytes :=
  let (depth, label, description) := row
  if label == [] then .ok []
  else
    let indent := depth * indentSize
    if description == [] then .ok (spaces indent ++ label ++ [10])
    else do
      let width ← terminalWidth label
      let gap := sizeSub (sizeSub descStart indent) width
      let ls ← lines description (sizeSub columns descStart)
      return spaces indent ++ label ++ spaces gap ++ joinLines (spaces descStart) ls ++ [10]

/-- `colour_line_formatter::format<DescStart, Depth, HelpData>`, colour_help_formatter.hpp:37-70. -/
def formatRowColourStatic (indentSize descStart columns : Nat) (row : Nat × Bytes × Bytes) : Out Bytes :=
  let (depth, label, description) := row
  if label == [] then .ok []
  else
    let indent := depth * indentSize
    if description == [] then .ok (red ++ spaces indent ++ label ++ [10] ++ resetColour)
    else do
      let width ← terminalWidth label
      let gap := sizeSub (sizeSub descStart indent) width
      let ls ← lines description (sizeSub columns descStart)
      return red ++ spaces indent ++ label ++ green ++ spaces gap ++
        joinLines (spaces descStart) ls ++ [10] ++ resetColour

/-- `generate_help_impl` without run-time help data, default_help_formatter.hpp:272-316, and
`line_formatter_dispatch<DescStart, Depth, HelpData>`, 335-349: the rows of `help_data_type`. -/
def generateHelpStatic (line : Nat → Nat → Nat → Nat × Bytes × Bytes → Out Bytes) (f : HelpFormat)
    (info : HelpInfo) (columns : Nat) (flatten : Bool) (target : Node) : Out Bytes := do
  let descStart ← descColumn f.indent 0 (staticHelp info flatten target) 0
  let body ← formatRows (line f.indent descStart (usedColumns f columns descStart))
    ((staticHelp info flatten target).flat 0)
  return preamble f ++ body ++ addendumText f

end ArgRouter
