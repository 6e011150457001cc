import Verif.Valid.Asserts
import Verif.Help.Program

/-!
# The assertions about the texts of a program and about the settings of its help formatter
-/

namespace ArgRouter

/-- The assertion of `program_version_t`, `program_intro_t` and `program_addendum_t`:
policy/program_version.hpp:44-45, policy/program_intro.hpp:44-45, policy/program_addendum.hpp:44-45. -/
def textAsserts (text : Option Bytes) : Bool :=
  match text with
  | some t => countOk t (1 < ·)
  | none => true

/-- The assertions of `program_name_t`, policy/program_name.hpp:45-48. -/
def programNameAsserts (name : Option Bytes) : Bool :=
  match name with
  | some n => countOk n (1 < ·) && noWhitespace n
  | none => true

/-- The assertions that the policies of a help node and its formatter make: those of the texts, and
policy/default_help_formatter.hpp:38, 235, 238 (that the settings have a value type is not modelled: they
are numbers here). -/
def formatAsserts (f : HelpFormat) : Bool :=
  programNameAsserts f.name && textAsserts f.version && textAsserts f.intro && textAsserts f.addendum &&
    decide (0 < f.indent) && decide (0 < f.offset)

/-- The assertions about all help nodes of a program. help.hpp:52-115. -/
def formattersAssert (fmt : Node → Formatter) (tree : Node) : Bool :=
  tree.nodes.all fun h => h.kind != .help || formatAsserts (fmt h).format

end ArgRouter
