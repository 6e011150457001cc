import Verif.Help.Format
import Verif.Parse.Classes

/-!
# Programs with help

A help node holds a formatter and is handed the whole tree when it is parsed. The model keeps the
two apart: a program is written down as a tree without formatters, and `program` puts the formatters
into its help nodes.
-/

namespace ArgRouter

/-- A help formatter: the line formatter (`formatRow` or `formatRowColour`) and the settings and
texts of the help node's policies. policy/default_help_formatter.hpp:227-269,
policy/colour_help_formatter.hpp:20-149. -/
structure Formatter where
  line : Nat → Nat → Nat → Nat × Bytes × Bytes → Out Bytes
  format : HelpFormat

/-- `help(policies...)`, help.hpp:46-115, without its formatter. -/
def mkHelp (uid hash : Nat) (user : List Policy) : Node :=
  .mk .help uid hash boolType ([.noResult, .minMaxCount 0 sizeMax] ++ user) []

mutual
/-- Gives each help node its formatter, in front of its policies (help.hpp:104-115, and
`add_missing_formatter_policy`, 24-40). -/
def install (g : Node → List Token → Out Bytes) : Node → Node
  | .mk k u h v p cs =>
    .mk k u h v (if k = .help then .helpText (g (.mk k u h v p cs)) :: p else p) (installs g cs)
/-- The same for a list of nodes. help.hpp:92-115. -/
def installs (g : Node → List Token → Out Bytes) : List Node → List Node
  | [] => []
  | c :: cs => install g c :: installs g cs
end

/-- The program of a tree: `fmt` gives the formatter of each of its help nodes, `columns` is the
width of the terminal. help.hpp:178-225. -/
def program (fmt : Node → Formatter) (info : HelpInfo) (columns : Nat) (tree : Node) : Node :=
  install (fun h ts => helpParse (fmt h).line (fmt h).format info columns ts tree) tree

/-- `root_t::help(stream)`, root.hpp:240-275, and `root_t::help()`: the output of the first help node
in root, nothing without one. -/
def rootHelp (fmt : Node → Formatter) (info : HelpInfo) (columns : Nat) (tree : Node) : Out Bytes :=
  match tree.children.find? fun c => c.kind == .help with
  | none => .ok []
  | some h => generateHelp (fmt h).line (fmt h).format info columns (fmt h).format.flattenHelp tree

end ArgRouter
