import Verif.Parse.Classes
import Verif.Util.Number
import Verif.Util.StringPolicy
import Verif.Util.ListExpand
import Verif.Help.Program

/-!
# The example programs

The programs in /repo/examples/c++17 (those in c++20 are the same trees). The programs in several languages, which are `simple`
once for each language, are in Examples/Languages.lean.

The routers do not take part in the model, so a program is the tree given to `root`. Files are the
texts they are given as (the parser of `fs::path` is the identity).
-/

namespace ArgRouter.Examples

/-- The value type of `fs::path`, as parsed by simple/main.cpp:39-42. -/
def path : ValueType := textType

/-! ## just_cats -/

/-- The help node of just_cats/main.cpp:13-18 without the texts of the formatter. -/
def catsHelp : Node :=
  mkHelp 2 2 [.longName (b "help"), .description (b "Display this help and exit"), .shortName (b "h")]

/-- The cats, just_cats/main.cpp:19-33. -/
def catFlag (uid : Nat) (name : Policy) (description : Bytes) : Node :=
  mkFlag .default uid uid [name, .description description, .router]

/-- just_cats/main.cpp:12-34. The names of one character are short names. -/
def justCats : Node := mkRoot 1 1 [catsHelp,
  catFlag 3 (.longName (b "cat")) (b "English cat"),
  catFlag 4 (.shortName (b "猫")) (b "日本語の猫"),
  catFlag 5 (.shortName (b "🐱")) (b "Emoji cat"),
  catFlag 6 (.longName (b "แมว")) (b "แมวไทย"),
  catFlag 7 (.longName (b "кіт")) (b "український кіт")]

/-- just_cats/main.cpp:13-18. -/
def justCatsFormat : Formatter :=
  ⟨formatRow, ⟨4, 8, some (b "just-cats"), none, some (b "Prints cats!"),
    some (b "An example program for arg_router."), false⟩⟩

/-! ## simple -/

/-- The flag `force` of simple/main.cpp:47. -/
def force (uid : Nat) : Node :=
  mkFlag .default uid 11
    [.longName (b "force"), .description (b "Force overwrite existing files"), .shortName (b "f")]

/-- The destination of simple/main.cpp:48-51. -/
def destination (uid : Nat) : Node :=
  mkPositional uid 12 path
    [.displayName (b "DST"), .description (b "Destination directory"), .required, .minMaxCount 1 1]

/-- The sources of simple/main.cpp:66-69. -/
def sources : Node :=
  mkPositional 13 13 (listOf path)
    [.displayName (b "SRC"), .description (b "Source file paths"), .required, .minMaxCount 1 sizeMax]

/-- The source of simple/main.cpp:76-79. -/
def source : Node :=
  mkPositional 17 17 path
    [.displayName (b "SRC"), .description (b "Source file path"), .required, .minMaxCount 1 1]

/-- simple/main.cpp:63-72. -/
def copyMode : Node := mkMode 10 10
  [.noneName (b "copy"), .description (b "Copy source files to destination"), .router]
  [force 11, destination 12, sources]

/-- simple/main.cpp:73-82. -/
def moveMode : Node := mkMode 14 14
  [.noneName (b "move"), .description (b "Move source file to destination"), .router]
  [force 15, destination 16, source]

/-- simple/main.cpp:53-83. -/
def simple : Node := mkRoot 1 1 [catsHelp, copyMode, moveMode]

/-- simple/main.cpp:54-62. -/
def simpleFormat : Formatter :=
  ⟨formatRowColour, ⟨4, 8, some (b "simple"), some (b "v0.1"), some (b "A simple file copier and mover."),
    some (b "An example program for arg_router."), true⟩⟩

/-! ## launcher -/

/-- `version`, launcher/main.cpp:74-79. -/
def versionFlag : Node :=
  mkFlag .default 3 3
    [.longName (b "version"), .description (b "Output version information and exit"), .router]

/-- The programs to run, launcher/main.cpp:83-87. -/
def progs : Node :=
  mkPositional 6 6 (listOf textType) [.displayName (b "PROGS"), .description (b "Programs to run"),
    .required, .tokenEndMarker (b "--"), .minMaxCount 1 sizeMax]

/-- Their arguments, launcher/main.cpp:88-90. -/
def progArgs : Node :=
  mkPositional 7 7 (listOf textType)
    [.displayName (b "ARGS"), .description (b "Arguments to pass to programs")]

/-- `dry-run`, launcher/main.cpp:80-82. -/
def dryRun : Node :=
  mkFlag .default 5 5 [.longName (b "dry-run"),
    .description (b "Just print launch invocations, do not execute them"), .shortName (b "d")]

/-- launcher/main.cpp:80-100. -/
def launchMode : Node := mkMode 4 4 [.router] [dryRun, progs, progArgs]

/-- launcher/main.cpp:66-101. -/
def launcher : Node := mkRoot 1 1 [catsHelp, versionFlag, launchMode]

/-- launcher/main.cpp:68-73. -/
def launcherFormat : Formatter :=
  ⟨formatRow, ⟨4, 8, some (b "launcher"), some (b "v3.14"), none,
    some (b "An example program for arg_router."), false⟩⟩

/-! ## runtime_node_enable -/

/-- runtime_node_enable/main.cpp:37-45. -/
def advancedMode (advanced : Bool) : Node := mkMode 4 4
  [.noneName (b "advanced"), .description (b "Advanced features"), .router, .runtimeEnable advanced]
  [mkFlag .default 5 5 [.longName (b "feature1"), .description (b "First feature")],
   mkArg 6 6 (intType ⟨32, true⟩)
     [.longName (b "feature2"), .description (b "Second feature"), .defaultValue (.one (.int 42))]]

/-- runtime_node_enable/main.cpp:46-55. -/
def fooMode (advanced : Bool) : Node := mkMode 7 7 [.router]
  [mkFlag .default 8 8 [.longName (b "foo"), .description (b "Foo flag"), .shortName (b "f")],
   mkFlag .default 9 9 [.longName (b "bar"), .description (b "Bar flag"), .shortName (b "b")],
   mkArg 10 10 textType [.longName (b "advance-foo"), .description (b "Licensed foo"),
     .runtimeEnableRequired advanced (.one (.str []))]]

/-- runtime_node_enable/main.cpp:21-56; `advanced`: the environment variable is set. -/
def runtimeEnable (advanced : Bool) : Node :=
  mkRoot 1 1 [catsHelp, versionFlag, advancedMode advanced, fooMode advanced]

/-- runtime_node_enable/main.cpp:24-30. -/
def runtimeFormat : Formatter :=
  ⟨formatRow, ⟨4, 8, some (b "runtime_node_enable"), some (b "v3.14"), none,
    some (b "An example program for arg_router."), true⟩⟩

/-! ## basic_cat -/

/-- One of a list of words, or a `parse_exception` of the program's own (basic_cat/main.cpp:34-47,
130-149). It reaches the caller unchanged; here it is represented by the error of the library's own
parsers. -/
def wordType (words : List Bytes) : ValueType :=
  ⟨false, .one (.int 0), fun s =>
    match words.findIdx? (· == s) with
    | some i => .ok (.int i)
    | none => .throw ⟨.failed_to_parse, [⟨.none, s⟩]⟩⟩

/-- `theme_t`, basic_cat/main.cpp:21, 34-47. -/
def theme : ValueType := wordType [b "none", b "classic", b "solarized"]
/-- `verbosity_level_t`, basic_cat/main.cpp:23, 130-149. -/
def verbosity : ValueType := wordType [b "error", b "warning", b "info", b "debug"]

/-- `<` on the underlying integers, policy/min_max_value.hpp:163-183. -/
def lessInt : Value → Value → Bool
  | .one (.int x), .one (.int y) => decide (x < y)
  | _, _ => false

/-- `show-all`, an alias. basic_cat/main.cpp:166-169. -/
def showAll : Node := mkFlag .default 5 5 [.longName (b "show-all"), .description (b "Equivalent to -nE"),
  .shortName (b "A"), .alias [.short (b "E"), .short (b "n")]]
/-- basic_cat/main.cpp:170. -/
def showEnds : Node := mkFlag .default 6 6 [.longName (b "show-ends"),
  .description (b "Display $ at end of each line"), .shortName (b "E")]
/-- basic_cat/main.cpp:171-173. -/
def showNonPrinting : Node := mkFlag .default 7 7 [.longName (b "show-nonprinting"),
  .description (b "Use ^ and M- notation, except for LFD and TAB"), .shortName (b "n")]
/-- basic_cat/main.cpp:174-177. -/
def maxLines : Node := mkArg 8 8 (intType ⟨32, true⟩) [.longName (b "max-lines"),
  .description (b "Maximum lines to output"), .valueSeparator (b "="), .defaultValue (.one (.int (-1)))]
/-- basic_cat/main.cpp:178-182. An empty `std::optional` is represented by an empty list. -/
def maxLineLength : Node := mkArg 9 9 (intType ⟨64, false⟩) [.longName (b "max-line-length"),
  .description (b "Maximum line length"), .valueSeparator (b "="), .defaultValue (.many [])]
/-- basic_cat/main.cpp:184-187. -/
def skipLine : Node := mkFlag .default 11 11 [.longName (b "skip-line"),
  .description (b "Skips line output if max line length reached"), .shortName (b "s"),
  .dependent [.long (b "max-line-length")]]
/-- basic_cat/main.cpp:188-193. -/
def lineSuffix : Node := mkArg 12 12 textType [.longName (b "line-suffix"),
  .description (b "Shortens line length to maximum with the given suffix if max line length reached"),
  .dependent [.long (b "max-line-length")], .valueSeparator (b "=")]
/-- basic_cat/main.cpp:183-193. -/
def lineHandling : Node := mkOneOf .default 10 10 textType [.defaultValue (.one (.str (b "...")))]
  [skipLine, lineSuffix]
/-- basic_cat/main.cpp:194-200. -/
def themeArg : Node := mkArg 13 13 theme [.longName (b "theme"),
  .description (b "Set the output colour theme"), .valueSeparator (b "="),
  .defaultValue (.one (.int 0)), .customParser theme.parse]
/-- basic_cat/main.cpp:203-205. -/
def verbosityFlag : Node := mkCountingFlag .default 15 15 32 [.shortName (b "v"),
  .description (b "Verbosity level, number of 'v's sets level")]
/-- basic_cat/main.cpp:206-208. -/
def verboseArg : Node := mkArg 16 16 verbosity [.longName (b "verbose"),
  .description (b "Verbosity level"), .valueSeparator (b "=")]
/-- basic_cat/main.cpp:201-209. -/
def verbosityGroup : Node := mkAliasGroup .default 14 14 verbosity
  [.defaultValue (.one (.int 2)), .minMaxValue (some (.one (.int 0))) (some (.one (.int 3))) lessInt]
  [verbosityFlag, verboseArg]
/-- basic_cat/main.cpp:210-213. -/
def files : Node := mkPositional 17 17 (listOf textType) [.displayName (b "FILES"),
  .description (b "Files to read"), .required, .minMaxCount 1 sizeMax]

/-- basic_cat/main.cpp:166-230. -/
def catMode : Node := mkMode 4 4 [.router] [showAll, showEnds, showNonPrinting, maxLines, maxLineLength,
  lineHandling, themeArg, verbosityGroup, files]

/-- basic_cat/main.cpp:153-231. -/
def basicCat : Node := mkRoot 1 1 [catsHelp, versionFlag, catMode]

/-- basic_cat/main.cpp:154-159. -/
def basicCatFormat : Formatter :=
  ⟨formatRow, ⟨4, 8, some (b "my-cat"), some (b "v3.14"), none,
    some (b "An example program for arg_router."), false⟩⟩

/-! ## custom_policy_and_node -/

/-- `smiley_description_t`, custom_policy_and_node/main.cpp:24-46. It is another class than
`description_t`, with a rule of its own that forbids both in one node (main.cpp:177-184); a node here
has one of the two at most, and nothing else tells them apart, so it is a description. -/
def smiley (s : Bytes) : Policy := .description (s ++ b " 🙂")

/-- `is_even<int>`, custom_policy_and_node/main.cpp:48-61. What it throws is a `parse_exception` with a
text of the program's own and no code of the library's: an exception foreign to the library here. -/
def isEven : Value → Out Unit
  | .one (.int v) => if v.tmod 2 ≠ 0 then .foreign else .ok ()
  | _ => .ok ()

/-- `single_positional_arg<int>`, custom_policy_and_node/main.cpp:72-171, 213-216. The class is
`positional_arg_t` with a fixed count and is added to the rules of that class (main.cpp:188-194). -/
def evenValue : Node := mkPositional 5 5 (intType ⟨32, true⟩) [.minMaxCount 1 1, .required,
  .displayName (b "Value"), smiley (b "Value to read"), .validation 0 isEven]

/-- custom_policy_and_node/main.cpp:201-206. -/
def evenHelp : Node := mkHelp 2 2 [.longName (b "help"), .shortName (b "h"),
  smiley (b "Display this help and exit")]

/-- custom_policy_and_node/main.cpp:207-212. -/
def evenVersion : Node := mkFlag .default 3 3 [.longName (b "version"),
  smiley (b "Output version information and exit"), .router]

/-- custom_policy_and_node/main.cpp:213-217. -/
def evenMode : Node := mkMode 4 4 [.router] [evenValue]

/-- custom_policy_and_node/main.cpp:200-218. -/
def even : Node := mkRoot 1 1 [evenHelp, evenVersion, evenMode]

/-- custom_policy_and_node/main.cpp:201-206. -/
def evenFormat : Formatter :=
  ⟨formatRow, ⟨4, 8, some (b "is_even"), some (b "v1.0.0"), none,
    some (b "An example program for arg_router."), false⟩⟩

end ArgRouter.Examples
