import Verif.Props.Alternatives
import Verif.Props.Verbatim
import Verif.Props.Safe
import Verif.Props.EndMarker
import Verif.Props.Separator
import Verif.Props.Linked
import Verif.Props.Page

/-!
# The refutations happen in programs that compile

Several claims are refuted beside their theorems with trees that are as small as possible. Here each of
them is refuted again by a program, made with the functions of the library, that keeps all static
assertions and the default validator, and by the outcome of `root.parse` on a command line.
-/

namespace ArgRouter.Props

open Spec

namespace Found

/-- A program with one anonymous mode. -/
def tree (children : List Node) : Node := mkRoot 1 1 [mkMode 2 2 [.router] children]

def level : Node := mkArg 3 3 textType [.longName (b "level"), .required, .valueSeparator (b "é")]
def files : Node := mkPositional 4 4 stringList
  [.displayName (b "FILES"), .tokenEndMarker (b "--"), .minMaxCount 0 3]
def hidden : Node := mkFlag .default 5 5 [.longName (b "hidden"), .runtimeEnable false]
def everything : Node := mkFlag .default 6 6 [.longName (b "all"), .alias [.long (b "hidden")]]
def offLevel : Node := mkArg 3 3 textType
  [.longName (b "level"), .valueSeparator (b "="), .runtimeEnable false]
def aa : Node := mkFlag .default 7 7 [.longName (b "aa")]
def bb : Node := mkFlag .default 8 8 [.longName (b "bb")]
def both : Node := mkFlag .default 9 9 [.longName (b "both"), .alias [.long (b "aa"), .long (b "bb")]]
def all : Node := mkFlag .default 10 10 [.longName (b "all"), .alias [.long (b "both")]]
def lookalike : Node := mkForwarding 11 11 [.noneName (b "--aa")]
def run : Node := mkMode 12 12 [.router, .noneName (b "run")] [bb]
def choice : Node := mkOneOf .default 13 13 textType [.required]
  [mkArg 14 14 textType [.longName (b "cc"), .required], aa]
def force : Node := mkFlag .default 15 15 [.shortName (b "f")]
def more : Node := mkPositional 16 16 stringList
  [.required, .displayName (b "FILES"), .minMaxCount 1 sizeMax]

/-- A named mode and a help node. -/
def helped (children : List Node) : Node :=
  mkRoot 1 1 [mkMode 2 2 [.router, .noneName (b "run"), .description (b "Runs")] children, AskHelpEx.ask]
def texts (most : Nat) : Node := mkPositional 4 4 stringList
  [.displayName (b "FILES"), .description (b "Texts"), .minMaxCount 2 most]
def cat : Node := mkFlag .default 5 5 [.longName (b "cat"), .description (b "猫")]
def colours : Node → Formatter :=
  fun _ => ⟨formatRowColour, ⟨4, 8, some (b "prog"), none, none, none, false⟩⟩
def oneColumn : Node → Formatter :=
  fun _ => ⟨formatRow, ⟨4, 1, some (b "prog"), none, none, none, false⟩⟩

end Found

open Found

/-- C08: with the separator `é`, `--levelè5` is taken as `--level` with the value `5`, and `--level©`
ends in a foreign exception. -/
theorem C08_compiled_false : compiles .default 100 defaultRules (tree [level]) = true ∧
    parseArgs .default (tree [level]) [b "--levelè5"] .fresh =
      (.ok (), ⟨[], [⟨2, [.one (.str (b "5"))]⟩]⟩) ∧
    parseArgs .default (tree [level]) [b "--level©"] .fresh = (.foreign, .fresh) := by
  decide +kernel

/-- C10: after a leading end marker, the list still gets `x`. -/
theorem C10_compiled_false : compiles .default 100 defaultRules (tree [files]) = true ∧
    parseArgs .default (tree [files]) [b "--", b "x"] .fresh =
      (.ok (), ⟨[], [⟨2, [.many [.str (b "x")]]⟩]⟩) := by
  decide +kernel

/-- C11: a disabled flag is set through its alias, though not by its own name; and a disabled argument
with a separator is spoken of in an error. -/
theorem C11_compiled_false :
    compiles .default 100 defaultRules (tree [hidden, everything, offLevel]) = true ∧
    parseArgs .default (tree [hidden, everything, offLevel]) [b "--all"] .fresh =
      (.ok (), ⟨[], [⟨2, [.one (.bool true), .one (.str [])]⟩]⟩) ∧
    (parseArgs .default (tree [hidden, everything, offLevel]) [b "--hidden"] .fresh).1 =
      .throw ⟨.unknown_argument_with_suggestion, [⟨.none, b "--hidden"⟩, ⟨.long, b "all"⟩]⟩ ∧
    (parseArgs .default (tree [hidden, everything, offLevel]) [b "--level"] .fresh).1 =
      .throw ⟨.missing_value_separator, [⟨.long, b "level"⟩]⟩ := by
  decide +kernel

/-- C13: the alias of an alias does nothing. -/
theorem C13_compiled_false : compiles .default 100 defaultRules (tree [aa, bb, both, all]) = true ∧
    parseArgs .default (tree [aa, bb, both, all]) [b "--both"] .fresh =
      (.ok (), ⟨[], [⟨2, [.one (.bool true), .one (.bool true)]⟩]⟩) ∧
    parseArgs .default (tree [aa, bb, both, all]) [b "--all"] .fresh =
      (.ok (), ⟨[], [⟨2, [.one (.bool false), .one (.bool false)]⟩]⟩) := by
  decide +kernel

/-- C15: `--anonymous` is refused once `--cert` has been parsed, or has been refused. -/
theorem C15_compiled_false : compiles .default 100 defaultRules AltEx.altRoot = true ∧
    (parseArgs .default AltEx.altRoot [b "--anonymous"] .fresh).1 = .ok () ∧
    (parseArgs .default AltEx.altRoot [b "--anonymous"]
      (parseArgs .default AltEx.altRoot [b "--cert", b "x"] .fresh).2).1 =
        .throw ⟨.one_of_selected_type_mismatch, [AltEx.loginA.tokenType]⟩ ∧
    (parseArgs .default AltEx.altRoot [b "--cert"] .fresh).1 =
      .throw ⟨.minimum_count_not_reached, [⟨.long, b "cert"⟩]⟩ ∧
    (parseArgs .default AltEx.altRoot [b "--anonymous"]
      (parseArgs .default AltEx.altRoot [b "--cert"] .fresh).2).1 =
        .throw ⟨.one_of_selected_type_mismatch, [AltEx.loginA.tokenType]⟩ := by
  decide +kernel

/-- C29: an empty first argument, though arguments were passed. -/
theorem C29_compiled_false : compiles .default 100 defaultRules (mkRoot 1 1 [run]) = true ∧
    (parseArgs .default (mkRoot 1 1 [run]) [[], b "x"] .fresh).1 =
      .throw ⟨.no_arguments_passed, []⟩ := by
  decide +kernel

/-- C67: a flag written twice, and a forwarding argument called like a flag; one label for two nodes. -/
theorem C67_compiled_false : compiles .default 100 defaultRules (tree [aa, aa]) = true ∧
    compiles .default 100 defaultRules (tree [aa, lookalike]) = true ∧
    compiles .default 100 defaultRules ValidEx.sameModes = true ∧
    IsLabel .default aa ⟨.none, b "--aa"⟩ ∧ IsLabel .default lookalike ⟨.none, b "--aa"⟩ :=
  ⟨by decide +kernel, by decide +kernel, by decide +kernel, .inl ⟨b "aa", rfl, rfl⟩,
    .inr (.inr ⟨rfl, by decide +kernel, by decide +kernel⟩)⟩

/-- C68: behind an anonymous mode, `run` cannot be reached. -/
theorem C68_compiled_false :
    compiles .default 100 defaultRules (mkRoot 1 1 [mkMode 2 2 [.router] [aa], run]) = true ∧
    (parseArgs .default (mkRoot 1 1 [mkMode 2 2 [.router] [aa], run]) [b "run"] .fresh).1 =
      .throw ⟨.unknown_argument_with_suggestion, [⟨.none, b "run"⟩, ⟨.long, b "aa"⟩]⟩ := by
  decide +kernel

/-- C70: one alternative of the `one_of` is required and the other has a default value. -/
theorem C70_compiled_false : compiles .default 100 defaultRules (tree [choice]) = true ∧
    (choice.children.map fun c => (c.isRequired, c.has .defaultValue)) =
      [(true, false), (false, true)] := by
  decide +kernel

/-- C79: `-fx` hands `x` to the positional argument. -/
theorem C79_compiled_false : compiles .default 100 defaultRules (tree [force, more]) = true ∧
    parseArgs .default (tree [force, more]) [b "-fx"] .fresh =
      (.ok (), ⟨[], [⟨2, [.one (.bool true), .many [.str (b "x")]]⟩]⟩) := by
  decide +kernel

/-- C51, the colour formatter: the description of the mode starts one column to the right of the one of
its flag. -/
theorem C51_colour_compiled_false :
    compiles .default 100 defaultRules (program colours AskHelpEx.info 80 (helped [cat])) = true ∧
    parseArgs .default (program colours AskHelpEx.info 80 (helped [cat])) [b "--help", b "run"] .fresh =
      (.ok (), { St.fresh with calls := [⟨2, [.one (.str (b "prog\n\n" ++
        red ++ b " run" ++ green ++ b "          Runs\n" ++ resetColour ++
        red ++ b "    --cat" ++ green ++ b "    猫\n" ++ resetColour))]⟩] }) := by
  decide +kernel

/-- C52: if a formatter leaves one column for the descriptions and the terminal is as narrow as that, the
help about `--cat` is never finished. -/
theorem C52_compiled_false :
    compiles .default 100 defaultRules (program oneColumn AskHelpEx.info 10 (helped [cat])) = true ∧
    (parseArgs .default (program oneColumn AskHelpEx.info 10 (helped [cat]))
      [b "--help", b "run", b "--cat"] .fresh).1 = .diverge ∧
    (parseArgs .default (program oneColumn AskHelpEx.info 11 (helped [cat]))
      [b "--help", b "run", b "--cat"] .fresh).1 = .ok () := by
  decide +kernel

/-- C82, C98: programs that take two to 105 and two to 15 files have the same help. -/
theorem C82_compiled_false : ∀ most ∈ [105, 15],
    compiles .default 100 defaultRules
      (program AskHelpEx.formats AskHelpEx.info 80 (helped [texts most])) = true ∧
    parseArgs .default (program AskHelpEx.formats AskHelpEx.info 80 (helped [texts most]))
      [b "--help", b "run"] .fresh = (.ok (), { St.fresh with calls := [⟨2, [.one (.str (b
        "prog\n\nrun                   Runs\n    <FILES> [2,15]    Texts\n"))]⟩] }) := by
  decide +kernel

/-- C98: the same. -/
theorem C98_compiled_false :
    parseArgs .default (program AskHelpEx.formats AskHelpEx.info 80 (helped [texts 105]))
      [b "--help", b "run"] .fresh =
    parseArgs .default (program AskHelpEx.formats AskHelpEx.info 80 (helped [texts 15]))
      [b "--help", b "run"] .fresh :=
  ((C82_compiled_false 105 (by decide)).2).trans ((C82_compiled_false 15 (by decide)).2).symm

/-- The other refutations by a command line use such a program already: those of C12, C24, C57, C77,
C78. -/
example : ∀ t ∈ [needyRoot, byteRoot, offRoot, nestedRoot, mustRoot,
    mkRoot 91 91 [mkMode 92 92 [.router] [mkFlag .default 93 93 [.shortName (b "a")]]],
    mkRoot 91 91 [mkMode 92 92 [.router] [mkFlag .default 93 93 [.longName (b "hello")]]]],
    compiles .default 100 defaultRules t = true := by decide +kernel

end ArgRouter.Props
