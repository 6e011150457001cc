import Verif.Tests.Base
import Verif.Help.Program
import Verif.Help.Static

/-!
# Tests of the help output

/repo/test/help_test.cpp, policy/default_help_formatter_test.cpp, policy/colour_help_formatter_test.cpp
and the help tests of root_tests/top_level_test.cpp.
-/

namespace ArgRouter.Tests.Help

/-- `help(...)` with the policies that take part in parsing. -/
def help (user : List Policy) : Node := mkHelp 0 0 user
/-- `value_separator<'='>`. -/
def equals : Policy := .valueSeparator (b "=")

/-- The settings of the default formatter. -/
def format (name version intro addendum : Option String) (flatten : Bool) : HelpFormat :=
  ⟨4, 8, name.map b, version.map b, intro.map b, addendum.map b, flatten⟩
/-- `program_name`, `program_version` and `program_intro` of most tests. -/
def foo : HelpFormat :=
  format (some "foo") (some "v3.14") (some "My foo is good for you") Option.none false
/-- ... with `flatten_help`. -/
def fooFlat : HelpFormat := { foo with flattenHelp := true }
/-- No value ranges. -/
def info : HelpInfo := ⟨.default, fun _ => Option.none⟩
/-- A value range at the node with this number. -/
def ranged (uid : Nat) (r : CtRange) : HelpInfo :=
  ⟨.default, fun n => if n.uid == uid then some r else Option.none⟩

/-- What a test of the formatter sees. -/
inductive Text where
  | text (s : Bytes)
  | error (e : Exc)
  | other
  deriving DecidableEq

/-- ... of an outcome. -/
def Text.of : Out Bytes → Text
  | .ok s => .text s
  | .throw e => .error e
  | _ => .other

/-- The lines of a page, each ended by a newline. -/
def page (lines : List String) : Text := .text (lines.flatMap fun l => b l ++ [10])

/-- The head of most pages. -/
def head : List String := ["foo v3.14", "", "My foo is good for you", ""]

/-- The program of the tree compiles. -/
def compiled (tree : Node) : Bool := accepted (program (fun _ => ⟨formatRow, foo⟩) info 80 tree)

/-! ## help_test.cpp -/

/-- `help_node.parse` with the tokens behind the help flag. -/
def parse (tree : Node) (tokens : String) : Text :=
  .of (helpParse formatRow foo info 80 ((words (b tokens)).map fun w => ⟨.none, w⟩) tree)

def flag1 : Node := flag [long "flag1", short "a", desc "Flag1 description"]
def flag2 : Node := flag [long "flag2"]
def flagB : Node := flag [short "b", desc "b description"]
def helpNode : Node := help [long "help", short "h", desc "Help output"]
def flag3 : Node := flag [long "flag3", short "c", desc "Flag3 description"]
def mode1 : Node := mode [none "mode1", desc "Mode1 description"] [flag1, flag2, flagB]
def mode2 : Node := mode [none "mode2"] [flag3]

/-- help_test.cpp:93-113. -/
def flags : Node := root [flag1, flag2, flagB, helpNode]

/-- help_test.cpp:161-184. -/
def modes : Node := root [helpNode, mode1, mode2]

/-- The page of `flags`. -/
def flagsPage : Text := page (head ++ ["    --flag1,-a    Flag1 description",
  "    --flag2", "    -b            b description", "    --help,-h     Help output"])

example : parse flags "" = flagsPage := by decide +kernel

/-- help_test.cpp:93-159: whole programs, `--help` and `-h`. -/
example :
    run (program (fun _ => ⟨formatRow, foo⟩) info 80
      (root [flag [long "flag1", short "a", desc "Flag1 description", .router],
        flag [long "flag2", .router], flag [short "b", desc "b description", .router],
        help [long "help", short "h", desc "Help output", .router]])) "--help" =
      .called 5 [.one (.str (b "foo v3.14\n\nMy foo is good for you\n\n" ++
        b "    --flag1,-a    Flag1 description\n    --flag2\n" ++
        b "    -b            b description\n    --help,-h     Help output\n"))] ∧
    run (program (fun _ => ⟨formatRow, foo⟩) info 80
      (root [flag [long "flag1", short "a", desc "Flag1 description", .router],
        flag [long "flag2", .router], flag [short "b", desc "b description", .router],
        help [long "help", short "h", desc "Help output", .router]])) "-h" =
      .called 5 [.one (.str (b "foo v3.14\n\nMy foo is good for you\n\n" ++
        b "    --flag1,-a    Flag1 description\n    --flag2\n" ++
        b "    -b            b description\n    --help,-h     Help output\n"))] := by
  decide +kernel

/-- help_test.cpp:161-225. -/
example : parse modes "mode1" = page (head ++ ["mode1             Mode1 description",
    "    --flag1,-a    Flag1 description", "    --flag2", "    -b            b description"]) ∧
  parse modes "mode2" = page (head ++ ["mode2", "    --flag3,-c    Flag3 description"]) := by
  decide +kernel

/-- help_test.cpp:226-281. -/
example : parse flags "-b" = page (head ++ ["-b    b description"]) ∧
    parse modes "mode1 --flag2" = page (head ++ ["--flag2"]) := by decide +kernel

/-- help_test.cpp:282-331. -/
example : parse flags "--foo" = .error ⟨.unknown_argument, [⟨.none, b "--foo"⟩]⟩ ∧
    parse modes "mode1 --foo" = .error ⟨.unknown_argument, [⟨.none, b "--foo"⟩]⟩ := by decide +kernel

/-- help_test.cpp:332-390: nodes that are switched off. -/
example :
    parse (root [flag1, flag2, flag [short "b", desc "b description", .runtimeEnable false],
      helpNode]) "" = page (head ++ ["    --flag1,-a    Flag1 description", "    --flag2",
        "    --help,-h     Help output"]) ∧
    parse (root [helpNode, mode [none "mode1", desc "Mode1 description"]
      [flag [long "flag1", short "a", desc "Flag1 description", .runtimeEnable false], flag2, flagB],
      mode2]) "mode1" = page (head ++ ["mode1             Mode1 description",
        "    --flag2", "    -b            b description"]) := by decide +kernel

/-- help_test.cpp:393-476: what does not compile. A display name, a none name, a custom parser, a
value range, a default value. -/
example :
    compiled (root [help [long "hello", short "h"], flag [long "ff", .router]]) = true ∧
    compiled (root [help [long "hello", display "help"], flag [long "ff", .router]]) = false ∧
    compiled (root [help [long "hello", none "help"], flag [long "ff", .router]]) = false ∧
    compiled (root [help [long "help", .customParser fun _ => .ok (.int 42)],
      flag [long "ff", .router]]) = false ∧
    compiled (root [help [long "help", .minMaxValue (some (num 0)) (some (num 1)) fun _ _ => false],
      flag [long "ff", .router]]) = false ∧
    compiled (root [help [long "help", .defaultValue (num 42)], flag [long "ff", .router]]) = false := by
  decide +kernel

/-! ## default_help_formatter_test.cpp -/

/-- Both ways to write a page: the data of compile time and that of run time. -/
def both (f : HelpFormat) (i : HelpInfo) (flatten : Bool) (tree : Node) (p : Text) : Prop :=
  Text.of (generateHelpStatic formatRowStatic f i 80 flatten tree) = p ∧
    Text.of (generateHelp formatRow f i 80 flatten tree) = p

instance (f : HelpFormat) (i : HelpInfo) (flatten : Bool) (tree : Node) (p : Text) :
    Decidable (both f i flatten tree p) := inferInstanceAs (Decidable (_ ∧ _))

/-- default_help_formatter_test.cpp:100-115. -/
def withArg : Node := root [flag1, flag2, flagB, arg int [long "arg1", equals], helpNode]
/-- Its rows. -/
def withArgRows : List String := ["    --flag1,-a        Flag1 description", "    --flag2",
  "    -b                b description", "    --arg1=<Value>", "    --help,-h         Help output"]

example : both foo info false withArg (page (head ++ withArgRows)) := by decide +kernel

/-- default_help_formatter_test.cpp:128-155. -/
example : both { foo with addendum := some (b "Some addendum information.") } info false withArg
    (page (head ++ withArgRows ++ ["", "Some addendum information."])) := by decide +kernel

/-- default_help_formatter_test.cpp:156-255: `min_max_value<2, 8>`, `min_value<2>`, `max_value<8>`
and `max_value<8u>`. -/
example :
    both foo (ranged 5 ⟨some 2, some 8, false⟩) false withArg (page (head ++
      ["    --flag1,-a      Flag1 description", "    --flag2", "    -b              b description",
       "    --arg1=<2-8>", "    --help,-h       Help output"])) ∧
    both foo (ranged 5 ⟨some 2, Option.none, false⟩) false withArg (page (head ++
      ["    --flag1,-a      Flag1 description", "    --flag2", "    -b              b description",
       "    --arg1=<2-N>", "    --help,-h       Help output"])) ∧
    both foo (ranged 5 ⟨Option.none, some 8, false⟩) false withArg (page (head ++
      ["    --flag1,-a       Flag1 description", "    --flag2", "    -b               b description",
       "    --arg1=<-N-8>", "    --help,-h        Help output"])) ∧
    both foo (ranged 5 ⟨Option.none, some 8, true⟩) false withArg (page (head ++
      ["    --flag1,-a      Flag1 description", "    --flag2", "    -b              b description",
       "    --arg1=<0-8>", "    --help,-h       Help output"])) := by decide +kernel

/-- default_help_formatter_test.cpp:256-279: no separator. -/
example : both foo info false (root [flag1, flag2, flagB, arg int [long "arg1"], helpNode])
    (page (head ++ ["    --flag1,-a        Flag1 description", "    --flag2",
      "    -b                b description", "    --arg1 <Value>",
      "    --help,-h         Help output"])) := by decide +kernel

/-- default_help_formatter_test.cpp:280-329: an anonymous mode. -/
example :
    both foo info false (root [helpNode, mode [] [flag1, flag2,
        arg int [long "arg1", equals, desc "Arg1 description"], flagB]])
      (page (head ++ ["    --help,-h             Help output", "     ",
        "        --flag1,-a        Flag1 description", "        --flag2",
        "        --arg1=<Value>    Arg1 description", "        -b                b description"])) ∧
    both fooFlat info true (root [helpNode, mode [] [flag1, flag2, flagB]])
      (page (head ++ ["    --help,-h         Help output", "     ",
        "        --flag1,-a    Flag1 description", "        --flag2",
        "        -b            b description"])) := by decide +kernel

/-- default_help_formatter_test.cpp:330-394: modes, and flattened. -/
example :
    both foo info false modes (page (head ++ ["    --help,-h    Help output",
      "    mode1        Mode1 description", "    mode2"])) ∧
    both fooFlat info true modes (page (head ++ ["    --help,-h         Help output",
      "    mode1             Mode1 description", "        --flag1,-a    Flag1 description",
      "        --flag2", "        -b            b description", "    mode2",
      "        --flag3,-c    Flag3 description"])) := by decide +kernel

/-- default_help_formatter_test.cpp:395-458: a text missing. -/
example :
    both (format (some "foo") Option.none (some "My foo is good for you") Option.none false) info
      false (root [flag1, helpNode]) (page ["foo", "", "My foo is good for you", "",
        "    --flag1,-a    Flag1 description", "    --help,-h     Help output"]) ∧
    both (format Option.none (some "v3.14") (some "My foo is good for you") Option.none false) info
      false (root [flag1, helpNode]) (page ["My foo is good for you", "",
        "    --flag1,-a    Flag1 description", "    --help,-h     Help output"]) ∧
    both (format (some "foo") (some "v3.14") Option.none Option.none false) info
      false (root [flag1, helpNode]) (page ["foo v3.14", "",
        "    --flag1,-a    Flag1 description", "    --help,-h     Help output"]) ∧
    both (format Option.none Option.none Option.none Option.none false) info
      false (root [flag1, helpNode]) (page [
        "    --flag1,-a    Flag1 description", "    --help,-h     Help output"]) := by decide +kernel

/-- default_help_formatter_test.cpp:461-545: narrow terminals. -/
example :
    Text.of (generateHelpStatic formatRowStatic foo info 32 false withArg) = page (head ++
      ["    --flag1,-a        Flag1 ", "                      descriptio",
       "                      n", "    --flag2", "    -b                b ",
       "                      descriptio", "                      n", "    --arg1=<Value>",
       "    --help,-h         Help ", "                      output"]) ∧
    Text.of (generateHelpStatic formatRowStatic foo info 40 false
      (root [flag [long "flag1", short "a", desc "aaa aaaaaaa aaa aaaaaaa aaaaaaaaaaa"], flag2,
        help [long "help", short "h", desc "bbbbbbbbbbbbbbbbbbbbbbbb"]])) = page (head ++
      ["    --flag1,-a    aaa aaaaaaa aaa ", "                  aaaaaaa aaaaaaaaaaa",
       "    --flag2", "    --help,-h     bbbbbbbbbbbbbbbbbbbbbb", "                  bb"]) := by
  decide +kernel

/-- default_help_formatter_test.cpp:661-694: a tab in a description. -/
example :
    compiled (root [flag [long "flag1", desc "Flag1\tdescription", .router], help [long "help"]]) =
      false ∧
    compiled (root [flag [long "flag1", desc "Flag1 description", .router], help [long "help"]]) =
      true := by decide +kernel

/-! ## colour_help_formatter_test.cpp -/

/-- colour_help_formatter_test.cpp:59-136. -/
def colourPage : Text := .text (b "foo v3.14\n\nMy foo is good for you\n\n" ++
  b "\x1b[31m    --flag1,-a\x1b[32m        Flag1 description\n\x1b[0m" ++
  b "\x1b[31m    --flag2\n\x1b[0m" ++
  b "\x1b[31m    -b\x1b[32m                b description\n\x1b[0m" ++
  b "\x1b[31m    --arg1=<Value>\n\x1b[0m" ++
  b "\x1b[31m    --help,-h\x1b[32m         Help output\n\x1b[0m")

example : Text.of (generateHelpStatic formatRowColourStatic foo info 80 false withArg) = colourPage ∧
    Text.of (generateHelp formatRowColour foo info 80 false withArg) = colourPage := by
  decide +kernel

/-! ## top_level_test.cpp -/

/-- `root.help()`. -/
def rootText (f : HelpFormat) (tree : Node) : Text :=
  .of (rootHelp (fun _ => ⟨formatRow, f⟩) info 80 tree)

/-- top_level_test.cpp:342-352 and 483-510: no help node. -/
example : rootText foo (root [flag [long "flag1", short "a", desc "Flag1 description", .router],
    flag [long "flag2", .router], flag [short "b", desc "b description", .router]]) = page [] ∧
  rootText foo (root [flag [long "flag1", short "a", desc "Flag1 description", .router],
    flag [long "flag2", .router],
    flag [short "b", desc "b description", .runtimeEnable false, .router]]) = page [] := by
  decide +kernel

/-- top_level_test.cpp:353-382 and 511-541. -/
def topFlags (enabled : Bool) : Node :=
  root [flag [long "flag1", short "a", desc "Flag1 description", .router],
    flag [long "flag2", .router],
    flag [short "b", desc "b description", .runtimeEnable enabled, .router],
    arg int [long "arg1", equals, .router], helpNode]

example : rootText foo (topFlags true) = page (head ++ withArgRows) ∧
    rootText foo (topFlags false) = page (head ++ ["    --flag1,-a        Flag1 description",
      "    --flag2", "    --arg1=<Value>", "    --help,-h         Help output"]) := by decide +kernel

/-- The anonymous mode of top_level_test.cpp:389-398. -/
def anonymous (flag2On : Bool) : Node :=
  mode [.router] [flag1, flag [long "flag2", .runtimeEnable flag2On],
    arg int [long "arg1", desc "Arg1 description"], flagB]
/-- The mode of top_level_test.cpp:416-422. -/
def testMode (on argOn : Bool) : Node :=
  mode [none "test", desc "Test mode", .runtimeEnable on, .router] [flag [long "flag1"],
    arg int [long "arg1", desc "Arg1 description", .runtimeEnable argOn]]

/-- top_level_test.cpp:383-478. -/
example :
    rootText foo (root [helpNode, anonymous true]) = page (head ++
      ["    --help,-h             Help output", "     ",
       "        --flag1,-a        Flag1 description", "        --flag2",
       "        --arg1 <Value>    Arg1 description", "        -b                b description"]) ∧
    rootText foo (root [helpNode, testMode true true, anonymous true]) = page (head ++
      ["    --help,-h             Help output", "    test                  Test mode", "     ",
       "        --flag1,-a        Flag1 description", "        --flag2",
       "        --arg1 <Value>    Arg1 description", "        -b                b description"]) ∧
    rootText fooFlat (root [helpNode, testMode true true, anonymous true]) = page (head ++
      ["    --help,-h             Help output", "    test                  Test mode",
       "        --flag1", "        --arg1 <Value>    Arg1 description", "     ",
       "        --flag1,-a        Flag1 description", "        --flag2",
       "        --arg1 <Value>    Arg1 description", "        -b                b description"]) := by
  decide +kernel

/-- top_level_test.cpp:542-641: nodes that are switched off. -/
example :
    rootText foo (root [helpNode, anonymous false]) = page (head ++
      ["    --help,-h             Help output", "     ",
       "        --flag1,-a        Flag1 description",
       "        --arg1 <Value>    Arg1 description", "        -b                b description"]) ∧
    rootText foo (root [helpNode, testMode false true, anonymous true]) = page (head ++
      ["    --help,-h             Help output", "     ",
       "        --flag1,-a        Flag1 description", "        --flag2",
       "        --arg1 <Value>    Arg1 description", "        -b                b description"]) ∧
    rootText fooFlat (root [helpNode, testMode true false, anonymous true]) = page (head ++
      ["    --help,-h             Help output", "    test                  Test mode",
       "        --flag1", "     ",
       "        --flag1,-a        Flag1 description", "        --flag2",
       "        --arg1 <Value>    Arg1 description", "        -b                b description"]) := by
  decide +kernel

end ArgRouter.Tests.Help
