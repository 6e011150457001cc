import Verif.Tests.Phases
import Verif.Util.ListExpand

/-!
# Tests of modes and of root

/repo/test/mode_test.cpp, root_test.cpp and the error names of dependency/one_of_test.cpp and
alias_group_test.cpp. Not repeated: mode_test.cpp:60-65 and 935-942 on C++ types, 955-1081 on help, and
1476-1499 on `pre_parse_data` with a target.
-/

namespace ArgRouter.Tests.Mode

open Phases (bare lt st nt)

/-- What the pre-parsing of a mode found: its target, with the sub-targets, and what it left. -/
inductive Pre where
  | found (node : Nat) (subs : List (Nat × List Token)) (left : List Token)
  | nothing
  | threw (e : Exc)
  | other
  deriving DecidableEq, Repr

/-- `m.pre_parse(pre_parse_data{args})`. -/
def pre (m : Node) (args : List Token) : Pre :=
  match (preParseMode .default [] args alwaysTrue m .fresh).1 with
  | .ok (some (t, left)) => .found t.node.uid (t.subs.map fun s => (s.node.uid, s.tokens)) left
  | .ok Option.none => .nothing
  | .throw e => .threw e
  | _ => .other

/-- What a test sees of parsing with a mode. -/
inductive Ran where
  | called (values : List Value)
  | threw (e : Exc)
  | other
  deriving DecidableEq, Repr

/-- `m.pre_parse(pre_parse_data{args})` and the call of its target. -/
def ran (m : Node) (args : List Token) : Ran :=
  match preParseMode .default [] args alwaysTrue m .fresh with
  | (.ok (some (t, _)), s) =>
    match runTarget t s with
    | (.ok _, ⟨_, [c]⟩) => .called c.args
    | (.throw e, ⟨_, []⟩) => .threw e
    | _ => .other
  | (.throw e, _) => .threw e
  | _ => .other

/-- `target()` for a target of the mode with these sub-targets: children and their tokens. -/
def handed (m : Node) (subs : List (Nat × List Token)) : Ran :=
  match parseMode m (subs.filterMap fun (i, tokens) => m.children[i]?.map (⟨·, tokens⟩)) .fresh with
  | (.ok _, ⟨_, [c]⟩) => .called c.args
  | (.throw e, ⟨_, []⟩) => .threw e
  | _ => .other

/-- A mode on its own; the mode is node 1. -/
def alone (user : List Policy) (children : List Node) : Node := (number 1 (mode user children)).1

/-- mode_test.cpp:67-75. -/
example :
    (alone [none "mode"] [flag [long "hello"]]).isAnonymous = false ∧
    (alone [] [flag [long "hello"]]).isAnonymous = true := by decide +kernel

/-- mode_test.cpp:79-82. -/
def single : Node := alone [.router] [flag [long "hello", short "l", desc "Hello arg"]]

/-- mode_test.cpp:111-159, 162-180. -/
example :
    pre single (bare "--hello") = .found 1 [(2, [])] [] ∧
    pre single (bare "--hello --goodbye") =
      .threw ⟨.unhandled_arguments, [nt "--goodbye"]⟩ ∧
    pre single (bare "-l") = .found 1 [(2, [])] [] ∧
    pre single (bare "--goodbye") =
      .threw ⟨.unknown_argument_with_suggestion, [nt "--goodbye", lt "hello"]⟩ ∧
    pre single (bare "-h") = .threw ⟨.unknown_argument_with_suggestion, [nt "-h", st "l"]⟩ ∧
    pre single (bare "--hello --hello") =
      .threw ⟨.argument_has_already_been_set, [nt "--hello"]⟩ ∧
    handed single [(0, [lt "hello"])] = .called [yes] ∧
    handed single [(0, [st "l"])] = .called [yes] := by decide +kernel

/-- mode_test.cpp:182-206. -/
def positionalOne : Node :=
  alone [.router] [positional int [display "hello", desc "Hello arg", .minMaxCount 1 1]]

example :
    handed positionalOne [(0, [nt "42"])] = .called [num 42] ∧
    handed positionalOne [(0, [nt "hello"])] = .threw ⟨.failed_to_parse, [nt "hello"]⟩ := by decide +kernel

/-- mode_test.cpp:208-218. -/
def triple : Node := alone [.router]
  [flag [long "hello", short "l", desc "Hello arg"],
   arg int [long "フー", desc "フー arg", .defaultValue (num 42)],
   countingFlag 64 [short "b", desc "b arg"]]

/-- mode_test.cpp:244-311. -/
example :
    pre triple (bare "--hello") = .found 1 [(2, [])] [] ∧
    pre triple (bare "-l") = .found 1 [(2, [])] [] ∧
    pre triple (bare "--フー 42") = .found 1 [(3, [nt "42"])] [] ∧
    pre triple (bare "-b") = .found 1 [(4, [])] [] ∧
    pre triple (bare "-b -b -b") = .found 1 [(4, []), (4, []), (4, [])] [] ∧
    pre triple (bare "-f") = .threw ⟨.unknown_argument_with_suggestion, [nt "-f", st "l"]⟩ ∧
    pre triple (bare "-l --hello") = .threw ⟨.argument_has_already_been_set, [nt "--hello"]⟩ ∧
    pre triple (bare "-b --フー 42 -b -l -b") =
      .found 1 [(4, []), (3, [nt "42"]), (4, []), (2, []), (4, [])] [] := by decide +kernel

/-- mode_test.cpp:317-326, 424-432, 534-544, with or without a name. -/
def tripleArg (name : List Policy) (argName : String) : Node := alone (name ++ [.router])
  [flag [long "hello", short "l", desc "Hello arg"],
   arg int [long argName, desc "Foo arg", .defaultValue (num 42)],
   flag [short "b", desc "b arg"]]

/-- mode_test.cpp:347-376. -/
example :
    let m := tripleArg [] "foo"
    ran m [] = .called [no, num 42, no] ∧
    ran m [lt "hello"] = .called [yes, num 42, no] ∧
    ran m [st "l"] = .called [yes, num 42, no] ∧
    ran m [lt "foo", nt "13"] = .called [no, num 13, no] ∧
    ran m [st "b"] = .called [no, num 42, yes] ∧
    ran m [lt "hello", st "b"] = .called [yes, num 42, yes] ∧
    ran m [st "l", st "b", lt "foo", nt "48"] = .called [yes, num 48, yes] := by decide +kernel

/-- mode_test.cpp:382-419. -/
example :
    let m := alone [none "my-mode", .router] [flag [long "hello", short "l", desc "Hello arg"]]
    ran m [nt "my-mode"] = .called [no] ∧
    ran m [nt "my-mode", lt "hello"] = .called [yes] ∧
    ran m [nt "my-mode", st "l"] = .called [yes] := by decide +kernel

/-- mode_test.cpp:461-528. -/
example :
    let m := tripleArg [none "my-mode"] "foo"
    pre m (bare "my-mode --hello") = .found 1 [(2, [])] [] ∧
    pre m (bare "my-mode -l") = .found 1 [(2, [])] [] ∧
    pre m (bare "my-mode --foo 42") = .found 1 [(3, [nt "42"])] [] ∧
    pre m (bare "my-mode -b") = .found 1 [(4, [])] [] ∧
    pre m (bare "my-mode -f") =
      .threw ⟨.unknown_argument_with_suggestion, [nt "-f", st "l"]⟩ ∧
    pre m (bare "my-mode -l --hello") =
      .threw ⟨.argument_has_already_been_set, [nt "--hello"]⟩ ∧
    pre m (bare "my-mode --foo 42 -l -b") = .found 1 [(3, [nt "42"]), (2, []), (4, [])] [] ∧
    pre m (bare "-b") = .nothing := by decide +kernel

/-- mode_test.cpp:565-600. -/
example :
    let m := tripleArg [none "my-mode"] "フー"
    ran m [nt "my-mode"] = .called [no, num 42, no] ∧
    ran m [nt "my-mode", lt "hello"] = .called [yes, num 42, no] ∧
    ran m [nt "my-mode", st "l"] = .called [yes, num 42, no] ∧
    ran m [nt "my-mode", lt "フー", nt "13"] = .called [no, num 13, no] ∧
    ran m [nt "my-mode", st "b"] = .called [no, num 42, yes] ∧
    ran m [nt "my-mode", lt "hello", st "b"] = .called [yes, num 42, yes] ∧
    ran m [nt "my-mode", st "l", st "b", lt "フー", nt "48"] =
      .called [yes, num 48, yes] := by decide +kernel

/-- mode_test.cpp:605-612, 664-673: the nodes of the lists in their place. -/
def tripleFlag (name : List Policy) : Node := alone (name ++ [.router])
  [flag [long "hello", short "l", desc "Hello arg"], flag [long "foo", desc "Foo arg"],
   flag [short "b", desc "b arg"]]

/-- mode_test.cpp:638-659, 702-734. -/
example :
    let m := tripleFlag []
    let n := tripleFlag [none "my-mode"]
    pre m (bare "--hello") = .found 1 [(2, [])] [] ∧
    pre m (bare "-l") = .found 1 [(2, [])] [] ∧
    pre m (bare "--goodbye") =
      .threw ⟨.unknown_argument_with_suggestion, [nt "--goodbye", lt "foo"]⟩ ∧
    pre n (bare "my-mode --hello") = .found 1 [(2, [])] [] ∧
    pre n (bare "my-mode -l") = .found 1 [(2, [])] [] ∧
    pre n (bare "my-mode --goodbye") =
      .threw ⟨.unknown_argument_with_suggestion, [nt "--goodbye", lt "foo"]⟩ ∧
    pre n (bare "wrong-mode --hello") = .nothing := by decide +kernel

/-- mode_test.cpp:739-748. -/
def nested : Node := alone [none "mode1"] [mode [none "mode2"] [mode [none "mode3", .router]
  [flag [long "hello", short "l", desc "Hello arg"],
   arg int [long "フー", desc "Foo arg", .defaultValue (num 42)]]]]

/-- mode_test.cpp:782-853. -/
example :
    pre nested (bare "mode1") = .found 1 [] [] ∧
    pre nested (bare "mode2") = .nothing ∧
    pre nested (bare "mode1 mode2") = .found 2 [] [] ∧
    pre nested (bare "mode1 mode9") =
      .threw ⟨.unknown_argument_with_suggestion, [nt "mode9", nt "mode2"]⟩ ∧
    pre nested (bare "mode1 mode2 mode3 --hello") = .found 3 [(4, [])] [] ∧
    pre nested (bare "mode1 mode2 mode3 -l") = .found 3 [(4, [])] [] ∧
    pre nested (bare "mode1 mode2 mode3 -l --hello") =
      .threw ⟨.argument_has_already_been_set, [nt "--hello"]⟩ ∧
    pre nested (bare "mode1 mode2 mode3 --フー 42") = .found 3 [(5, [nt "42"])] [] := by
  decide +kernel

/-- mode_test.cpp:893-921. -/
example :
    ran nested (bare "mode1") = .threw ⟨.mode_requires_arguments, [nt "mode1"]⟩ ∧
    ran nested (bare "mode1 mode2") = .threw ⟨.mode_requires_arguments, [nt "mode2"]⟩ ∧
    ran nested (bare "mode1 mode2 mode3") = .called [no, num 42] ∧
    ran nested [nt "mode1", nt "mode2", nt "mode3", lt "hello"] = .called [yes, num 42] ∧
    ran nested [nt "mode1", nt "mode2", nt "mode3", lt "hello", lt "フー", nt "13"] =
      .called [yes, num 13] := by decide +kernel

/-- mode_test.cpp:926-933, 944-952. -/
example :
    handed (alone [.router] [arg int [long "hello"]]) [] = .called [num 0] ∧
    handed (alone [.router] [positional (listOf int) [display "hello"]]) [] = .called [nums []] := by
  decide +kernel

/-- mode_test.cpp:1083-1100. -/
example :
    ran (alone [.router] [aliasGroup int [.required]
      [arg int [long "arg"], countingFlag 32 [short "a"]]]) [lt "arg", nt "5", st "a"] =
      .called [num 6] := by decide +kernel

/-- mode_test.cpp:1105-1109. -/
def validated : Node := alone [.router] [aliasGroup int
  [.minMaxValue (some (num 1)) (some (num 3)) Phases.smaller, .required]
  [arg int [long "arg"], countingFlag 32 [short "a"]]]

/-- mode_test.cpp:1128-1178. -/
example :
    let few : Ran := .threw ⟨.minimum_value_not_reached, [nt "Alias Group: --arg,-a"]⟩
    let many : Ran := .threw ⟨.maximum_value_exceeded, [nt "Alias Group: --arg,-a"]⟩
    ran validated [lt "arg", nt "1"] = .called [num 1] ∧
    ran validated [lt "arg", nt "3"] = .called [num 3] ∧
    ran validated [lt "arg", nt "0"] = few ∧
    ran validated [lt "arg", nt "5"] = many ∧
    ran validated [st "a"] = .called [num 1] ∧
    ran validated [st "a", st "a"] = .called [num 2] ∧
    ran validated [] = .threw ⟨.missing_required_argument, [nt "Alias Group: --arg,-a"]⟩ ∧
    ran validated [st "a", st "a", st "a", st "a"] = many ∧
    ran validated [lt "arg", nt "2", st "a", st "a"] = many := by decide +kernel

/-! ## The assertions on modes

The model has one predicate for all assertions of a class. So each tree of the death test, which fails, is
beside a tree without the fault the message names, which passes. -/

/-- The assertions of the mode class on a mode with no parents. -/
def asserts (user : List Policy) (children : List Node) : Bool :=
  classAsserts (alone user children) []

/-- The flag of most of the trees. -/
def hello : Node := flag [long "hello"]

/-- mode_test.cpp:1184-1268: no children; an anonymous mode without a router; a long, a short and a
display name. -/
example :
    asserts [] [] = false ∧
    asserts [] [hello] = false ∧
    asserts [long "my-mode"] [hello] = false ∧
    asserts [short "l"] [hello] = false ∧
    asserts [display "mode"] [hello] = false ∧
    asserts [.router] [] = false ∧
    asserts [long "my-mode", .router] [hello] = false ∧
    asserts [short "l", .router] [hello] = false ∧
    asserts [display "mode", .router] [hello] = false ∧
    asserts [.router] [hello] = true := by decide +kernel

/-- mode_test.cpp:1310-1313: an anonymous mode in a mode in another node; under one parent it passes. -/
example :
    let inner := alone [.router] [hello]
    let outer := mode [none "mode"] [inner]
    classAsserts inner [outer, root [outer]] = false ∧
    classAsserts inner [root [inner]] = true := by decide +kernel

/-- mode_test.cpp:1334-1337: an anonymous mode with a mode in it; also with routers, then with a name. -/
example :
    let children := [flag [long "flag"], mode [none "mode", .router] [hello]]
    asserts [] [flag [long "flag"], mode [none "mode"] [hello]] = false ∧
    asserts [.router] children = false ∧
    asserts [none "outer", .router] children = true := by decide +kernel

/-- mode_test.cpp:1384-1388: no router, and a child that is not a mode. -/
example :
    let children := [flag [long "f1"], mode [.router] [flag [long "f2"]]]
    asserts [none "mode"] children = false ∧
    asserts [none "mode", .router] children = true ∧
    asserts [none "mode"] children.tail = true := by decide +kernel

/-- mode_test.cpp:1411-1413: a child with a router. -/
example :
    asserts [.router] [flag [long "hello", .router]] = false ∧
    asserts [.router] [hello] = true := by decide +kernel

/-- mode_test.cpp:1430-1475: a parse, a validation and a missing phase, also with a router. -/
example :
    let parser : Policy := .customParser fun _ => .ok (.bool false)
    let range : Policy := .minMaxValue (some (num 1)) (some (num 3)) Phases.smaller
    asserts [parser] [hello] = false ∧ asserts [parser, .router] [hello] = false ∧
    asserts [range] [hello] = false ∧ asserts [range, .router] [hello] = false ∧
    asserts [.required] [hello] = false ∧ asserts [.required, .router] [hello] = false := by
  decide +kernel

/-- mode_test.cpp:1511-1513: a name and an error name, also with a router. -/
example :
    let error : Policy := .errorName (b "error!")
    asserts [none "my-mode", error] [hello] = false ∧
    asserts [none "my-mode", error, .router] [hello] = false ∧
    asserts [none "my-mode", .router] [hello] = true := by decide +kernel

/-! ## root_test.cpp -/

/-- root_test.cpp:35-49. -/
def aliasFlags : Node := root [mode [.router]
  [flag [long "flag1", desc "First description"], flag [long "flag2", desc "Second description"],
   flag [long "flag3", desc "Third description"],
   flag [short "a", .alias [.long (b "flag1"), .long (b "flag3")], desc "Alias description"]]]

/-- root_test.cpp:68-79. -/
example :
    accepted aliasFlags = true ∧
    run aliasFlags "--flag1" = .called 2 [yes, no, no] ∧
    run aliasFlags "--flag2" = .called 2 [no, yes, no] ∧
    run aliasFlags "--flag3" = .called 2 [no, no, yes] ∧
    run aliasFlags "-a" = .called 2 [yes, no, yes] ∧
    run aliasFlags "-a --flag2" = .called 2 [yes, yes, yes] ∧
    run aliasFlags "-a --flag1" = error "Argument has already been set: --flag1" := by
  decide +kernel

/-- root_test.cpp:86-104. -/
def aliasArgs : Node := root [mode [.router]
  [arg boolValue [long "arg1", .required, desc "First description"],
   arg int [long "arg2", .defaultValue (num 42), desc "Second description"],
   arg int [long "arg3", .valueSeparator (b "="), .defaultValue (num 84), desc "Third description"],
   arg int [short "a", .alias [.long (b "arg2"), .long (b "arg3")], desc "Alias description"]]]

/-- root_test.cpp:123-142. -/
example :
    accepted aliasArgs = true ∧
    run aliasArgs "--arg1 true" = .called 2 [yes, num 42, num 84] ∧
    run aliasArgs "--arg1 false -a 9" = .called 2 [no, num 9, num 9] ∧
    run aliasArgs "--arg1 false --arg3=9" = .called 2 [no, num 42, num 9] ∧
    run aliasArgs "--arg2 13 -a 9" = error "Argument has already been set: --arg2" ∧
    run aliasArgs "--arg3=13 -a 9" = error "Argument has already been set: --arg3" ∧
    run aliasArgs "-a 9" = error "Missing required argument: --arg1" := by decide +kernel

/-- root_test.cpp:155-214. -/
def nestedModes : Node := root
  [flag [long "top-flag", desc "Description", .router],
   arg int [long "top-arg", desc "Description", .router],
   mode [none "mode1", .router]
     [flag [long "flag1", desc "Description"],
      arg double [long "arg1", desc "Description", .defaultValue (txt "3.14")],
      flag [long "flag2", short "t", desc "Description"],
      mode [none "mode2", .router]
        [arg int [long "arg1", desc "Description", .required],
         flag [long "flag1", short "b", desc "Description"],
         positional (listOf text) [display "pos_args", desc "Description"]],
      mode [none "mode3", .router]
        [flag [long "flag1", desc "Description"],
         flag [long "flag2", short "b", desc "Description"]]],
   mode [.router]
     [flag [long "flag1", desc "Description"],
      arg double [long "arg1", .defaultValue (txt "4.2"), desc "Description"]]]

/-- root_test.cpp:244-277. -/
example :
    accepted nestedModes = true ∧
    run nestedModes "--top-flag" = .called 2 [yes] ∧
    run nestedModes "--top-arg -42" = .called 3 [num (-42)] ∧
    run nestedModes "" = .called 15 [no, txt "4.2"] ∧
    run nestedModes "--arg1 13" = .called 15 [no, txt "13"] ∧
    run nestedModes "mode1 -t" = .called 4 [no, txt "3.14", yes] ∧
    run nestedModes "mode1 --arg1 5.6 --flag1" = .called 4 [yes, txt "5.6", no] ∧
    run nestedModes "mode1 mode2 --arg1 89" = .called 8 [num 89, no, .many []] ∧
    run nestedModes "mode1 mode2 -b --arg1 4" = .called 8 [num 4, yes, .many []] ∧
    run nestedModes "mode1 mode3 -b" = .called 12 [no, yes] ∧
    run nestedModes "mode1 mode2 --arg1 8 hello goodbye" =
      .called 8 [num 8, no, txts "hello goodbye"] ∧
    run nestedModes "--foo2" = error "Unknown argument: --foo2. Did you mean --flag1?" ∧
    run nestedModes "mode1 --foo2" = error "Unknown argument: --foo2. Did you mean --flag2?" := by
  decide +kernel

/-- root_test.cpp:285-294, 326-335. -/
def oneOfRoot (policy : Policy) : Node := root [mode [.router]
  [arg int [long "arg1", .defaultValue (num 42)],
   oneOf boolType [policy] [flag [short "f"], arg int [long "arg2"], arg text [long "arg3"]]]]

/-- root_test.cpp:309-318, 350-356. -/
example :
    let r := oneOfRoot .required
    let d := oneOfRoot (.defaultValue (txt "goodbye"))
    accepted r = true ∧ accepted d = true ∧
    run r "-f" = .called 2 [num 42, yes] ∧
    run r "--arg1 13 -f" = .called 2 [num 13, yes] ∧
    run r "--arg3 hello" = .called 2 [num 42, txt "hello"] ∧
    run r "" = error "Missing required argument: One of: -f,--arg2,--arg3" ∧
    run d "-f" = .called 2 [num 42, yes] ∧
    run d "--arg1 13 -f" = .called 2 [num 13, yes] ∧
    run d "--arg3 hello" = .called 2 [num 42, txt "hello"] ∧
    run d "" = .called 2 [num 42, txt "goodbye"] := by decide +kernel

/-- root_test.cpp:365-386. -/
def counting : Node := root
  [mode [none "mode1", .router]
     [arg double [long "arg1", .defaultValue (txt "3.14")], flag [short "a"], flag [short "b"],
      countingFlag 64 [short "c"]],
   mode [none "mode2", .router]
     [countingFlag 64 [short "a", .alias [.short (b "b")]],
      countingFlag 64
        [short "b", .minMaxValue (some (num 2)) (some (num 5)) Phases.smaller]],
   mode [none "mode3", .router]
     [flag [short "a"], countingFlag 64 [short "b", .dependent [.short (b "a")]]]]

/-- root_test.cpp:404-442. -/
example :
    let missing := error
      "Dependent argument missing (needs to be before the requiring token on the command line): -a"
    accepted counting = true ∧
    run counting "mode1" = .called 2 [txt "3.14", no, no, num 0] ∧
    run counting "mode1 -c" = .called 2 [txt "3.14", no, no, num 1] ∧
    run counting "mode1 -c -a -c -b -c -c" = .called 2 [txt "3.14", yes, yes, num 4] ∧
    run counting "mode1 -ccc" = .called 2 [txt "3.14", no, no, num 3] ∧
    run counting "mode1 -cacbcc" = .called 2 [txt "3.14", yes, yes, num 4] ∧
    run counting "mode1 -c --arg1 9.2 -bcc" = .called 2 [txt "9.2", no, yes, num 3] ∧
    run counting "mode2 -aba" = .called 7 [num 3] ∧
    run counting "mode2 -b" = error "Minimum value not reached: -b" ∧
    run counting "mode2 -abababab" = error "Maximum value exceeded: -b" ∧
    run counting "mode3 -bbab" = missing ∧
    run counting "mode3 -abbb" = .called 10 [yes, num 3] ∧
    run counting "mode3 -a" = .called 10 [yes, num 0] ∧
    run counting "mode3 -bbb" = missing := by decide +kernel

/-- root_test.cpp:449-459. -/
def overloads : Node := root [mode [.router]
  [flag [long "flag1", desc "First description"], flag [long "flag2", desc "Second description"],
   flag [short "t", desc "Third description"]]]

/-- root_test.cpp:516-552; the overloads differ in the types of their arguments only. -/
example :
    accepted overloads = true ∧
    run overloads "--flag1" = .called 2 [yes, no, no] ∧
    run overloads "--flag2" = .called 2 [no, yes, no] ∧
    run overloads "-t" = .called 2 [no, no, yes] ∧
    run overloads "--flag1 -t" = .called 2 [yes, no, yes] ∧
    run overloads "-t --flag1" = .called 2 [yes, no, yes] ∧
    run overloads "--flag1 --flag2 -t" = .called 2 [yes, yes, yes] ∧
    run overloads "--flag2 -t --flag1" = .called 2 [yes, yes, yes] ∧
    run overloads "--foo --flag2" = error "Unknown argument: --foo. Did you mean -t?" ∧
    run overloads "--flag2 --foo" = error "Unknown argument: --foo. Did you mean -t?" ∧
    run overloads "--flag1 --flag2 -t --foo" = error "Unhandled arguments: --foo" ∧
    run overloads "--flag2 -t --flag1 --foo" = error "Unhandled arguments: --foo" ∧
    run overloads "--flag1 --flag1" = error "Argument has already been set: --flag1" ∧
    run overloads "-t -t" = error "Argument has already been set: -t" ∧
    run overloads "--flag2 -t --flag1 --flag2" = error "Argument has already been set: --flag2" ∧
    run overloads "" = .called 2 [no, no, no] := by decide +kernel

/-- root_test.cpp:561-573. -/
def enabled (enableFlag enableArg : Bool) : Node := root [mode [.router]
  [flag [long "flag1", desc "First description", .runtimeEnable enableFlag],
   flag [long "flag2", desc "Second description"],
   arg int [long "arg", desc "Arg description", .runtimeEnableRequired enableArg (num 42)]]]

/-- root_test.cpp:587-617; the test does not look at the third value. -/
example :
    accepted (enabled true true) = true ∧
    run (enabled true true) "--flag1" = error "Missing required argument: --arg" ∧
    run (enabled true true) "--flag1 --arg 32" = .called 2 [yes, no, num 32] ∧
    run (enabled true true) "--flag2 --arg 32" = .called 2 [no, yes, num 32] ∧
    run (enabled true true) "--arg 32" = .called 2 [no, no, num 32] ∧
    run (enabled false true) "--flag1" =
      error "Unknown argument: --flag1. Did you mean --flag2?" ∧
    run (enabled true false) "--arg 32" =
      error "Unknown argument: --arg. Did you mean --flag1?" ∧
    run (enabled false false) "--flag2" = .called 2 [no, yes, num 42] := by decide +kernel

/-- root_test.cpp:633-655. -/
def enabledModes (enable1 enable2 : Bool) : Node := root
  [mode [none "mode1", .runtimeEnable enable1, .router]
     [flag [long "flag1", desc "First description"], flag [long "flag2", desc "Second description"],
      flag [short "t", desc "Third description"]],
   mode [none "mode2", .runtimeEnable enable2, .router]
     [flag [long "flag1", desc "Other third description"],
      flag [short "b", desc "Fourth description"]]]

/-- root_test.cpp:680-730. -/
example :
    accepted (enabledModes true true) = true ∧
    run (enabledModes true true) "mode1 --flag1" = .called 2 [yes, no, no] ∧
    run (enabledModes true true) "mode2 --flag1" = .called 6 [yes, no] ∧
    run (enabledModes true true) "mode1 mode2 --flag1" =
      error "Unknown argument: mode2. Did you mean --flag2?" ∧
    run (enabledModes true true) "mode2 -b" = .called 6 [no, yes] ∧
    run (enabledModes true false) "mode1 --flag1" = .called 2 [yes, no, no] ∧
    run (enabledModes false true) "mode1 --flag1" =
      error "Unknown argument: mode1. Did you mean mode2?" ∧
    run (enabledModes true false) "mode2 --flag1" =
      error "Unknown argument: mode2. Did you mean mode1?" ∧
    run (enabledModes false false) "mode1 --flag1" = error "Unknown argument: mode1" := by
  decide +kernel

/-! ## The names of groups -/

/-- one_of_test.cpp:99-119 and alias_group_test.cpp:98-118: what errors call a group. -/
example :
    (oneOf boolType [.required] [arg int [long "arg1"], arg double [long "arg2",
       .alias [.long (b "arg1")]], flag [short "f"]]).tokenType = nt "One of: --arg1,--arg2,-f" ∧
    (oneOf boolType [.required] [arg int [long "arg1"], arg double [long "arg2"]]).tokenType =
      nt "One of: --arg1,--arg2" ∧
    (aliasGroup double [.required] [arg double [long "arg1"], arg double [long "arg2"]]).tokenType =
      nt "Alias Group: --arg1,--arg2" ∧
    (aliasGroup boolValue [.required]
      [arg boolValue [long "arg1"], arg boolValue [long "arg2", .alias [.long (b "arg1")]],
       flag [short "f"]]).tokenType = nt "Alias Group: --arg1,--arg2,-f" := by decide +kernel

end ArgRouter.Tests.Mode
