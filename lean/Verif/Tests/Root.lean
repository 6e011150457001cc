import Verif.Tests.Base

/-!
# Tests of whole programs

Files of /repo/test/root_tests. The name of the program in front of the arguments is left out.
-/

namespace ArgRouter.Tests.Root

/-! ## basic_test.cpp -/

/-- basic_test.cpp:18-29. -/
def singleFlag : Node := root [mode [.router] [flag [long "hello", desc "Hello description"]]]

example : accepted singleFlag = true ∧ run singleFlag "--hello" = .called 2 [yes] := by
  decide +kernel

/-- basic_test.cpp:31-47. -/
def singleArg : Node := root [mode [.router] [arg int [long "hello", .required, desc "Hello description"]]]

example : accepted singleArg = true ∧ run singleArg "--hello 42" = .called 2 [num 42] := by
  decide +kernel

/-- basic_test.cpp:49-66. -/
def requiredArg : Node := root [mode [.router] [flag [long "hello", desc "Hello description"],
  arg int [long "arg", .required, desc "Arg description"]]]

example : accepted requiredArg = true ∧
    run requiredArg "--hello" = error "Missing required argument: --arg" := by decide +kernel

/-- basic_test.cpp:68-107. -/
def argDefault : Node := root [mode [.router] [flag [long "hello", desc "Hello description"],
  arg int [long "arg1", .defaultValue (num 42), desc "Arg1 description"],
  arg int [long "arg2", .required, desc "Arg2 description"]]]

example : accepted argDefault = true ∧
    run argDefault "--arg2 84" = .called 2 [no, num 42, num 84] ∧
    run argDefault "--arg2 3 --arg1 19" = .called 2 [no, num 19, num 3] ∧
    run argDefault "--hello --arg2 14" = .called 2 [yes, num 42, num 14] := by decide +kernel

/-- basic_test.cpp:109-138. -/
def noTokens : Node := root [mode [.router] [flag [long "hello", desc "Hello description"],
  arg int [long "arg1", .defaultValue (num 42), desc "Arg1 description"],
  arg int [long "arg2", .defaultValue (num 84), desc "Arg2 description"]]]

example : accepted noTokens = true ∧ run noTokens "" = .called 2 [no, num 42, num 84] := by
  decide +kernel

/-- basic_test.cpp:140-163. -/
def noTokensTop : Node := root [flag [long "hello", desc "Hello description", .router],
  arg int [long "arg1", .defaultValue (num 42), desc "Arg1 description", .router],
  arg int [long "arg2", .defaultValue (num 84), desc "Arg2 description", .router]]

example : accepted noTokensTop = true ∧ run noTokensTop "" = error "No arguments passed" := by
  decide +kernel

/-- basic_test.cpp:165-186. -/
def twoRequired : Node := root [mode [.router] [flag [long "hello", desc "Hello description"],
  arg int [long "arg1", .required, desc "Arg1 description"],
  arg int [long "arg2", .required, desc "Arg2 description"]]]

example : accepted twoRequired = true ∧
    run twoRequired "--hello --arg2 42" = error "Missing required argument: --arg1" := by
  decide +kernel

/-- basic_test.cpp:183-196. -/
def tripleFlag : Node := root [mode [.router] [flag [long "flag1", desc "First description"],
  flag [long "flag2", desc "Second description"], flag [short "t", desc "Third description"]]]

/-- basic_test.cpp:216-250. -/
example : accepted tripleFlag = true ∧
    run tripleFlag "--flag1" = .called 2 [yes, no, no] ∧
    run tripleFlag "--flag2" = .called 2 [no, yes, no] ∧
    run tripleFlag "-t" = .called 2 [no, no, yes] ∧
    run tripleFlag "--flag1 -t" = .called 2 [yes, no, yes] ∧
    run tripleFlag "-t --flag1" = .called 2 [yes, no, yes] ∧
    run tripleFlag "--flag1 --flag2 -t" = .called 2 [yes, yes, yes] ∧
    run tripleFlag "--flag2 -t --flag1" = .called 2 [yes, yes, yes] ∧
    run tripleFlag "--foo --flag2" = error "Unknown argument: --foo. Did you mean -t?" ∧
    run tripleFlag "--flag2 --foo" = error "Unknown argument: --foo. Did you mean -t?" ∧
    run tripleFlag "--flag1 --flag2 -t --foo" = error "Unhandled arguments: --foo" ∧
    run tripleFlag "--flag2 -t --flag1 --foo" = error "Unhandled arguments: --foo" ∧
    run tripleFlag "--flag1 --flag1" = error "Argument has already been set: --flag1" ∧
    run tripleFlag "-t -t" = error "Argument has already been set: -t" ∧
    run tripleFlag "--flag2 -t --flag1 --flag2" = error "Argument has already been set: --flag2" := by
  decide +kernel

/-- basic_test.cpp:252-268. -/
def namedMode : Node := root [mode [none "my-mode", .router] [flag [long "flag1", desc "First description"],
  flag [long "flag2", desc "Second description"], flag [short "t", desc "Third description"]]]

/-- basic_test.cpp:288-338. -/
example : accepted namedMode = true ∧
    run namedMode "my-mode --flag1" = .called 2 [yes, no, no] ∧
    run namedMode "my-mode --flag2" = .called 2 [no, yes, no] ∧
    run namedMode "my-mode -t" = .called 2 [no, no, yes] ∧
    run namedMode "my-mode --flag1 -t" = .called 2 [yes, no, yes] ∧
    run namedMode "my-mode -t --flag1" = .called 2 [yes, no, yes] ∧
    run namedMode "my-mode --flag1 --flag2 -t" = .called 2 [yes, yes, yes] ∧
    run namedMode "my-mode --flag2 -t --flag1" = .called 2 [yes, yes, yes] ∧
    run namedMode "my-mode --foo --flag2" = error "Unknown argument: --foo. Did you mean -t?" ∧
    run namedMode "my-mode --flag2 --foo" = error "Unknown argument: --foo. Did you mean -t?" ∧
    run namedMode "my-mode --flag1 --flag2 -t --foo" = error "Unhandled arguments: --foo" ∧
    run namedMode "my-mode --flag2 -t --flag1 --foo" = error "Unhandled arguments: --foo" ∧
    run namedMode "my-mode --flag1 --flag1" = error "Argument has already been set: --flag1" ∧
    run namedMode "my-mode -t -t" = error "Argument has already been set: -t" ∧
    run namedMode "my-mode --flag2 -t --flag1 --flag2" =
      error "Argument has already been set: --flag2" ∧
    run namedMode "--flag1" = error "Unknown argument: --flag1. Did you mean my-mode --flag1?" ∧
    run namedMode "--foo" = error "Unknown argument: --foo. Did you mean my-mode -t?" := by
  decide +kernel

/-- basic_test.cpp:341-376. -/
def multiMode : Node := root [
  mode [none "mode1", .router] [flag [long "flag1", desc "First description"],
    flag [long "flag2", desc "Second description"], flag [short "t", desc "Third description"]],
  mode [none "mode2", .router] [flag [long "flag1", desc "Other third description"],
    flag [short "b", desc "Fourth description"]],
  mode [.router] [flag [long "flag3", desc "Other third description"],
    flag [short "c", desc "Fourth description"]]]

/-- basic_test.cpp:416-441. The modes are nodes 2, 6 and 9. -/
example : accepted multiMode = true ∧
    run multiMode "mode1 --flag1" = .called 2 [yes, no, no] ∧
    run multiMode "mode2 --flag1" = .called 6 [yes, no] ∧
    run multiMode "mode1 mode2 --flag1" = error "Unknown argument: mode2. Did you mean --flag2?" ∧
    run multiMode "mode2 -b" = .called 6 [no, yes] ∧
    run multiMode "--flag3" = .called 9 [yes, no] ∧
    run multiMode "-c" = .called 9 [no, yes] ∧
    run multiMode "-c --flag3" = .called 9 [yes, yes] ∧
    run multiMode "--flag1" = error "Unknown argument: --flag1. Did you mean --flag3?" ∧
    run multiMode "-b" = error "Unknown argument: -b. Did you mean -c?" := by decide +kernel

/-- basic_test.cpp:443-469, where `flag1` is in a `list` (C60). -/
def listMode : Node := root [
  mode [none "mode1", .router] [flag [long "flag1", desc "First description"],
    flag [long "flag2", desc "Second description"], flag [short "t", desc "Third description"]],
  mode [none "mode2", .router] [flag [long "flag1", desc "First description"],
    flag [short "b", desc "Fourth description"]]]

/-- basic_test.cpp:498-511. -/
example : accepted listMode = true ∧
    run listMode "mode1 --flag1" = .called 2 [yes, no, no] ∧
    run listMode "mode2 --flag1" = .called 6 [yes, no] ∧
    run listMode "mode1 mode2 --flag1" = error "Unknown argument: mode2. Did you mean --flag2?" ∧
    run listMode "mode2 -b" = .called 6 [no, yes] := by decide +kernel

/-! ## variable_length_test.cpp -/

/-- variable_length_test.cpp:24-34; `more` is empty or an end marker (36-46). -/
def multi (more : List Policy) : Node := root [mode [.router] [flag [short "f", desc "flag description"],
  multiArg (listOf int) ([long "arg", .minMaxCount 1 3] ++ more ++ [desc "description"])]]

/-- variable_length_test.cpp:63-88. -/
example : accepted (multi []) = true ∧ accepted (multi [.tokenEndMarker (b "--")]) = true ∧
    run (multi []) "--arg 84" = .called 2 [no, nums [84]] ∧
    run (multi []) "--arg 84 42" = .called 2 [no, nums [84, 42]] ∧
    run (multi []) "-f --arg 84 42" = .called 2 [yes, nums [84, 42]] ∧
    run (multi []) "--arg 84 42 12 4" = error "Unknown argument: 4. Did you mean -f?" ∧
    run (multi []) "--arg" = error "Minimum count not reached: --arg" ∧
    run (multi [.tokenEndMarker (b "--")]) "--arg 84 42 12 4" =
      error "Maximum count exceeded: --arg" := by decide +kernel

/-- variable_length_test.cpp:95-108. -/
def multiPos : Node := root [mode [.router] [flag [short "f", desc "flag description"],
  multiArg (listOf int) [long "arg", .minMaxCount 1 3, .tokenEndMarker (b "--"), desc "description"],
  positional (listOf text) [display "POS"]]]

/-- variable_length_test.cpp:127-153. -/
example : accepted multiPos = true ∧
    run multiPos "--arg 84" = .called 2 [no, nums [84], txts ""] ∧
    run multiPos "--arg 84 42" = .called 2 [no, nums [84, 42], txts ""] ∧
    run multiPos "--arg 84 42 --" = .called 2 [no, nums [84, 42], txts ""] ∧
    run multiPos "--arg 84 42 -- hello world" = .called 2 [no, nums [84, 42], txts "hello world"] ∧
    run multiPos "-f --arg 84 42 -- hello world" =
      .called 2 [yes, nums [84, 42], txts "hello world"] ∧
    run multiPos "-f --arg 84 42 12 4" = error "Maximum count exceeded: --arg" := by decide +kernel

/-- variable_length_test.cpp:160-184. -/
def forward (more : List Policy) : Node := root [mode [.router] [flag [short "f", desc "flag description"],
  forwarding ([none "--", maxCount 3] ++ more ++ [desc "description"])]]

/-- variable_length_test.cpp:202-230. -/
example : accepted (forward []) = true ∧ accepted (forward [.tokenEndMarker (b "--")]) = true ∧
    run (forward []) "-- hello" = .called 2 [no, txts "hello"] ∧
    run (forward []) "-- hello world" = .called 2 [no, txts "hello world"] ∧
    run (forward []) "-f -- hello world" = .called 2 [yes, txts "hello world"] ∧
    run (forward []) "-- hello world goodbye Cam" =
      error "Unknown argument: Cam. Did you mean -f?" ∧
    run (forward []) "--" = .called 2 [no, txts ""] ∧
    run (forward [.tokenEndMarker (b "--")]) "-- hello world goodbye Cam" =
      error "Maximum count exceeded: --" := by decide +kernel

/-- variable_length_test.cpp:237-250. -/
def forwardPos : Node := root [mode [.router] [flag [short "f", desc "flag description"],
  forwarding [none "--", maxCount 3, .tokenEndMarker (b "--"), desc "description"],
  positional (listOf int) [display "POS"]]]

/-- variable_length_test.cpp:262-294. -/
example : accepted forwardPos = true ∧
    run forwardPos "-- hello" = .called 2 [no, txts "hello", nums []] ∧
    run forwardPos "-- hello world" = .called 2 [no, txts "hello world", nums []] ∧
    run forwardPos "-- hello world --" = .called 2 [no, txts "hello world", nums []] ∧
    run forwardPos "-- hello world -- 84 42" = .called 2 [no, txts "hello world", nums [84, 42]] ∧
    run forwardPos "-f -- hello world -- 84 42" = .called 2 [yes, txts "hello world", nums [84, 42]] ∧
    run forwardPos "-f -- hello world goodbye me" = error "Maximum count exceeded: --" := by
  decide +kernel

/-! ## positional_arg_test.cpp -/

/-- positional_arg_test.cpp:23-41. -/
def onePos : Node := root [mode [.router] [flag [long "flag1", short "a", desc "First description"],
  flag [short "b"], arg int [long "arg1", .defaultValue (num 42), desc "Second description"],
  positional (listOf text) [display "pos_args", desc "Third description", .required, minCount 2]]]

/-- positional_arg_test.cpp:61-102. -/
example : accepted onePos = true ∧
    run onePos "one two" = .called 2 [no, no, num 42, txts "one two"] ∧
    run onePos "--one two" = .called 2 [no, no, num 42, txts "--one two"] ∧
    run onePos "one --two" = .called 2 [no, no, num 42, txts "one --two"] ∧
    run onePos "--flag1 one two" = .called 2 [yes, no, num 42, txts "one two"] ∧
    run onePos "-a one two" = .called 2 [yes, no, num 42, txts "one two"] ∧
    run onePos "--flag1 -b one two" = .called 2 [yes, yes, num 42, txts "one two"] ∧
    run onePos "--arg1 14 one two" = .called 2 [no, no, num 14, txts "one two"] ∧
    run onePos "--arg1 14 --flag1 one two" = .called 2 [yes, no, num 14, txts "one two"] ∧
    run onePos "--arg1 14 --flag1 one -two" = .called 2 [yes, no, num 14, txts "one -two"] ∧
    run onePos "-ab --one two" = .called 2 [yes, yes, num 42, txts "--one two"] ∧
    run onePos "--flag1 hello" = error "Minimum count not reached: pos_args" ∧
    run onePos "--flag1 --arg1 9 hello" = error "Minimum count not reached: pos_args" ∧
    run onePos "--flag1" = error "Missing required argument: pos_args" := by decide +kernel

/-- positional_arg_test.cpp:109-128. -/
def twoPos : Node := root [mode [.router] [flag [long "flag1", desc "First description"],
  arg int [long "arg1", .defaultValue (num 42), desc "Second description"],
  positional (listOf text) [display "pos_args1", desc "Third description", .minMaxCount 2 2],
  positional (listOf double) [display "pos_args2", desc "Fourth description"]]]

/-- positional_arg_test.cpp:148-176. -/
example : accepted twoPos = true ∧
    run twoPos "one two" = .called 2 [no, num 42, txts "one two", txts ""] ∧
    run twoPos "one two 3.14" = .called 2 [no, num 42, txts "one two", txts "3.14"] ∧
    run twoPos "one two 3.14 443.34" = .called 2 [no, num 42, txts "one two", txts "3.14 443.34"] ∧
    run twoPos "one two three" = error "Failed to parse: three" ∧
    run twoPos "one --flag1 two --arg1 5" = error "Failed to parse: two" := by decide +kernel

/-- positional_arg_test.cpp:183-202. -/
def twoPosMarker : Node := root [mode [.router] [flag [long "flag1", desc "First description"],
  arg int [long "arg1", .defaultValue (num 42), desc "Second description"],
  positional (listOf text) [display "pos_args1", desc "Third description", .tokenEndMarker (b "--")],
  positional (listOf double) [display "pos_args2", desc "Fourth description"]]]

/-- positional_arg_test.cpp:222-275. -/
example : accepted twoPosMarker = true ∧
    run twoPosMarker "one two" = .called 2 [no, num 42, txts "one two", txts ""] ∧
    run twoPosMarker "one two 3.14" = .called 2 [no, num 42, txts "one two 3.14", txts ""] ∧
    run twoPosMarker "one two -- 3.14" = .called 2 [no, num 42, txts "one two", txts "3.14"] ∧
    run twoPosMarker "--flag1 one two -- 3.14" = .called 2 [yes, num 42, txts "one two", txts "3.14"] ∧
    run twoPosMarker "--arg1 5 one two -- 3.14" =
      .called 2 [no, num 5, txts "one two", txts "3.14"] ∧
    run twoPosMarker "--arg1 5 -- 3.14" = .called 2 [no, num 5, txts "", txts "3.14"] ∧
    run twoPosMarker "-- 3.14" = .called 2 [no, num 42, txts "", txts "3.14"] ∧
    run twoPosMarker "--" = .called 2 [no, num 42, txts "", txts ""] ∧
    run twoPosMarker "" = .called 2 [no, num 42, txts "", txts ""] ∧
    run twoPosMarker "one two -- 3.14 three" = error "Failed to parse: three" := by decide +kernel

/-- positional_arg_test.cpp:282-305. -/
def threePos : Node := root [mode [.router] [flag [long "flag1", desc "First description"],
  positional (listOf text) [display "pos_args1", desc "Third description", .tokenEndMarker (b "--")],
  positional (listOf double) [display "pos_args2", desc "Fourth description", .tokenEndMarker (b "--")],
  positional (listOf text) [display "pos_args1", desc "Fifth description"]]]

/-- positional_arg_test.cpp:325-404. -/
example : accepted threePos = true ∧
    run threePos "one two" = .called 2 [no, txts "one two", txts "", txts ""] ∧
    run threePos "one two 3.14" = .called 2 [no, txts "one two 3.14", txts "", txts ""] ∧
    run threePos "one two -- 3.14" = .called 2 [no, txts "one two", txts "3.14", txts ""] ∧
    run threePos "one two -- 3.14 three" = error "Failed to parse: three" ∧
    run threePos "one two -- 3.14 5 --" = .called 2 [no, txts "one two", txts "3.14 5", txts ""] ∧
    run threePos "--flag1 one two -- 3.14 5 --" =
      .called 2 [yes, txts "one two", txts "3.14 5", txts ""] ∧
    run threePos "one two -- 3.14 5 -- three" =
      .called 2 [no, txts "one two", txts "3.14 5", txts "three"] ∧
    run threePos "one two -- -- three" = .called 2 [no, txts "one two", txts "", txts "three"] ∧
    run threePos "one two -- --" = .called 2 [no, txts "one two", txts "", txts ""] ∧
    run threePos "one two --" = .called 2 [no, txts "one two", txts "", txts ""] ∧
    run threePos "" = .called 2 [no, txts "", txts "", txts ""] := by decide +kernel

/-! ## top_level_test.cpp -/

/-- top_level_test.cpp:62-78: this compiles. -/
example : accepted (root [
    flag [long "hello", desc "This is a hello", short "h", .router],
    flag [long "goodbye", desc "This is a goodbye flag", short "g", .router]]) = true := by
  decide +kernel

/-- top_level_test.cpp:80-109. -/
def hello : Node := root [flag [long "hello", desc "Hello description", .router]]

example : accepted hello = true ∧
    run hello "--foo" = error "Unknown argument: --foo. Did you mean --hello?" ∧
    run hello "--hello --foo" = error "Unhandled arguments: --foo" := by decide +kernel

/-- top_level_test.cpp:111-122. -/
def konnichiwa : Node := root [flag [long "こんにちは", desc "こんにちは description", .router]]

example : accepted konnichiwa = true ∧ run konnichiwa "--こんにちは" = .called 2 [yes] := by
  decide +kernel

/-- top_level_test.cpp:124-139; with a separator 141-177. -/
def helloArg (vt : ValueType) (more : List Policy) : Node :=
  root [arg vt ([long "hello", desc "Hello description"] ++ more ++ [.router])]

example : accepted (helloArg int []) = true ∧ run (helloArg int []) "--hello 42" = .called 2 [num 42] := by
  decide +kernel

example : accepted (helloArg int [.valueSeparator (b "=")]) = true ∧
    run (helloArg int [.valueSeparator (b "=")]) "--hello=42" = .called 2 [num 42] ∧
    run (helloArg int [.valueSeparator (b "=")]) "--hello 42" =
      error "Expected a value separator: --hello" ∧
    run (helloArg int [.valueSeparator (b "=")]) "--hello=" =
      error "Unknown argument: --hello=. Did you mean --hello?" := by decide +kernel

/-- top_level_test.cpp:179-207. -/
example : accepted (helloArg text []) = true ∧
    run (helloArg text []) "--hello hello" = .called 2 [txt "hello"] ∧
    run (helloArg text []) "--hello -h" = .called 2 [txt "-h"] ∧
    run (helloArg text []) "--hello -hello" = .called 2 [txt "-hello"] ∧
    run (helloArg text []) "--hello --hello" = .called 2 [txt "--hello"] := by decide +kernel

/-- top_level_test.cpp:209-239. -/
def topFlags : Node := root [flag [long "flag1", desc "First description", .router],
  flag [long "flag2", desc "Second description", .router],
  flag [short "t", desc "Third description", .router]]

example : accepted topFlags = true ∧ run topFlags "--flag1" = .called 2 [yes] ∧
    run topFlags "--flag2" = .called 3 [yes] ∧ run topFlags "-t" = .called 4 [yes] := by
  decide +kernel

/-- top_level_test.cpp:241-296. -/
def topArgs : Node := root [arg int [long "flag1", desc "First description", .router],
  arg double [long "flag2", desc "Second description", .router],
  arg text [short "t", desc "Third description", .router]]

example : accepted topArgs = true ∧ run topArgs "--flag1 42" = .called 2 [num 42] ∧
    run topArgs "--flag2 3.14" = .called 3 [txt "3.14"] ∧
    run topArgs "-t hello" = .called 4 [txt "hello"] := by decide +kernel

/-- top_level_test.cpp:646-690. -/
def enabled (e1 e2 : Bool) : Node := root [
  flag [long "flag1", desc "First description", .runtimeEnable e1, .router],
  flag [long "flag2", desc "Second description", .runtimeEnable e2, .router]]

example : accepted (enabled true false) = true ∧
    run (enabled true true) "--flag1" = .called 2 [yes] ∧
    run (enabled true true) "--flag2" = .called 3 [yes] ∧
    run (enabled true false) "--flag1" = .called 2 [yes] ∧
    run (enabled false true) "--flag2" = .called 3 [yes] ∧
    run (enabled false true) "--flag1" = error "Unknown argument: --flag1. Did you mean --flag2?" ∧
    run (enabled true false) "--flag2" = error "Unknown argument: --flag2. Did you mean --flag1?" := by
  decide +kernel

/-! ## death_test.cpp -/

/-- death_test.cpp:12-75: no validator, no children, a child without a router. -/
example : accepted (.mk .root 1 1 boolType [.other 1] [flag [short "a", long "test", .router]]) = false ∧
    accepted (root []) = false ∧ accepted (root [flag [long "f1"]]) = false := by decide +kernel

/-- death_test.cpp:76-265: policies root must not have. Here every root has the validator and its child a
router, which the trees of the test lack, so that nothing else is wrong; the next example has no such policy. -/
example : ∀ p ∈ [.alias [.long (b "foo")], .customParser fun _ => .ok (.bool false),
      .minMaxValue (some (num 1)) (some (num 3)) (fun _ _ => false), .router, .required, long "root",
      short "r", display "root", none "root", .errorName (b "root"), desc "root"],
    accepted (.mk .root 1 1 boolType [.other 0, .other 1, p]
      [(number 2 (flag [long "hello", .router])).1]) = false := by
  intro p hp
  simp only [List.mem_cons, List.not_mem_nil, or_false] at hp
  rcases hp with rfl | rfl | rfl | rfl | rfl | rfl | rfl | rfl | rfl | rfl | rfl <;> decide +kernel

example : accepted (.mk .root 1 1 boolType [.other 0, .other 1]
    [(number 2 (flag [long "hello", .router])).1]) = true := by decide +kernel

end ArgRouter.Tests.Root
