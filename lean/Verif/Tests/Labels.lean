import Verif.Tests.Help

/-!
# Tests of the help data of nodes

The tests called `help_test` of the node classes in /repo/test.
-/

namespace ArgRouter.Tests.Labels

open Help

/-- The help data of a node and of all below it, with their depths. -/
def data (flatten : Bool) (n : Node) : List (Nat × Bytes × Bytes) := (staticHelp info flatten n).flat 0
/-- A row that a test expects. -/
def row (depth : Nat) (label description : String) : Nat × Bytes × Bytes := (depth, b label, b description)
/-- The test of a node without children: the same data with and without `Flatten`. -/
def leaf (n : Node) (label description : String) : Bool :=
  data false n == [row 0 label description] && data true n == [row 0 label description]

/-- flag_test.cpp:61-100. -/
example :
    leaf (flag [short "h", long "hello", desc "A flag!"]) "--hello,-h" "A flag!" = true ∧
    leaf (flag [long "hello", desc "A flag!"]) "--hello" "A flag!" = true ∧
    leaf (flag [short "h", desc "A flag!"]) "-h" "A flag!" = true ∧
    leaf (flag [short "h"]) "-h" "" = true := by decide +kernel

/-- counting_flag_test.cpp:89-131. -/
example :
    leaf (countingFlag 32 [short "h", long "hello", desc "A counting flag!"]) "--hello,-h"
      "A counting flag!" = true ∧
    leaf (countingFlag 32 [long "hello", desc "A counting flag!"]) "--hello" "A counting flag!" = true ∧
    leaf (countingFlag 32 [short "h", desc "A counting flag!"]) "-h" "A counting flag!" = true ∧
    leaf (countingFlag 32 [short "h"]) "-h" "" = true := by decide +kernel

/-- arg_test.cpp:71-110. -/
example :
    leaf (arg int [short "h", long "hello", desc "An arg!"]) "--hello,-h <Value>" "An arg!" = true ∧
    leaf (arg int [long "hello", desc "An arg!"]) "--hello <Value>" "An arg!" = true ∧
    leaf (arg int [short "h", desc "An arg!"]) "-h <Value>" "An arg!" = true ∧
    leaf (arg int [short "h"]) "-h <Value>" "" = true := by decide +kernel

/-- multi_arg_test.cpp:58-112. -/
example :
    leaf (multiArg int [short "h", long "hello", desc "An arg!"]) "--hello,-h [1,N]" "An arg!" = true ∧
    leaf (multiArg int [short "h", long "hello", minCount 4, desc "An arg!"]) "--hello,-h [4,N]"
      "An arg!" = true ∧
    leaf (multiArg int [short "h", long "hello", .minMaxCount 1 4, desc "An arg!"]) "--hello,-h [1,4]"
      "An arg!" = true ∧
    leaf (multiArg int [long "hello", desc "An arg!"]) "--hello [1,N]" "An arg!" = true ∧
    leaf (multiArg int [short "h", desc "An arg!"]) "-h [1,N]" "An arg!" = true ∧
    leaf (multiArg int [short "h"]) "-h [1,N]" "" = true := by decide +kernel

/-- positional_arg_test.cpp:69-126. -/
example :
    leaf (positional int [display "pos-arg", desc "A positional arg!"]) "<pos-arg> [0,N]"
      "A positional arg!" = true ∧
    leaf (positional int [display "pos-arg"]) "<pos-arg> [0,N]" "" = true ∧
    leaf (positional int [display "pos-arg", .minMaxCount 1 3]) "<pos-arg> [1,3]" "" = true ∧
    leaf (positional int [display "pos-arg", minCount 3]) "<pos-arg> [3,N]" "" = true ∧
    leaf (positional int [display "pos-arg", maxCount 3]) "<pos-arg> [0,3]" "" = true := by decide +kernel

/-- forwarding_arg_test.cpp:54-97. -/
example :
    leaf (forwarding [none "--", desc "An arg!"]) "-- [0,N]" "An arg!" = true ∧
    leaf (forwarding [none "--", minCount 4, desc "An arg!"]) "-- [4,N]" "An arg!" = true ∧
    leaf (forwarding [none "--", .minMaxCount 1 4, desc "An arg!"]) "-- [1,4]" "An arg!" = true := by
  decide +kernel

/-- dependency/one_of_test.cpp:200-257. -/
example :
    data false (oneOf boolType [.required] [arg int [long "arg1"], arg double [long "arg2"]]) =
      [row 0 "One of: " "", row 1 "┌ --arg1 <Value>" "", row 1 "└ --arg2 <Value>" ""] ∧
    data false (oneOf boolType [.required] [arg int [long "arg1"], arg double [short "b", desc "A desc"]]) =
      [row 0 "One of: " "", row 1 "┌ --arg1 <Value>" "", row 1 "└ -b <Value>" "A desc"] ∧
    data false (oneOf boolType [.required] [arg int [long "arg1"], flag [long "flag", short "f", desc "Hello"],
        arg double [short "b", desc "A desc"]]) =
      [row 0 "One of: " "", row 1 "┌ --arg1 <Value>" "", row 1 "├ --flag,-f" "Hello",
        row 1 "└ -b <Value>" "A desc"] := by decide +kernel

/-- dependency/alias_group_test.cpp:173-231. -/
example :
    data false (aliasGroup double [.required] [arg double [long "arg1"], arg double [long "arg2"]]) =
      [row 0 "Alias Group: " "", row 1 "┌ --arg1 <Value>" "", row 1 "└ --arg2 <Value>" ""] ∧
    data false (aliasGroup double [.required] [arg double [long "arg1"],
        arg double [short "b", desc "A desc"]]) =
      [row 0 "Alias Group: " "", row 1 "┌ --arg1 <Value>" "", row 1 "└ -b <Value>" "A desc"] ∧
    data false (aliasGroup boolType [.required] [arg boolType [long "arg1"],
        flag [long "flag", short "f", desc "Hello"], arg boolType [short "b", desc "A desc"]]) =
      [row 0 "Alias Group: " "", row 1 "┌ --arg1 <Value>" "", row 1 "├ --flag,-f" "Hello",
        row 1 "└ -b <Value>" "A desc"] := by decide +kernel

/-- The flags of the next test. -/
def hello : Node := flag [long "hello", short "h", desc "Hello desc"]
/-- ... -/
def flag1 : Node := flag [long "flag1", short "a", desc "Flag1 desc"]
/-- A mode in a mode. -/
def nested : Node := mode [none "mode1", desc "Mode1 desc", .router] [hello,
  mode [none "mode2", desc "Mode2 desc"] [flag [long "goodbye", short "g", desc "Goodbye desc"],
    flag [long "flag2", short "b", desc "Flag2 desc"]]]

/-- mode_test.cpp:955-1033. -/
example :
    data true (mode [.router] [hello]) = [row 0 " " "", row 1 "--hello,-h" "Hello desc"] ∧
    data false (mode [.router] [hello]) = [row 0 " " "", row 1 "--hello,-h" "Hello desc"] ∧
    data true (mode [.router] [hello, flag1]) =
      [row 0 " " "", row 1 "--hello,-h" "Hello desc", row 1 "--flag1,-a" "Flag1 desc"] ∧
    data false (mode [none "mode1", desc "Mode desc", .router] [hello, flag1]) =
      [row 0 "mode1" "Mode desc"] ∧
    data true (mode [none "mode1", desc "Mode desc", .router] [hello, flag1]) =
      [row 0 "mode1" "Mode desc", row 1 "--hello,-h" "Hello desc", row 1 "--flag1,-a" "Flag1 desc"] := by
  decide +kernel

/-- mode_test.cpp:1034-1081. -/
example :
    data true nested =
      [row 0 "mode1" "Mode1 desc", row 1 "--hello,-h" "Hello desc", row 1 "mode2" "Mode2 desc",
        row 2 "--goodbye,-g" "Goodbye desc", row 2 "--flag2,-b" "Flag2 desc"] ∧
    data false nested = [row 0 "mode1" "Mode1 desc"] := by decide +kernel

end ArgRouter.Tests.Labels
