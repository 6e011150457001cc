import Verif.Tests.Base
import Verif.Parse.Mode
import Verif.Parse.Bounds

/-!
# Tests of the phases of the policies

Files of /repo/test/policy. The tests run one phase of a policy of a stub node.
-/

namespace ArgRouter.Tests.Phases

/-- A stub node: a node of no class with these policies and children. -/
def stub (id : Nat) (policies : List Policy) (children : List Node := []) : Node :=
  .mk .arg id id boolType policies children

/-- Tokens without a prefix, the words of a line. -/
def bare (line : String) : List Token := (words (b line)).map (Token.mk .none)
/-- A token with two dashes. -/
def lt (s : String) : Token := ⟨.long, b s⟩
/-- A token with one dash. -/
def st (s : String) : Token := ⟨.short, b s⟩
/-- A token without dashes. -/
def nt (s : String) : Token := ⟨.none, b s⟩

/-- What a phase did: its action or exception, and the processed and unprocessed tokens it left. -/
inductive Did where
  | did (act : Action) (processed unprocessed : List Token)
  | failed (e : Exc) (processed unprocessed : List Token)
  | other
  deriving DecidableEq, Repr

/-- ... of the result of a phase. -/
def Did.of : Out (PreResult × Adapter) → Did
  | .ok (.ok act, a) => .did act a.processed a.unprocessed
  | .ok (.error e, a) => .failed e a.processed a.unprocessed
  | _ => .other

/-! ## min_max_count_test.cpp -/

/-- The phase with these tokens: what is left, or the exception. -/
def count (owner : List Policy) (mn mx : Nat) (result args : String) : Did :=
  .of (.ok (minMaxCountPhase (stub 1 (owner ++ [.minMaxCount mn mx])) mn mx
    ⟨bare result, bare args⟩))

/-- The node is valid and these are the tokens. -/
def valid (result args : String) : Did := .did .validNode (bare result) (bare args)

/-- The exception of a failed phase. -/
def Did.exception : Did → Option Exc
  | .failed e _ _ => some e
  | _ => Option.none

/-- min_max_count_test.cpp:96-301. -/
example :
    let node1 := [long "node1"]
    let disp1 := [display "node1"]
    let ended := [long "node1", .tokenEndMarker (b "--")]
    let dispEnded := [display "node1", .tokenEndMarker (b "--")]
    count node1 1 sizeMax "" "--node1 42 foo hello" = valid "--node1 42 foo hello" "" ∧
    count disp1 1 sizeMax "" "42 foo hello" = valid "42 foo hello" "" ∧
    count node1 1 1 "" "--node1 42 foo hello" = valid "--node1 42" "foo hello" ∧
    count disp1 1 1 "" "42 foo hello" = valid "42" "foo hello" ∧
    count node1 1 sizeMax "--node1 42 foo hello" "" = valid "--node1 42 foo hello" "" ∧
    count node1 1 sizeMax "--node1 42" "foo hello" = valid "--node1 42 foo hello" "" ∧
    (count [long "node2"] 2 sizeMax "" "--node2 42").exception =
      some ⟨.minimum_count_not_reached, [lt "node2"]⟩ ∧
    (count [display "node2"] 2 sizeMax "" "42").exception =
      some ⟨.minimum_count_not_reached, [nt "node2"]⟩ ∧
    count node1 0 2 "" "--node1 42 foo hello" = valid "--node1 42 foo" "hello" ∧
    count disp1 0 2 "" "42 foo hello" = valid "42 foo" "hello" ∧
    count node1 1 1 "" "--node1 霊 foo hello" = valid "--node1 霊" "foo hello" ∧
    count ended 0 2 "--node1 one two" "three" = valid "--node1 one two" "three" ∧
    (count ended 0 1 "--node1 one two" "three").exception =
      some ⟨.maximum_count_exceeded, [lt "node1"]⟩ ∧
    count ended 2 sizeMax "--node1 one two" "three" = valid "--node1 one two" "three" ∧
    (count ended 3 sizeMax "--node1 one two" "three").exception =
      some ⟨.minimum_count_not_reached, [lt "node1"]⟩ ∧
    count dispEnded 0 2 "one two" "three" = valid "one two" "three" ∧
    (count dispEnded 0 1 "one two" "three").exception =
      some ⟨.maximum_count_exceeded, [nt "node1"]⟩ := by decide +kernel

/-! ## value_separator_test.cpp -/

/-- The phase of `value_separator<'='>` with these tokens. -/
def separate (name : String) (result args : List Token) : Did :=
  .of (valueSeparatorPhase .default (stub 1 [long name, .minMaxCount 1 1]) (b "=") ⟨result, args⟩)

/-- value_separator_test.cpp:102-191. -/
example :
    separate "hello" [] [] = .did .validNode [] [] ∧
    separate "hello" [] (bare "--hello=42") = valid "--hello 42" "" ∧
    separate "hello" [] (bare "--hello=42 foo") = valid "--hello 42" "foo" ∧
    separate "hello" [lt "hello=42"] [] = .did .validNode [lt "hello", nt "42"] [] ∧
    separate "hello" [lt "hello=42"] (bare "foo") =
      .did .validNode [lt "hello", nt "42"] (bare "foo") ∧
    separate "hello" [] (bare "-d=42") = valid "-d 42" "" ∧
    separate "hello" [st "h"] [] = .did .skipNode [st "h"] [] ∧
    separate "hello" [] (bare "--hello") =
      .failed ⟨.missing_value_separator, [lt "hello"]⟩ [] (bare "--hello") ∧
    separate "hello" [] (bare "--hello=") = .did .skipNode [] (bare "--hello=") ∧
    separate "こんにちは" [] (bare "--こんにちは=42") = valid "--こんにちは 42" "" ∧
    separate "hello" [] (bare "--hello=よんじゅうに") = valid "--hello よんじゅうに" "" ∧
    separate "こんにちは" [] (bare "--こんにちは=よんじゅうに") =
      valid "--こんにちは よんじゅうに" "" := by decide +kernel

/-! ## token_end_marker_test.cpp -/

/-- The phase of `token_end_marker<"--">` with these tokens. -/
def ends (mn mx : Nat) (args : String) : Did :=
  .of (tokenEndMarkerPhase (stub 1 [.minMaxCount mn mx]) (b "--") ⟨[], bare args⟩)

/-- token_end_marker_test.cpp:91-132. -/
example :
    ends 1 sizeMax "one two three --" = valid "one two three" "" ∧
    ends 0 1 "one two three --" = valid "one two three" "" ∧
    ends 1 sizeMax "one two three" = valid "one two three" "" ∧
    ends 1 sizeMax "one two -- three" = valid "one two" "three" := by decide +kernel

/-! ## short_form_expander_test.cpp -/

/-- The phase with these tokens. -/
def expand (name : String) (result args : List Token) : Did :=
  .of (shortFormExpanderPhase .default (stub 1 [short name]) ⟨result, args⟩)

/-- short_form_expander_test.cpp:68-141. -/
example :
    expand "h" [] [] = .did .validNode [] [] ∧
    expand "h" [] (bare "--hello") = .did .validNode [] (bare "--hello") ∧
    expand "h" [] (bare "-h") = .did .validNode [] (bare "-h") ∧
    expand "h" [] (bare "--h") = .did .validNode [] (bare "--h") ∧
    expand "h" [lt "h"] [] = .did .validNode [lt "h"] [] ∧
    expand "h" [st "h"] [] = .did .validNode [st "h"] [] ∧
    expand "h" [] (bare "-hello") = .did .validNode [st "h"] [st "e", st "l", st "l", st "o"] ∧
    expand "h" [] (bare "-h -f") = .did .validNode [] (bare "-h -f") ∧
    expand "こ" [] (bare "-こんにちは") =
      .did .validNode [st "こ"] [st "ん", st "に", st "ち", st "は"] ∧
    expand "🙂" [] (bare "-🙂b🇦🇬Δ猫") =
      .did .validNode [st "🙂"] [st "b", st "🇦🇬", st "Δ", st "猫"] := by decide +kernel

/-! ## runtime_enable_test.cpp -/

/-- runtime_enable_test.cpp:50-81. -/
example :
    Did.of (.ok (runtimeEnablePhase true ⟨[], []⟩)) = .did .validNode [] [] ∧
    Did.of (.ok (runtimeEnablePhase false ⟨[], []⟩)) = .did .skipNode [] [] := by decide +kernel

/-! ## dependent_test.cpp -/

/-- A stub flag with a long name. -/
def named (id : Nat) (name : String) (more : List Policy := []) : Node := stub id (long name :: more)

/-- dependent_test.cpp:84-121: the modes. -/
def test1 : Node := stub 10 [long "test1", .router]
  [named 11 "flag1" [.dependent [.long (b "flag2")]], named 12 "flag2", named 13 "flag3"]
/-- The group of the second mode. -/
def group2 : Node := stub 21 [long "one_of"]
  [named 22 "flag1" [.dependent [.long (b "flag2")]], named 23 "flag3"]
/-- The second mode. -/
def test2 : Node := stub 20 [long "test2", .router] [group2, named 24 "flag2"]
/-- The third mode, whose first flag has two such policies; the stub keeps the result of the last. -/
def test4 : Node := stub 40 [long "test4", .router]
  [named 41 "flag1" [.dependent [.long (b "flag2")], .dependent [.long (b "flag3")]],
   named 42 "flag2", named 43 "flag3"]
/-- The fourth mode. -/
def test5 : Node := stub 50 [long "test5", .router]
  [named 51 "flag1" [.dependent [.long (b "flag2")]],
   named 52 "flag2" [.dependent [.long (b "flag3")]], named 53 "flag3"]
/-- All of them. -/
def tests : Node := stub 1 [long "test_root"] [test1, test2, test4, test5]

/-- The phase of a policy that depends on this flag, with the given flags as sub-targets. -/
def depends (parents : List Node) (given : List Node) (on : String) : Did :=
  .of (dependentPhase parents
    (parents.head?.map fun p => ⟨p, [], given.map fun g => ⟨g, []⟩⟩) [.long (b on)] ⟨[], []⟩)

/-- dependent_test.cpp:163-196. -/
example :
    depends [test1, tests] [named 12 "flag2", named 13 "flag3"] "flag2" = .did .validNode [] [] ∧
    depends [test1, tests] [named 13 "flag3"] "flag2" =
      .failed ⟨.dependent_argument_missing, [lt "flag2"]⟩ [] [] ∧
    depends [group2, test2, tests] [named 23 "flag3", named 24 "flag2"] "flag2" =
      .did .validNode [] [] ∧
    depends [test4, tests] [named 42 "flag2", named 43 "flag3"] "flag3" = .did .validNode [] [] ∧
    depends [test4, tests] [named 42 "flag2"] "flag3" =
      .failed ⟨.dependent_argument_missing, [lt "flag3"]⟩ [] [] ∧
    depends [test5, tests] [named 52 "flag2", named 53 "flag3"] "flag2" =
      .did .validNode [] [] := by decide +kernel

/-! ## alias_test.cpp -/

/-- A stub that takes a fixed number of values. -/
def takes (id n : Nat) (name : String) (aliases : List String) : Node :=
  stub id ([long name, .minMaxCount n n] ++
    (if aliases.isEmpty then [] else [.alias (aliases.map fun s => NameRef.long (b s))]))

/-- What the phase of an alias did: the sub-targets it made and the tokens it left unprocessed. -/
inductive Aliased where
  | did (act : Action) (subs : List (Nat × List Token)) (left : List Token)
  | failed (e : Exc)
  | other
  deriving DecidableEq, Repr

/-- The phase of an alias. -/
def aliasDid (owner : Node) (parents : List Node) (aliases : List String) (result args : List Token) :
    Aliased :=
  match aliasPhase .default owner parents (aliases.map fun s => NameRef.long (b s))
      ⟨result, args⟩ [] with
  | .ok (.ok act, a, subs) =>
    .did act (subs.map fun s => (s.node.uid, s.tokens)) a.unprocessed
  | .ok (.error e, _, _) => .failed e
  | _ => .other

/-- alias_test.cpp:116-123. -/
def a1 : Node := stub 10 [long "test1", .router]
  [takes 11 0 "flag1" ["flag2"], takes 12 0 "flag2" [], named 13 "flag3"]
/-- alias_test.cpp:124-130. -/
def a2 : Node := stub 20 [long "test2", .router]
  [takes 21 1 "arg1" ["arg3"], named 22 "arg2", takes 23 1 "arg3" []]
/-- alias_test.cpp:131-138. -/
def a3 : Node := stub 30 [long "test3", .router]
  [takes 31 0 "flag1" ["flag2", "flag3"], takes 32 0 "flag2" [], takes 33 0 "flag3" []]
/-- alias_test.cpp:139-146. -/
def a4 : Node := stub 40 [long "test4", .router]
  [takes 41 3 "arg1" ["arg2", "arg3"], takes 42 3 "arg2" [], takes 43 3 "arg3" []]
/-- alias_test.cpp:147-155. -/
def g5 : Node := stub 51 [long "one_of"] [takes 52 0 "flag1" ["flag2"], takes 53 0 "flag2" []]
/-- Its mode. -/
def a5 : Node := stub 50 [long "test5", .router] [g5, named 54 "flag3"]
/-- alias_test.cpp:156-163. -/
def g6 : Node := stub 61 [long "one_of"] [takes 62 0 "flag1" ["flag3"], named 63 "flag2"]
/-- Its mode. -/
def a6 : Node := stub 60 [long "test6", .router] [g6, takes 64 0 "flag3" []]
/-- alias_test.cpp:164-170. -/
def a7 : Node := stub 70 [long "test7", .router]
  [takes 71 0 "flag1" ["パラメータ一"], takes 72 0 "パラメータ一" [], named 73 "flag3"]

/-- alias_test.cpp:206-258: the sub-targets replace the node. -/
example :
    let uses := Aliased.did .skipNodeButUseSubTargets
    aliasDid (takes 11 0 "flag1" ["flag2"]) [a1] ["flag2"] [] (bare "--flag1") =
      uses [(12, [])] [] ∧
    aliasDid (takes 11 0 "flag1" ["flag2"]) [a1] ["flag2"] [] (bare "--flag1 foo") =
      uses [(12, [])] (bare "foo") ∧
    aliasDid (takes 21 1 "arg1" ["arg3"]) [a2] ["arg3"] [] (bare "--arg1 42") =
      uses [(23, bare "42")] [] ∧
    aliasDid (takes 31 0 "flag1" ["flag2", "flag3"]) [a3] ["flag2", "flag3"] [] (bare "--flag1") =
      uses [(32, []), (33, [])] [] ∧
    aliasDid (takes 41 3 "arg1" ["arg2", "arg3"]) [a4] ["arg2", "arg3"] []
        (bare "--arg1 1 2 3 4") =
      uses [(42, bare "1 2 3"), (43, bare "1 2 3")] (bare "4") ∧
    aliasDid (takes 52 0 "flag1" ["flag2"]) [g5, a5] ["flag2"] [] (bare "--flag1") =
      uses [(53, [])] [] ∧
    aliasDid (takes 62 0 "flag1" ["flag3"]) [g6, a6] ["flag3"] [] (bare "--flag1") =
      uses [(64, [])] [] ∧
    aliasDid (takes 71 0 "flag1" ["パラメータ一"]) [a7] ["パラメータ一"] [] (bare "--flag1") =
      uses [(72, [])] [] := by decide +kernel

/-- alias_test.cpp:261-286. -/
example :
    aliasDid (takes 2 2 "arg1" ["arg2"])
        [stub 1 [long "root", .router]
          [takes 2 2 "arg1" ["arg2"], takes 3 2 "arg2" [], named 4 "arg3"]]
        ["arg2"] [lt "arg1", nt "42"] [] =
      .failed ⟨.too_few_values_for_alias, [lt "arg1"]⟩ := by decide +kernel

/-! ## min_max_value_t_test.cpp -/

/-- Is a whole number or the length of a list smaller? -/
def smaller : Value → Value → Bool
  | .one (.int i), .one (.int j) => decide (i < j)
  | .many xs, .many ys => decide (xs.length < ys.length)
  | _, _ => false

/-- The validation phase of a node: an exception, if any. -/
def validate (lo hi : Option Value) (v : Value) : Out Unit :=
  (runValidation (stub 1 [.minMaxValue lo hi smaller, long "node"]) v
    [.minMaxValue lo hi smaller, long "node"] .fresh).1

/-- min_max_value_t_test.cpp:75-179. -/
example :
    let few : Out Unit := .throw ⟨.minimum_value_not_reached, [lt "node"]⟩
    let many : Out Unit := .throw ⟨.maximum_value_exceeded, [lt "node"]⟩
    let no : Option Value := Option.none
    validate (some (num 1)) (some (num 4)) (num 2) = .ok () ∧
    validate (some (num 1)) (some (num 4)) (num 1) = .ok () ∧
    validate (some (num 1)) (some (num 4)) (num 4) = .ok () ∧
    validate (some (num 1)) (some (num 4)) (num 0) = few ∧
    validate (some (num 1)) (some (num 4)) (num (-5)) = few ∧
    validate (some (num 1)) (some (num 4)) (num 6) = many ∧
    validate (some (num 2)) no (num 2) = .ok () ∧
    validate (some (num 2)) no (num 20) = .ok () ∧
    validate (some (num 2)) no (num 1) = few ∧
    validate no (some (num 2)) (num 2) = .ok () ∧
    validate no (some (num 2)) (num 1) = .ok () ∧
    validate no (some (num 2)) (num 20) = many ∧
    validate (some (nums [5, 6])) (some (nums [1, 3, 4, 2])) (nums [3, 4, 5]) = .ok () ∧
    validate (some (nums [5, 6])) (some (nums [1, 3, 4, 2])) (nums []) = few ∧
    validate (some (nums [5, 6])) (some (nums [1, 3, 4, 2])) (nums [5]) = few ∧
    validate (some (nums [5, 6])) (some (nums [1, 3, 4, 2])) (nums [1, 2, 3, 4, 5]) = many ∧
    validate no no (num 0) = .ok () := by decide +kernel

/-! ## min_max_value_ct_test.cpp -/

/-- The validation phase of a node of type `int` with compile-time bounds that are written as an `int`. -/
def validateCt (lo hi : Option Int) (v : Int) : Out Unit :=
  let p := compileTimeBounds .int .int lo hi
  (runValidation (stub 1 [p, long "node"]) (num v) [p, long "node"] .fresh).1

/-- min_max_value_ct_test.cpp:103-173, and the assertions of 222-258 and 404-436. -/
example :
    let few : Out Unit := .throw ⟨.minimum_value_not_reached, [lt "node"]⟩
    let many : Out Unit := .throw ⟨.maximum_value_exceeded, [lt "node"]⟩
    let no : Option Int := Option.none
    validateCt (some 1) (some 4) 2 = .ok () ∧
    validateCt (some 1) (some 4) 1 = .ok () ∧
    validateCt (some 1) (some 4) 4 = .ok () ∧
    validateCt (some 1) (some 4) 0 = few ∧
    validateCt (some 1) (some 4) (-5) = few ∧
    validateCt (some 1) (some 4) 6 = many ∧
    validateCt (some 2) no 2 = .ok () ∧
    validateCt (some 2) no 20 = .ok () ∧
    validateCt (some 2) no 1 = few ∧
    validateCt no (some 2) 2 = .ok () ∧
    validateCt no (some 2) 1 = .ok () ∧
    validateCt no (some 2) 20 = many ∧
    boundsAssert no no = false ∧ boundsAssert (some 4) (some 1) = false := by decide +kernel

end ArgRouter.Tests.Phases
