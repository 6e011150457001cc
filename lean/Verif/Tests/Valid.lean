import Verif.Tests.Base
import Verif.Valid.Edit

/-!
# Tests of the validation rules

/repo/test/policy/validator_test.cpp and validator_rule_utilities_test.cpp. A `death_test` of the
project is a program that must not compile: here the condition does not hold, or the edit of the rules
has no result. `std::vector`, which the tests use as a type no rule is for, is a policy without a rule of its own.
-/

namespace ArgRouter.Tests.Valid

/-- A flag of the type `h`. -/
def flagT (h : Nat) (ps : List Policy) : Node := mkFlag .default h h ps
/-- An argument of the type `h`. -/
def argT (h : Nat) (ps : List Policy) : Node := mkArg h h int ps
/-- A positional argument of a list, of the type `h`. -/
def listT (h : Nat) (ps : List Policy) : Node := mkPositional h h (listOf int) ps
/-- A positional argument of one value, of the type `h`. -/
def oneT (h : Nat) (ps : List Policy) : Node := mkPositional h h int (.minMaxCount 1 1 :: ps)

/-- validator_test.cpp:26-34, 314-329. -/
example :
    Condition.uniqueInOwner.holds (.policy (long "test")) [flagT 1 [short "a", long "test"]] = true ∧
    Condition.uniqueInOwner.holds (.policy (long "test")) [] = true ∧
    Condition.uniqueInOwner.holds (.policy (long "test1"))
      [flagT 1 [short "a", long "test1", long "test2"]] = false := by decide +kernel

/-- The flag both modes of a test have. -/
def shared : Node := flagT 1 [short "a", long "test1"]
/-- A flag of another type. -/
def longOnly : Node := flagT 2 [long "test1"]
/-- A flag with the short name only. -/
def shortOnly : Node := flagT 3 [short "a"]
/-- The first mode. -/
def mode1 (cs : List Node) : Node := mkMode 4 4 [none "mode1"] cs
/-- The second mode. -/
def mode2 (cs : List Node) : Node := mkMode 5 5 [none "mode2"] cs
/-- A mode without a name. -/
def anonymous (cs : List Node) : Node := mkMode 6 6 [] cs

/-- validator_test.cpp:36-58, 330-424. -/
example :
    let unique := Condition.uniqueToMode [.mode]
    unique.holds (.policy (long "test1")) [] = true ∧
    unique.holds (.policy (long "test1")) [shared] = true ∧
    unique.holds (.policy (long "test1"))
      [shared, mode1 [shared], mkRoot 0 0 [mode1 [shared], mode2 [shared]]] = true ∧
    unique.holds (.policy (long "test1")) [shared, mkRoot 0 0 [shared, longOnly]] = false ∧
    unique.holds (.policy (long "test1"))
      [shared, anonymous [shared, longOnly], mkRoot 0 0 [anonymous [shared, longOnly]]] = false ∧
    unique.holds (.policy (short "a"))
      [shared, anonymous [shared, shortOnly], mkRoot 0 0 [anonymous [shared, shortOnly]]] =
        false := by decide +kernel

/-- validator_test.cpp:60-93, 425-473. -/
example :
    let one := flagT 1 [short "a", long "test1", .router]
    let other := flagT 2 [short "b", long "test2", .router]
    (Condition.parentTypes [(0, .flag)]).holds (.policy .router) [one] = true ∧
    (Condition.parentTypes [(1, .root)]).holds (.policy .router)
      [one, mkRoot 0 0 [one, other]] = true ∧
    (Condition.parentTypes [(0, .mode), (1, .root)]).holds (.policy .router)
      [one, mkRoot 0 0 [one, other]] = true ∧
    (Condition.parentTypes [(1, .mode)]).holds (.policy .router)
      [one, mkRoot 0 0 [one, other]] = false := by decide +kernel

/-- validator_test.cpp:95-112, 474-541. -/
example :
    let f := flagT 1 [short "a", long "test"]
    let d := flagT 1 [short "a", desc "desc", long "test"]
    let r := flagT 1 [short "a", long "test", .required]
    (Condition.mustHave [.longName]).holds (.node f) [] = true ∧
    (Condition.mustHave [.longName, .description]).holds (.node d) [] = true ∧
    (Condition.mustHave [.required]).holds (.node f) [] = false ∧
    (Condition.mustHave [.required, .shortName]).holds (.node f) [] = false ∧
    (Condition.mustNotHave [.required]).holds (.node f) [] = true ∧
    (Condition.mustNotHave [.required, .description]).holds (.node f) [] = true ∧
    (Condition.mustNotHave [.required]).holds (.node r) [] = false ∧
    (Condition.mustNotHave [.required, .longName]).holds (.node r) [] = false := by decide +kernel

/-- validator_test.cpp:114-131, 542-612. -/
example :
    let one := flagT 1 [short "a", long "test1", .router]
    let other := flagT 2 [short "b", long "test2", .router]
    (Condition.childMustHave .router).holds (.node (mkRoot 0 0 [one, other])) [] = true ∧
    (Condition.childMustHave .longName).holds
      (.node (mkRoot 0 0 [one, flagT 2 [short "b", .router]])) [] = false ∧
    (Condition.parentMustNotHave .displayName).holds (.policy (display "hello"))
      [flagT 1 [long "hello", short "a"]] = true ∧
    (Condition.parentMustNotHave .longName).holds (.policy (display "hello")) [] = false ∧
    (Condition.parentMustNotHave .longName).holds (.policy (desc "hello"))
      [flagT 1 [desc "hello", long "flag"]] = false := by decide +kernel

/-- validator_test.cpp:133-165, 613-631. -/
example :
    let single := Condition.singleAnonymousMode [.mode]
    single.holds (.node (mkRoot 0 0 [mode1 [shared], mode2 [shared]])) [] = true ∧
    single.holds (.node (mkRoot 0 0 [mode1 [shared], anonymous [shared]])) [] = true ∧
    single.holds (.node (mkRoot 0 0 [mode1 [shared]])) [] = true ∧
    single.holds (.node (mkRoot 0 0 [anonymous [shared]])) [] = true ∧
    single.holds (.node (mkRoot 0 0 [anonymous [shared], anonymous [shared]])) [] =
      false := by decide +kernel

/-- validator_test.cpp:167-177, 632-649. -/
example :
    (Condition.atLeastOneOf [.longName, .shortName]).holds
      (.node (flagT 1 [long "hello"])) [] = true ∧
    (Condition.atLeastOneOf [.longName, .shortName]).holds
      (.node (flagT 1 [short "a"])) [] = true ∧
    (Condition.atLeastOneOf [.longName, .shortName]).holds
      (.node (flagT 1 [long "long", short "s"])) [] = true ∧
    (Condition.atLeastOneOf [.displayName, .shortName]).holds
      (.node (argT 1 [long "test1", desc "desc"])) [] = false := by decide +kernel

/-- validator_test.cpp:179-194, 650-668, 688-706. -/
example :
    let atEnd := Condition.nodesAtEnd [.positional]
    let f := flagT 1 [long "test1"]
    let a := argT 2 [long "test2"]
    let p := listT 3 [display "test3"]
    let q := listT 4 [display "test4"]
    atEnd.holds (.node (anonymous [f, a, p])) [] = true ∧
    atEnd.holds (.node (anonymous [f, a, p, q])) [] = true ∧
    atEnd.holds (.node (anonymous [f, p, a])) [] = false ∧
    atEnd.holds (.node (anonymous [p, f, a])) [] = false := by decide +kernel

/-- validator_test.cpp:196-219, 669-687. -/
example :
    let last := Condition.anonymousAtEnd [.mode]
    let f := flagT 1 [long "test1", .router]
    let a := argT 2 [long "test2", .router]
    let m := anonymous [flagT 3 [long "test3"]]
    let n := mode1 [flagT 3 [long "test3"]]
    last.holds (.node (mkRoot 0 0 [f, a])) [] = true ∧
    last.holds (.node (mkRoot 0 0 [f, a, m])) [] = true ∧
    last.holds (.node (mkRoot 0 0 [f, n, a])) [] = true ∧
    last.holds (.node (mkRoot 0 0 [f, m, a])) [] = false := by decide +kernel

/-- validator_test.cpp:221-273, 707-855. -/
example :
    let fixed := Condition.fixedCountUnlessLast
    let f := flagT 1 [long "test1"]
    let a := argT 2 [long "test2"]
    let g := flagT 6 [long "test4"]
    let c := mkCountingFlag .default 7 7 32 [short "a"]
    let p3 := listT 3 [display "test3"]
    let p4 := listT 4 [display "test4"]
    let p5 := listT 5 [display "test5"]
    let counted (mn mx : Nat) : Node := listT 8 [display "test3", .minMaxCount mn mx]
    fixed.holds (.node (anonymous [f, a, p3])) [] = true ∧
    fixed.holds (.node (anonymous [f, a, oneT 3 [display "test3"], p4])) [] = true ∧
    fixed.holds (.node (anonymous [f, a, oneT 3 [display "test3"], counted 3 3, p5])) [] = true ∧
    fixed.holds (.node (anonymous [f, a, c, p4])) [] = true ∧
    fixed.holds (.node (anonymous
      [f, a, listT 3 [display "test3", .tokenEndMarker (b "--")], p4])) [] = true ∧
    fixed.holds (.node (anonymous [f, a, p3, p4])) [] = false ∧
    fixed.holds (.node (anonymous [f, a, p3, g])) [] = false ∧
    fixed.holds (.node (anonymous [f, a, p3, oneT 9 [display "test3"]])) [] = false ∧
    fixed.holds (.node (anonymous [f, a, listT 8 [display "test3", minCount 1], g])) [] = false ∧
    fixed.holds (.node (anonymous [f, a, listT 8 [display "test3", maxCount 1], g])) [] = false ∧
    fixed.holds (.node (anonymous [f, a, counted 1 3, g])) [] = false := by decide +kernel

/-- validator_test.cpp:275-299, 856-870. -/
example :
    let atLeast := Condition.minOneIfRequired
    atLeast.holds (.node (listT 1 [display "test1"])) [] = true ∧
    atLeast.holds (.node (oneT 1 [display "test1"])) [] = true ∧
    atLeast.holds (.node (oneT 1 [.required, display "test1"])) [] = true ∧
    atLeast.holds (.node (listT 1 [.required, display "test1", .minMaxCount 2 100])) [] = true ∧
    atLeast.holds (.node (listT 1 [.required, display "test1"])) [] = false := by decide +kernel

/-! ## Editing the rules -/

/-- The key for long and short names. -/
def names : RuleKey := .anyOf [.policy .longName, .policy .shortName]
/-- The key for arguments. -/
def args : RuleKey := .anyOf [.node .arg]
/-- The key of a type no rule is for. -/
def vector : RuleKey := .anyOf [.policy .dependent]
/-- A rule for it. -/
def vectorRule : Rule := ⟨vector, [.uniqueInOwner]⟩

/-- validator_rule_utilities_test.cpp:16-39. -/
example :
    findRule names defaultRules = 0 ∧
    findRule args defaultRules = 9 ∧
    findRule vector defaultRules = 19 := by decide +kernel

/-- validator_rule_utilities_test.cpp:41-101, 384-399: the result is longer by one and has the rule
at the place. -/
example :
    (insertRule 0 vectorRule defaultRules).map (fun rs => (rs.length, rs[0]?)) =
      some (20, some vectorRule) ∧
    (insertRule 5 vectorRule defaultRules).map (fun rs => (rs.length, rs[5]?)) =
      some (20, some vectorRule) ∧
    (insertRule 19 vectorRule defaultRules).map (fun rs => (rs.length, rs[19]?)) =
      some (20, some vectorRule) ∧
    insertRule 100 vectorRule defaultRules = Option.none := by decide +kernel

/-- The second of the default rules. -/
def noneRule : Rule := ⟨.anyOf [.policy .noneName],
  [.uniqueInOwner, .uniqueToMode [.mode], .parentMustNotHave .longName,
   .parentMustNotHave .shortName, .parentMustNotHave .displayName]⟩
/-- The rule for counting flags. -/
def countingRule : Rule := ⟨.anyOf [.node .countingFlag],
  [.mustNotHave [.noResult, .required, .validator]]⟩

/-- validator_rule_utilities_test.cpp:103-194, 400-416. -/
example :
    (removeRule 0 defaultRules).map (fun rs => (rs.length, rs[0]?)) = some (18, some noneRule) ∧
    (removeRule 9 defaultRules).map (fun rs => (rs.length, rs[11]?)) =
      some (18, some countingRule) ∧
    removeRule 100 defaultRules = Option.none ∧
    (removeRuleByType names defaultRules).length = 18 ∧
    (removeRuleByType names defaultRules)[0]? = some noneRule ∧
    (removeRuleByType args defaultRules).length = 18 ∧
    (removeRuleByType args defaultRules)[11]? = some countingRule ∧
    (removeRuleByType vector defaultRules).length = 19 := by decide +kernel

/-- validator_rule_utilities_test.cpp:196-285, 417-451. -/
example :
    (updateRule 0 vectorRule defaultRules).map (fun rs => (rs.length, rs[0]?)) =
      some (19, some vectorRule) ∧
    (updateRule 8 vectorRule defaultRules).map (fun rs => (rs.length, rs[8]?)) =
      some (19, some vectorRule) ∧
    updateRule 100 vectorRule defaultRules = Option.none ∧
    (updateRuleByType names vectorRule defaultRules).map (fun rs => (rs.length, rs[0]?)) =
      some (19, some vectorRule) ∧
    (updateRuleByType args vectorRule defaultRules).map (fun rs => (rs.length, rs[9]?)) =
      some (19, some vectorRule) ∧
    updateRuleByType vector vectorRule defaultRules = Option.none := by decide +kernel

/-- The rule for names with the further type. -/
def moreNames : Rule :=
  ⟨.anyOf [.policy .longName, .policy .shortName, .policy .dependent],
   [.uniqueInOwner, .uniqueToMode [.mode]]⟩
/-- The rule for arguments with the further type. -/
def moreArgs : Rule :=
  ⟨.anyOf [.node .arg, .policy .dependent], [.mustNotHave [.multiStage, .noResult, .validator]]⟩

/-- validator_rule_utilities_test.cpp:287-382, 452-484. -/
example :
    let t : TypeName := .policy .dependent
    (addToRuleTypes 0 t defaultRules).map (fun rs => (rs.length, rs[0]?)) =
      some (19, some moreNames) ∧
    (addToRuleTypes 9 t defaultRules).map (fun rs => (rs.length, rs[9]?)) =
      some (19, some moreArgs) ∧
    addToRuleTypes 100 t defaultRules = Option.none ∧
    (addToRuleTypesByRule names t defaultRules).map (fun rs => (rs.length, rs[0]?)) =
      some (19, some moreNames) ∧
    (addToRuleTypesByRule args t defaultRules).map (fun rs => (rs.length, rs[9]?)) =
      some (19, some moreArgs) ∧
    addToRuleTypesByRule vector t defaultRules = Option.none := by decide +kernel

end ArgRouter.Tests.Valid
