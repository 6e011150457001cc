import Verif.Props.Suggest
import Verif.Help.Program

/-!
# Specification vocabulary: what an error may say

An error is a code and a list of tokens, which are put into the message. What tokens may be reported
with which code.
-/

namespace ArgRouter.Spec

/-- The token is an argument of the command line, or a part of one. -/
def Typed (argv : List Bytes) (t : Token) : Prop := ∃ a ∈ argv, t.name <:+: a

/-- The errors that make sense for a program and a command line: what is reported is a part of the
command line, or the name of an argument that the error can be about. -/
inductive Blames (root : Node) (argv : List Bytes) : Exc → Prop
  /-- nothing was passed (or an empty argument) -/
  | nothing : argv.headD [] = [] → Blames root argv ⟨.no_arguments_passed, []⟩
  /-- an argument nobody knows -/
  | unknown {t : Token} : Typed argv t → Blames root argv ⟨.unknown_argument, [t]⟩
  /-- the same, with the path to an argument that is switched on -/
  | suggestion {t name : Token} {start n : Node} {ps : List Node} : Typed argv t →
      start ∈ root.nodes → Suggestible start n ps name →
      Blames root argv ⟨.unknown_argument_with_suggestion,
        t :: ((ps.dropLast.map Node.tokenType).reverse ++ [name])⟩
  /-- arguments left over -/
  | unhandled {ts : List Token} : ts ≠ [] → (∀ t ∈ ts, Typed argv t) →
      Blames root argv ⟨.unhandled_arguments, ts⟩
  /-- an argument given again, as it was typed -/
  | repeated {t : Token} : Typed argv t → Blames root argv ⟨.argument_has_already_been_set, [t]⟩
  /-- an argument that has a value already, through an alias or a group -/
  | valued {n : Node} : n ∈ root.nodes → n.hasParse = true → n.isMultiStage = false →
      Blames root argv ⟨.argument_has_already_been_set, [n.tokenType]⟩
  /-- a value that is not one of its type -/
  | value {t : Token} : Typed argv t → t.pre = .none → Blames root argv ⟨.failed_to_parse, [t]⟩
  /-- an argument that needs a separator -/
  | separator {n : Node} {s : Bytes} : n ∈ root.nodes → .valueSeparator s ∈ n.policies →
      Blames root argv ⟨.missing_value_separator, [n.tokenType]⟩
  /-- an argument with a least count -/
  | few {n : Node} {mn mx : Nat} : n ∈ root.nodes → .minMaxCount mn mx ∈ n.policies →
      Blames root argv ⟨.minimum_count_not_reached, [n.tokenType]⟩
  /-- an argument with a greatest count and an end marker -/
  | many {n : Node} {mn mx : Nat} : n ∈ root.nodes → .minMaxCount mn mx ∈ n.policies →
      n.hasTokenEndMarker = true → Blames root argv ⟨.maximum_count_exceeded, [n.tokenType]⟩
  /-- an argument with a least value -/
  | low {n : Node} {lo : Value} {hi : Option Value} {less : Value → Value → Bool} :
      n ∈ root.nodes → .minMaxValue (some lo) hi less ∈ n.policies →
      Blames root argv ⟨.minimum_value_not_reached, [n.tokenType]⟩
  /-- an argument with a greatest value -/
  | high {n : Node} {lo : Option Value} {hi : Value} {less : Value → Value → Bool} :
      n ∈ root.nodes → .minMaxValue lo (some hi) less ∈ n.policies →
      Blames root argv ⟨.maximum_value_exceeded, [n.tokenType]⟩
  /-- a value that a policy of the user's objects to, with the error it throws -/
  | objection {n : Node} {tag : Nat} {f : Value → Out Unit} {v : Value} {e : Exc} :
      n ∈ root.nodes → .validation tag f ∈ n.policies → f v = .throw e → Blames root argv e
  /-- an alias -/
  | alias {n : Node} {refs : List NameRef} : n ∈ root.nodes → .alias refs ∈ n.policies →
      Blames root argv ⟨.too_few_values_for_alias, [n.tokenType]⟩
  /-- an argument that another one depends on -/
  | dependent {n m : Node} {refs : List NameRef} {r : NameRef} : n ∈ root.nodes →
      .dependent refs ∈ n.policies → m ∈ root.nodes → r ∈ refs → r ∈ m.nameRefs →
      Blames root argv ⟨.dependent_argument_missing, [m.tokenType]⟩
  /-- a required argument -/
  | missing {n : Node} : n ∈ root.nodes →
      (.required ∈ n.policies ∨ ∃ v, .runtimeEnableRequired true v ∈ n.policies) →
      Blames root argv ⟨.missing_required_argument, [n.tokenType]⟩
  /-- a mode that cannot be run itself -/
  | mode {n : Node} : n ∈ root.nodes → n.kind = .mode → n.hasRouter = false →
      Blames root argv ⟨.mode_requires_arguments, [n.tokenType]⟩
  /-- a `one_of` -/
  | oneOf {n : Node} : n ∈ root.nodes → n.kind = .oneOf →
      Blames root argv ⟨.one_of_selected_type_mismatch, [n.tokenType]⟩

/-- A parser that reports nothing but that the value it is given is not one of its type. The parsers of
the library are such (`Props/Blame.lean`); those of the user should be. -/
def OwnValue (f : Bytes → Out Scalar) : Prop :=
  ∀ s e, f s = .throw e → e = ⟨.failed_to_parse, [⟨.none, s⟩]⟩

/-- A help formatter that reports nothing but that one of the names it is given is unknown. -/
def OwnNames (f : List Token → Out Bytes) : Prop :=
  ∀ ts e, f ts = .throw e → ∃ t ∈ ts, e = ⟨.unknown_argument, [t]⟩

/-- The functions in a program report only what they are given. -/
structure Reports (root : Node) : Prop where
  parser : ∀ n ∈ root.nodes, OwnValue n.vt.parse
  custom : ∀ n ∈ root.nodes, ∀ f, .customParser f ∈ n.policies → OwnValue f
  help : ∀ n ∈ root.nodes, ∀ f, .helpText f ∈ n.policies → OwnNames f

end ArgRouter.Spec
