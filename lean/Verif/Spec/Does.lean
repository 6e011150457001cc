import Verif.Spec.Outcome
import Verif.Props.Suggest
import Verif.Props.Whole

/-!
# Specification vocabulary: what a program does with the reading of a command line
-/

namespace ArgRouter.Spec

/-- What is reported about an argument `t` nobody below `start` knows. -/
inductive Suggests (cfg : Config) (start : Node) (t : Token) : Out (List Call) → Prop
  /-- there is no name to suggest (or only some that are 2^64 - 1 or more characters away) -/
  | unknown {x : Bytes} : BareName cfg t x →
      (∀ n ps name, Suggestible start n ps name → ∃ d, Distance x name.name d ∧ sizeMax ≤ d) →
      Suggests cfg start t (.throw ⟨.unknown_argument, [t]⟩)
  /-- a name is suggested, and none is closer; the names of the modes it is in come first -/
  | closest {x : Bytes} {n : Node} {ps : List Node} {name : Token} {d : Nat} : BareName cfg t x →
      Suggestible start n ps name → Distance x name.name d →
      (∀ n' ps' name', Suggestible start n' ps' name' → ∃ d', Distance x name'.name d' ∧ d ≤ d') →
      Suggests cfg start t (.throw ⟨.unknown_argument_with_suggestion,
        t :: ((ps.dropLast.map Node.tokenType).reverse ++ [name])⟩)
  /-- a name cannot be compared, because it or the argument is not proper text (see C80): this is
  not an error the library reports -/
  | malformed {x : Bytes} {n : Node} {ps : List Node} {name : Token} {o : Out (List Call)} :
      BareName cfg t x → Suggestible start n ps name → (∀ d, ¬ Distance x name.name d) →
      (∀ e, o ≠ .throw e) → (∀ calls, o ≠ .ok calls) → Suggests cfg start t o

/-- The text that a help node shows. -/
inductive Shows (n : Node) (ts : List Token) : Out Bytes → Prop
  | text {before after : List Policy} {f : List Token → Out Bytes} :
      n.policies = before ++ .helpText f :: after → (∀ g, .helpText g ∉ before) → Shows n ts (f ts)
  | nothing : (∀ f, .helpText f ∉ n.policies) → Shows n ts (.ok [])

/-- What the use of an argument directly below the root does: which router it calls, or how it
fails. -/
inductive ArgumentDoes (l : Leaf) : Out (List Call) → Prop
  /-- the help text is shown -/
  | help {text : Bytes} : l.node.kind = .help → Shows l.node l.tokens (.ok text) →
      ArgumentDoes l (.ok [⟨l.node.uid, [.one (.str text)]⟩])
  | helpFails {o : Out Bytes} {o' : Out (List Call)} : l.node.kind = .help →
      Shows l.node l.tokens o → SameFailure o o' → ArgumentDoes l o'
  | fails {o : Out Value} {o' : Out (List Call)} : Gives l o → SameFailure o o' →
      ArgumentDoes l o'
  | calls {v : Value} : Gives l (.ok v) → l.node.kind ≠ .countingFlag →
      .router ∈ l.node.policies → ArgumentDoes l (.ok [⟨l.node.uid, [v]⟩])
  | silent {v : Value} : Gives l (.ok v) →
      (l.node.kind = .countingFlag ∨ .router ∉ l.node.policies) → ArgumentDoes l (.ok [])

/-- What a program does with the reading of a command line: which routers it calls, or how it
fails. -/
inductive VerdictDoes (cfg : Config) (root : Node) : Verdict → Out (List Call) → Prop
  | argument {l : Leaf} {o : Out (List Call)} : ArgumentDoes l o →
      VerdictDoes cfg root (.answer (.uses l)) o
  | mode {mode : Node} {uses : List Leaf} {chosen : Choices} {o : Out (List Value)} :
      ModeDoes mode uses o →
      VerdictDoes cfg root (.answer (.reads mode (.accepts uses) chosen)) (called mode o)
  | modeFails {mode : Node} {e : Exc} {chosen : Choices} :
      VerdictDoes cfg root (.answer (.reads mode (.fails e) chosen)) (.throw e)
  | modeUnknown {mode : Node} {t : Token} {chosen : Choices} {o : Out (List Call)} :
      Suggests cfg mode t o → VerdictDoes cfg root (.answer (.reads mode (.unknown t) chosen)) o
  | fails {e : Exc} : VerdictDoes cfg root (.answer (.fails e)) (.throw e)
  | nothing : VerdictDoes cfg root .noArguments (.throw ⟨.no_arguments_passed, []⟩)
  | unknown {t : Token} {o : Out (List Call)} : Suggests cfg root t o →
      VerdictDoes cfg root (.unknown t) o

/-- The reading does not end with an argument nobody knows. -/
def Verdict.known : Verdict → Prop
  | .unknown _ => False
  | .answer (.reads _ (.unknown _) _) => False
  | _ => True

/-- The alternatives that are remembered after the reading. -/
def Verdict.choices (before : Choices) : Verdict → Choices
  | .answer (.reads _ _ chosen) => chosen
  | _ => before

end ArgRouter.Spec
