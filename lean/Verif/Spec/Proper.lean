import Verif.Spec.Typed

/-!
# Specification vocabulary: a proper command line
-/

namespace ArgRouter.Spec

/-- The words are the values of a positional argument, at the end of a command line. No argument
declared before it has the first of them as a label or takes words without a label. -/
structure TypedArg.AtTheEnd (cfg : Config) (mode : Node) (p : TypedArg) : Prop where
  declared : Declared p.argument.2 p.shape
  positional : p.argument.2.isNamed = false
  unmarked : p.shape.marker = none
  count : p.shape.min ≤ p.words.length ∧ p.words.length ≤ p.shape.max
  values : p.values = p.words.map (Token.mk .none)
  first : ∃ before after, arguments mode = before ++ p.argument :: after ∧
    ∀ x ∈ before, x.2.isNamed = true ∧ ¬ Mentions cfg x.2 ⟨.none, p.word⟩

/-- These arguments may be typed together: each is typed as it is declared, none that can be given only
once is given twice, those that an argument needs come before it, and of a `one_of` only one alternative
is chosen (also before, see C15). -/
structure Proper (cfg : Config) (mode : Node) (chosen : Choices) (ps : List TypedArg) : Prop where
  typed : ∀ before p after, ps = before ++ p :: after →
    p.Fits cfg mode ∨ after = [] ∧ p.AtTheEnd cfg mode
  once : ps.Pairwise fun p q => p.argument.1 = q.argument.1 →
    p.argument = q.argument ∧ ¬ OnceOnly q.argument.2
  needs : ∀ before p after, ps = before ++ p :: after → ∀ refs, p.shape.needs = some refs →
    ∀ x ∈ mode.owners refs, ∃ q ∈ before, q.argument.2.hash = x.hash
  alternatives : ∀ p ∈ ps, ∀ o, ¬ Clashes mode chosen p.argument o
  /-- it is not an alias, and the first argument of its type in the mode -/
  own : ∀ p ∈ ps, p.shape.aliasOf = none ∧ IsFor mode.children p.use p.argument.1 ∧
    ∀ c, mode.children[p.argument.1]? = some c → ForArgument c p.use p.argument.2

/-- What comes of these uses of a child, one after the other, and what it has got before. -/
inductive Adds : List TypedArg → Option Value → Option Value → Prop
  | nothing {r : Option Value} : Adds [] r r
  | once {p : TypedArg} {ps : List TypedArg} {v : Value} {r : Option Value} : OnceOnly p.argument.2 →
      Gives p.use (.ok v) → Adds ps (some v) r → Adds (p :: ps) none r
  | more {p : TypedArg} {ps : List TypedArg} {v : Value} {r r' r'' : Option Value} :
      Gives p.use (.ok v) → Merges p.argument.2 r v r' → Adds ps r' r'' → Adds (p :: ps) r r''

/-- The value the child has if these arguments are typed: what comes of those that are for this child, or
its default. -/
inductive HasValue (ps : List TypedArg) (child : Node × Nat) : Value → Prop
  | typed {v : Value} : Adds (ps.filter fun p => p.argument.1 == child.2) none (some v) →
      Checked child.1 v (.ok ()) → HasValue ps child v
  | default {v : Value} : Adds (ps.filter fun p => p.argument.1 == child.2) none none →
      Fallback child.1 v → Judged child.1 v (.ok ()) → HasValue ps child v

end ArgRouter.Spec
