import Verif.Spec.Grown
import Verif.Props.OrderProgram
import Verif.Spec.Help

/-!
# Specification vocabulary: the same arguments, typed in another way
-/

namespace ArgRouter.Spec

/-- A part of a command line that is meant to be one argument of a mode: the first word, the other
words, and the values in them. -/
structure TypedArg where
  /-- the argument, with the number of its child in the mode -/
  argument : Nat × Node
  /-- how the argument was declared -/
  shape : Shape
  word : Bytes
  more : List Bytes
  values : List Token

def TypedArg.words (p : TypedArg) : List Bytes := p.word :: p.more

/-- The words are one whole use of the argument in the mode: a label of the argument with exactly its
values, whatever follows on the command line. Nothing declared before the argument has that label or
takes words without a label. -/
structure TypedArg.Fits (cfg : Config) (mode : Node) (p : TypedArg) : Prop where
  declared : Declared p.argument.2 p.shape
  named : p.argument.2.isNamed = true
  takes : ∀ rest, ∃ follows,
    Labels cfg p.argument.2 p.shape ⟨.none, p.word⟩ (p.more.map (Token.mk .none) ++ rest) follows ∧
      p.shape.values p.argument.2 follows = .ok (p.values, rest)
  first : ∃ before after, arguments mode = before ++ p.argument :: after ∧
    ∀ x ∈ before, x.2.isNamed = true ∧ ¬ Mentions cfg x.2 ⟨.none, p.word⟩

/-- What it means to use the argument: the use of the argument, or of those it is an alias of. -/
def TypedArg.uses (mode : Node) (p : TypedArg) : List Leaf := p.shape.uses mode p.argument.2 p.values

/-- Two arguments on a command line have nothing to do with each other: they are given to different
children of the mode, for values of different children, and neither needs the other. -/
structure Separate (mode : Node) (p q : TypedArg) : Prop where
  children : p.argument.1 ≠ q.argument.1
  values : ∀ x ∈ p.uses mode, ∀ y ∈ q.uses mode, ∀ i, IsFor mode.children x i →
    ¬ IsFor mode.children y i
  needs : ∀ refs, p.shape.needs = some refs → ∀ x ∈ mode.owners refs, ∀ y ∈ q.uses mode,
    y.node.hash ≠ x.hash
  needed : ∀ refs, q.shape.needs = some refs → ∀ x ∈ mode.owners refs, ∀ y ∈ p.uses mode,
    y.node.hash ≠ x.hash

/-- The names lead to the mode, and `rest` is for it: no child of the root that comes before gets the
command line, and what follows the names is not the name of a mode in this one. -/
structure LedTo (cfg : Config) (root mode : Node) (names rest : List Bytes) : Prop where
  way : ∃ before m after, root.children = before ++ m :: after ∧
    Way cfg m (names.map (Token.mk .none)) mode ∧
    ∀ d ∈ before, (d.kind = .mode → d.isAnonymous = false) ∧
      ∀ y ∈ (names ++ rest).head?, ¬ Mentions cfg d ⟨.none, y⟩
  here : NoSubMode cfg mode (rest.map (Token.mk .none))

/-- The words of these parts of a command line. -/
def typed (ps : List TypedArg) : List Bytes := ps.flatMap TypedArg.words

/-- Two runs ended alike: with the same outcome and the same calls, and, if they succeeded, with the
same alternatives chosen. -/
structure EndAlike (x y : Out Unit × St) : Prop where
  outcome : x.1 = y.1
  calls : x.2.calls = y.2.calls
  choices : x.1 = .ok () → ∀ u, x.2.sel.lookup u = y.2.sel.lookup u

/-- The same argument with the same values, perhaps in other words: with another label of it, as in
`-l` for `--level`. -/
structure SameUse (p p' : TypedArg) : Prop where
  argument : p.argument = p'.argument
  shape : p.shape = p'.shape
  values : p.values = p'.values

/-- Two runs that start with the state `s`, where arguments are typed in different words, ended alike;
or both failed because an argument had been given before, and name it as it was typed. -/
inductive OtherWords (s : St) (ps ps' : List TypedArg) (x y : Out Unit × St) : Prop
  | alike : EndAlike x y → OtherWords s ps ps' x y
  | again {p p' : TypedArg} : (p, p') ∈ ps.zip ps' →
      x.1 = .throw ⟨.argument_has_already_been_set, [⟨.none, p.word⟩]⟩ →
      y.1 = .throw ⟨.argument_has_already_been_set, [⟨.none, p'.word⟩]⟩ → x.2.calls = s.calls →
      y.2.calls = s.calls → OtherWords s ps ps' x y

/-- Two runs that start with the state `s`, where two arguments are typed in different order, ended
alike; or both failed, without a call, the one for what is wrong with the one argument (see the run
`first`, of the command line that ends with it) and the other for what is wrong with the other. -/
inductive EitherOrder (s : St) (x y first second : Out Unit × St) : Prop
  | alike : EndAlike x y → EitherOrder s x y first second
  | errors : x.1 ≠ .ok () → y.1 ≠ .ok () → x.1 = first.1 → y.1 = second.1 → x.2.calls = s.calls →
      y.2.calls = s.calls → EitherOrder s x y first second

/-- The argument `p` on the command line of the mode is an optional one, given the value `v` it has
anyway. It is a child of the mode of its own, for one value, and the only one of its type; no other
argument needs it. -/
structure GivesDefault (mode : Node) (p : TypedArg) (v : Value) : Prop where
  optional : Optional p.argument.2 v
  once : OnceOnly p.argument.2
  child : mode.children[p.argument.1]? = some p.argument.2
  noAlias : p.shape.aliasOf = none
  value : Gives ⟨p.argument.2, p.values⟩ (.ok v)
  type : ∀ j d, mode.children[j]? = some d → ∀ x ∈ d.nodes, x.hash = p.argument.2.hash →
    j = p.argument.1
  needed : ∀ a ∈ arguments mode, ∀ refs, .dependent refs ∈ a.2.policies →
    ∀ x ∈ mode.owners refs, x.hash ≠ p.argument.2.hash

/-- It may be given: it needs no other argument, the rest of the command line does not use it, and no
alias stands for it. -/
structure NotGivenElsewhere (cfg : Config) (mode : Node) (p : TypedArg) (others : List Bytes) :
    Prop where
  free : p.shape.needs = none
  unused : Unused cfg others p.argument.2
  noAlias : ∀ a ∈ arguments mode, ∀ refs, .alias refs ∈ a.2.policies →
    ∀ x ∈ namedNodes mode refs, x.hash ≠ p.argument.2.hash

/-- The argument `p` on the command line of the mode is a child of the mode of its own, needs no other
argument, and may be repeated or is not used by the rest of the command line. -/
structure OnItsOwn (cfg : Config) (mode : Node) (others : List Bytes) (p : TypedArg) : Prop where
  child : mode.children[p.argument.1]? = some p.argument.2
  free : p.shape.needs = none
  once : p.argument.2.isMultiStage = true ∨ Unused cfg others p.argument.2

/-- No argument is used twice, but those that may be repeated. -/
def NoneTwice (ps : List TypedArg) : Prop :=
  ps.Pairwise fun p q => p.argument.1 = q.argument.1 → q.argument.2.isMultiStage = true

/-- The argument `p` is an alias, and `qs` are the arguments it stands for, in the order of their
declaration and with the values it is given; they are no aliases. -/
structure StandsFor (mode : Node) (p : TypedArg) (qs : List TypedArg) : Prop where
  isAlias : ∃ refs, p.shape.aliasOf = some refs ∧ qs.map (·.argument.2) = namedNodes mode refs
  values : ∀ q ∈ qs, q.values = p.values ∧ q.shape.aliasOf = none

/-- The same argument, perhaps with other values; it is no alias. -/
structure SameArgument (p p' : TypedArg) : Prop where
  argument : p.argument = p'.argument
  shape : p.shape = p'.shape
  noAlias : p.shape.aliasOf = none

/-- What is in the children of the mode that have an argument of this type can only be given once. -/
def Unrepeated (mode c : Node) : Prop :=
  ∀ d ∈ mode.children, (∃ n ∈ d.nodes, n.hash = c.hash) → ∀ n ∈ d.nodes, OnceOnly n

/-- The use of an argument. -/
def TypedArg.use (p : TypedArg) : Leaf := ⟨p.argument.2, p.values⟩

/-- Two runs that start with the state `s`, where the argument `p` has the value `v` in one and `v'` in the
other: either both fail, in the same way (see `OtherWords`), or both call the router of the mode, with
the values `v` and `v'` where the argument goes, and otherwise with the same values. -/
inductive OtherValue (mode : Node) (s : St) (p p' : TypedArg) (v v' : Value) (x y : Out Unit × St) : Prop
  | failed : x.1 ≠ .ok () → OtherWords s [p] [p'] x y → OtherValue mode s p p' v v' x y
  | called {vals vals' : List Value} : x.1 = .ok () → y.1 = .ok () →
      x.2.calls = s.calls ++ [⟨mode.uid, vals⟩] → y.2.calls = s.calls ++ [⟨mode.uid, vals'⟩] →
      (∀ u, x.2.sel.lookup u = y.2.sel.lookup u) →
      vals.length = (valued mode.children).length → vals'.length = (valued mode.children).length →
      (∀ (k : Nat) (d : Node × Nat), (valued mode.children)[k]? = some d →
        (IsFor mode.children p.use d.2 → vals[k]? = some v ∧ vals'[k]? = some v') ∧
        (¬ IsFor mode.children p.use d.2 → vals[k]? = vals'[k]?)) →
      OtherValue mode s p p' v v' x y

end ArgRouter.Spec
