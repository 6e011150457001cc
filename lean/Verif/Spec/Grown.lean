import Verif.Spec.Reading
import Verif.Spec.Outcome

/-!
# Specification vocabulary: a program with a new argument

The author of a program adds an optional argument to one of its modes. Users go on with the command
lines they have always used.
-/

namespace ArgRouter.Spec

open Utf8

/-- The tokens a command line can be made of: what was typed, and the short flags in it if it is
taken for collapsed short flags. -/
inductive Arises (cfg : Config) (argv : List Bytes) : Token → Prop
  | typed {x : Bytes} : x ∈ argv → Arises cfg argv ⟨.none, x⟩
  | part {t : Token} {x g : Bytes} {gs : List Bytes} : Arises cfg argv t → ShortText cfg t x →
      graphemes x = .ok gs → g ∈ gs → Arises cfg argv ⟨.short, g⟩

/-- The token is for the argument: it is its label, its label with a value after the separator, or
collapsed short flags that begin with it. -/
def Mentions (cfg : Config) (c : Node) (t : Token) : Prop :=
  IsLabel cfg c t ∨
  (∃ l ch v, t.name = l ++ ch :: v ∧ .valueSeparator [ch] ∈ c.policies ∧
    IsLabel cfg c ⟨t.pre, l⟩) ∨
  ∃ x g gs, .shortFormExpander ∈ c.policies ∧ ShortText cfg t x ∧ graphemes x = .ok (g :: gs) ∧
    c.shortName = some g

/-- The argument is one of the router, and may be left out; then its value is `v`. -/
structure Optional (c : Node) (v : Value) : Prop where
  leaf : c.kind ≠ .mode ∧ c.kind ≠ .aliasGroup ∧ c.kind ≠ .oneOf
  single : c.children = []
  value : c.hasNoResult = false
  fallback : Fallback c v
  fine : Judged c v (.ok ())

/-- The argument has nothing to do with the program: no argument of the program has its type, and no
alias or dependency in it names the argument. -/
structure Unrelated (root : Node) (c : Node) : Prop where
  type : ∀ x ∈ root.nodes, x.hash ≠ c.hash
  names : ∀ x ∈ root.nodes, ∀ refs, .alias refs ∈ x.policies ∨ .dependent refs ∈ x.policies →
    ¬ NamedIn refs c

/-- The second tree is the first, which is a mode, with the argument `c` added to it or to a mode in
it. This is the mode `uid`, and there `k` arguments of the router come before it. (A mode with other
children has another type.) -/
inductive AddedTo (c : Node) (uid : Nat) : (k : Nat) → Node → Node → Prop
  | here {h h' : Nat} {v : ValueType} {p : List Policy} {before after : List Node} :
      AddedTo c uid (parameters before) (.mk .mode uid h v p (before ++ after))
        (.mk .mode uid h' v p (before ++ c :: after))
  | inside {k u h h' : Nat} {v : ValueType} {p : List Policy} {before after : List Node}
      {d d' : Node} : AddedTo c uid k d d' →
      AddedTo c uid k (.mk .mode u h v p (before ++ d :: after))
        (.mk .mode u h' v p (before ++ d' :: after))

/-- The same nodes, but where there was a help node there is another (its text is that of another
program). -/
inductive SameButHelp : List Node → List Node → Prop
  | nil : SameButHelp [] []
  | same {c : Node} {cs ds : List Node} : SameButHelp cs ds → SameButHelp (c :: cs) (c :: ds)
  | help {c d : Node} {cs ds : List Node} : c.kind = .help → d.kind = .help → SameButHelp cs ds →
      SameButHelp (c :: cs) (d :: ds)

/-- The second program is the first with the argument `c` added to its mode `uid`, after `k`
arguments of the router. -/
def Grown (c : Node) (uid k : Nat) (root root' : Node) : Prop :=
  ∃ before before' m m' after after', root.children = before ++ m :: after ∧
    root'.children = before' ++ m' :: after' ∧ SameButHelp before before' ∧
    SameButHelp after after' ∧ AddedTo c uid k m m'

/-- The command line has a token for a help node of the program. -/
def AsksForHelp (cfg : Config) (root : Node) (argv : List Bytes) : Prop :=
  ∃ d ∈ root.children, d.kind = .help ∧ ∃ x ∈ argv, Mentions cfg d ⟨.none, x⟩

/-- Objects of the same type are of the same class. -/
def TypesHaveClasses (root root' : Node) : Prop :=
  ∀ x, x ∈ root.nodes ∨ x ∈ root'.nodes → ∀ y, y ∈ root.nodes ∨ y ∈ root'.nodes →
    x.hash = y.hash → x.kind = y.kind

/-- The calls of the grown program: those of the old one, but the router of the mode `uid` gets the
value `v` as well, after `k` others. -/
inductive SameCalls (uid k : Nat) (v : Value) : List Call → List Call → Prop
  | same {calls : List Call} : (∀ x ∈ calls, x.node ≠ uid) → SameCalls uid k v calls calls
  | widened {front back : List Value} : front.length = k →
      SameCalls uid k v [⟨uid, front ++ back⟩] [⟨uid, front ++ v :: back⟩]

/-- Errors about what nobody wants: an argument that is unknown, or is too many. -/
def NobodyWants (e : Exc) : Prop :=
  e.ec = .unknown_argument ∨ e.ec = .unknown_argument_with_suggestion ∨
    e.ec = .unhandled_arguments

/-- The run ended because of something nobody wants. (What comes of the search for a suggestion if
the names are not text is not a call of a router.) -/
def Lost (o : Out Unit) : Prop := o ≠ .ok () ∧ ∀ e, o = .throw e → NobodyWants e

/-- The second of two runs that start with the state `s` is like the first, where the calls are those
of the grown program, or both ended because of something nobody wants. -/
inductive SameRun (uid k : Nat) (v : Value) (s : St) : Out Unit × St → Out Unit × St → Prop
  | called {calls calls' : List Call} {sel : List (Nat × Nat)} : SameCalls uid k v calls calls' →
      SameRun uid k v s (.ok (), ⟨sel, s.calls ++ calls⟩) (.ok (), ⟨sel, s.calls ++ calls'⟩)
  | failed {o : Out Unit} {s1 : St} : o ≠ .ok () → SameRun uid k v s (o, s1) (o, s1)
  | lost {o o' : Out Unit} {s1 : St} : Lost o → Lost o' → SameRun uid k v s (o, s1) (o', s1)

/-- The second program is the first with a new optional argument `c`, whose value is `v` if it is
not given; no help is asked for. The router of the mode `uid` gets the new value after `k` others. -/
structure Upgrade (cfg : Config) (argv : List Bytes) (c : Node) (v : Value) (uid k : Nat)
    (root root' : Node) : Prop where
  grown : Grown c uid k root root'
  optional : Optional c v
  unrelated : Unrelated root c
  types : TypesHaveClasses root root'
  /-- the objects of the program are different ones -/
  objects : (root.nodes.map Node.uid).Nodup
  noHelp : ¬ AsksForHelp cfg root argv ∧ ¬ AsksForHelp cfg root' argv

/-- The argument has a name, and the command line does not use it. -/
structure Unused (cfg : Config) (argv : List Bytes) (c : Node) : Prop where
  named : c.isNamed = true
  unmentioned : ∀ t, Arises cfg argv t → ¬ Mentions cfg c t

/-- The second program is the first with a new argument or mode `x` directly below the root, which has
a name; no help is asked for. -/
structure Extension (cfg : Config) (argv : List Bytes) (x root root' : Node) : Prop where
  children : ∃ before before' after after', root.children = before ++ after ∧
    root'.children = before' ++ x :: after' ∧ SameButHelp before before' ∧ SameButHelp after after'
  named : x.kind = .mode → x.isAnonymous = false
  noHelp : ¬ AsksForHelp cfg root argv ∧ ¬ AsksForHelp cfg root' argv

end ArgRouter.Spec
