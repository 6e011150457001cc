import Verif.Spec.Grown

/-!
# Specification vocabulary: the same program, declared in another order
-/

namespace ArgRouter.Spec

/-- No command line can begin with a token that is for two children of the root. -/
def OnePerToken (cfg : Config) (root : Node) : Prop :=
  ∀ y c d, c ∈ root.children → d ∈ root.children → Mentions cfg c ⟨.none, y⟩ →
    Mentions cfg d ⟨.none, y⟩ → c = d

/-- An anonymous mode is the last child. -/
def AnonymousLast (root : Node) : Prop :=
  ∀ before m after, root.children = before ++ m :: after → m.kind = .mode →
    m.isAnonymous = true → after = []

/-- The second program has the children of the first, in another order (and another help); no help
is asked for. -/
structure Rearranged (cfg : Config) (argv : List Bytes) (root root' : Node) : Prop where
  children : ∃ l, root.children.Perm l ∧ SameButHelp l root'.children
  apart : OnePerToken cfg root
  last : AnonymousLast root ∧ AnonymousLast root'
  noHelp : ¬ AsksForHelp cfg root argv ∧ ¬ AsksForHelp cfg root' argv

/-- The second tree is the first, which is a mode, with the neighbours `c` and `d` of it or of a mode in
it in the other order. This is the mode `uid`, and there `k` arguments of the router come before
them. (A mode with other children has another type.) -/
inductive SwappedIn (c d : Node) (uid : Nat) : (k : Nat) → Node → Node → Prop
  | here {h h' : Nat} {v : ValueType} {p : List Policy} {before after : List Node} :
      SwappedIn c d uid (parameters before) (.mk .mode uid h v p (before ++ c :: d :: after))
        (.mk .mode uid h' v p (before ++ d :: c :: after))
  | inside {k u h h' : Nat} {v : ValueType} {p : List Policy} {before after : List Node}
      {m m' : Node} : SwappedIn c d uid k m m' →
      SwappedIn c d uid k (.mk .mode u h v p (before ++ m :: after))
        (.mk .mode u h' v p (before ++ m' :: after))

/-- Two arguments, or groups of arguments, with values for the router. They have nothing to do with
each other: all have names, no token of the command line is for both, they are of different types, and
no alias stands for both and no argument needs both. -/
structure Independent (cfg : Config) (argv : List Bytes) (root c d : Node) : Prop where
  arguments : c.kind ≠ .mode ∧ d.kind ≠ .mode
  values : c.hasNoResult = false ∧ d.hasNoResult = false
  named : (∀ x ∈ members c, x.isNamed = true) ∧ ∀ y ∈ members d, y.isNamed = true
  apart : ∀ t, Arises cfg argv t → ∀ x ∈ members c, ∀ y ∈ members d, Mentions cfg x t →
    ¬ Mentions cfg y t
  types : ∀ x ∈ c.nodes, ∀ y ∈ d.nodes, x.hash ≠ y.hash
  names : ∀ z ∈ root.nodes, ∀ refs, .alias refs ∈ z.policies ∨ .dependent refs ∈ z.policies →
    ∀ x ∈ c.nodes, ∀ y ∈ d.nodes, NamedIn refs x → ¬ NamedIn refs y

/-- The second program is the first with the neighbours `c` and `d` of the mode `uid` in the other
order (and another help); no help is asked for. -/
structure Swapped (cfg : Config) (argv : List Bytes) (c d : Node) (uid k : Nat)
    (root root' : Node) : Prop where
  swapped : ∃ before before' m m' after after', root.children = before ++ m :: after ∧
    root'.children = before' ++ m' :: after' ∧ SameButHelp before before' ∧
    SameButHelp after after' ∧ SwappedIn c d uid k m m'
  independent : Independent cfg argv root c d
  types : TypesHaveClasses root root'
  /-- the objects of the program are different ones -/
  objects : (root.nodes.map Node.uid).Nodup
  noHelp : ¬ AsksForHelp cfg root argv ∧ ¬ AsksForHelp cfg root' argv

/-- An error that child `c` of a mode causes: it is missing, or a value of it is refused. -/
def CausedBy (c : Node) (o : Out Unit) : Prop :=
  (MustBeGiven c ∧ o = .throw ⟨.missing_required_argument, [c.tokenType]⟩) ∨
    ∃ v, Judged c v o ∧ o ≠ .ok ()

/-- The same calls, but the router of the mode `uid` gets the values after the first `k` in the other
order. -/
inductive SwappedCalls (uid k : Nat) : List Call → List Call → Prop
  | same {calls : List Call} : (∀ x ∈ calls, x.node ≠ uid) → SwappedCalls uid k calls calls
  | swapped {front back : List Value} {v w : Value} : front.length = k →
      SwappedCalls uid k [⟨uid, front ++ v :: w :: back⟩] [⟨uid, front ++ w :: v :: back⟩]

/-- The second of two runs that start with the state `s` is like the first, but for the order of two
values; or both ended because of something nobody wants; or both `c` and `d` cause errors, and the
first run reports that of `c` and the second that of `d`. -/
inductive SwappedRun (c d : Node) (uid k : Nat) (s : St) : Out Unit × St → Out Unit × St → Prop
  | called {calls calls' : List Call} {sel : List (Nat × Nat)} : SwappedCalls uid k calls calls' →
      SwappedRun c d uid k s (.ok (), ⟨sel, s.calls ++ calls⟩) (.ok (), ⟨sel, s.calls ++ calls'⟩)
  | failed {o : Out Unit} {s1 : St} : o ≠ .ok () → SwappedRun c d uid k s (o, s1) (o, s1)
  | lost {o o' : Out Unit} {s1 : St} : Lost o → Lost o' →
      SwappedRun c d uid k s (o, s1) (o', s1)
  | both {o o' : Out Unit} {s1 : St} : CausedBy c o → CausedBy d o' →
      SwappedRun c d uid k s (o, s1) (o', s1)

end ArgRouter.Spec
