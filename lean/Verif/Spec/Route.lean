import Verif.Parse.Mode

/-!
# Specification vocabulary: values and who they belong to
-/

/-- The default a policy gives to an argument that is missing: a default value, or the value of a
disabled runtime switch. -/
def ArgRouter.Policy.default? : ArgRouter.Policy → Option ArgRouter.Value
  | .defaultValue v => some v
  | .runtimeEnableRequired false v => some v
  | _ => none

namespace ArgRouter.Spec

/-- The node's parser turns the string into this value: its custom parser if it has one, else the
parser of its value type. -/
def TokenValue (n : Node) (s : Bytes) (x : Scalar) : Prop :=
  (∃ f, .customParser f ∈ n.policies ∧ f s = .ok x) ∨
  ((∀ f, .customParser f ∉ n.policies) ∧ n.vt.parse s = .ok x)

/-- The value a use of an argument on the command line stands for: `true` for a flag; the value of
its one token, or of none; or the list of the values of its tokens, in their order. -/
def UseValue (l : Leaf) (v : Value) : Prop :=
  match l.node.kind with
  | .flag | .countingFlag => v = .one (.bool true)
  | .arg | .multiArg | .positional | .forwarding =>
    if l.node.vt.isList then
      ∃ xs, v = .many xs ∧ xs.length = l.tokens.length ∧
        ∀ (i : Nat) (t : Token) (x : Scalar), l.tokens[i]? = some t → xs[i]? = some x →
          TokenValue l.node t.name x
    else
      (l.tokens = [] ∧ v = l.node.vt.zero) ∨
      ∃ t more x, l.tokens = t :: more ∧ v = .one x ∧ TokenValue l.node t.name x
  | _ => False

/-- The value respects the bounds of the node. -/
def InBounds (n : Node) (v : Value) : Prop :=
  ∀ lo hi less, .minMaxValue lo hi less ∈ n.policies →
    (∀ x, lo = some x → less v x = false) ∧ (∀ x, hi = some x → less x v = false)

/-- No policy of the user's on the node objects to the value. -/
def Approved (n : Node) (v : Value) : Prop := ∀ tag f, .validation tag f ∈ n.policies → f v = .ok ()

/-- The node contains an argument of this type (a node that is not a mode). -/
def Contains (c : Node) (hash : Nat) : Prop :=
  ∃ n ∈ c.nodes, n.kind ≠ .mode ∧ n.hasParse = true ∧ n.hash = hash

/-- The use of an argument is for child number `i` of the mode: it is the first that contains an
argument of this type. -/
def IsFor (children : List Node) (l : Leaf) (i : Nat) : Prop :=
  (∃ c, children[i]? = some c ∧ Contains c l.node.hash) ∧
  ∀ (j : Nat) (c : Node), j < i → children[j]? = some c → ¬ Contains c l.node.hash

/-- Nothing on the command line is for child number `i`. -/
def NotGiven (children : List Node) (uses : List Leaf) (i : Nat) : Prop :=
  ∀ l ∈ uses, ¬ IsFor children l i

/-- The only thing on the command line that is for child number `i` is the use `l`. -/
def GivenOnce (children : List Node) (uses : List Leaf) (i : Nat) (l : Leaf) : Prop :=
  ∃ before after, uses = before ++ l :: after ∧ IsFor children l i ∧
    (∀ x ∈ before, ¬ IsFor children x i) ∧ ∀ x ∈ after, ¬ IsFor children x i

/-- The node must be given. -/
def MustBeGiven (n : Node) : Prop :=
  .required ∈ n.policies ∨ ∃ v, .runtimeEnableRequired true v ∈ n.policies

/-- The defaults of a node, in declaration order. -/
def defaults (n : Node) : List Value :=
  n.policies.filterMap Policy.default?

/-- What a child that is not given gets: it must not be a required one; the value is its (last)
default, or a default-constructed value. -/
def Fallback (n : Node) (v : Value) : Prop :=
  ¬ MustBeGiven n ∧ v = (defaults n).getLast?.getD n.vt.zero

end ArgRouter.Spec

namespace ArgRouter.Spec

/-- The number of children that have a value: these are the parameters of the router. -/
def parameters (children : List Node) : Nat := (children.filter fun c => !c.hasNoResult).length

/-- Which parameter of the router child number `i` is: as many as there are children with a value
declared before it. -/
def position (children : List Node) (i : Nat) : Nat := parameters (children.take i)

/-- The router of the mode was called last, with these arguments. -/
def RoutedWith (mode : Node) (s : St) (args : List Value) : Prop :=
  s.calls.getLast? = some ⟨mode.uid, args⟩

open Classical in
/-- The uses that are for child number `i`, in the order of the command line. -/
noncomputable def usesOf (children : List Node) (uses : List Leaf) (i : Nat) : List Leaf :=
  uses.filter fun l => IsFor children l i

end ArgRouter.Spec
