import Verif.Spec.Route
import Verif.Spec.Sound

/-!
# Specification vocabulary: what is done with the arguments that were read

Which values the arguments given to a mode stand for, which values the router of the mode is called
with, and with which error it is not called. `Out β` is used for "a value, or the way it failed".
-/

namespace ArgRouter.Spec

/-- Two things failed in the same way. -/
inductive SameFailure {α β : Type} : Out α → Out β → Prop
  | throws (e : Exc) : SameFailure (.throw e) (.throw e)
  /-- an exception that is not the library's -/
  | foreign : SameFailure .foreign .foreign
  | undefined : SameFailure .ub .ub
  | forever : SameFailure .diverge .diverge

/-- Something is done with one element after the other, and it stops with the first failure. -/
inductive OneByOne {α β : Type} (does : α → Out β → Prop) : List α → Out (List β) → Prop
  | nothing : OneByOne does [] (.ok [])
  | next {a : α} {as : List α} {x : β} {xs : List β} : does a (.ok x) →
      OneByOne does as (.ok xs) → OneByOne does (a :: as) (.ok (x :: xs))
  | fails {a : α} {as : List α} {o : Out β} {o' : Out (List β)} : does a o → SameFailure o o' →
      OneByOne does (a :: as) o'
  | later {a : α} {as : List α} {x : β} {o o' : Out (List β)} : does a (.ok x) →
      OneByOne does as o → SameFailure o o' → OneByOne does (a :: as) o'

/-- What the node's parser makes of the text: its first custom parser, or, if it has none, the parser
of its value type. -/
inductive Parses (n : Node) (s : Bytes) : Out Scalar → Prop
  | custom {before after : List Policy} {f : Bytes → Out Scalar} :
      n.policies = before ++ .customParser f :: after → (∀ g, .customParser g ∉ before) →
      Parses n s (f s)
  | standard : (∀ f, .customParser f ∉ n.policies) → Parses n s (n.vt.parse s)

/-- What the tokens given to an argument mean: the list of all values, or the value of the first
token, or that of no token. -/
inductive Means (l : Leaf) : Out Value → Prop
  | list {xs : List Scalar} : l.node.vt.isList = true →
      OneByOne (fun t o => Parses l.node t.name o) l.tokens (.ok xs) → Means l (.ok (.many xs))
  | listFails {o : Out (List Scalar)} {o' : Out Value} : l.node.vt.isList = true →
      OneByOne (fun t o => Parses l.node t.name o) l.tokens o → SameFailure o o' → Means l o'
  | one {t : Token} {more : List Token} {x : Scalar} : l.node.vt.isList = false →
      l.tokens = t :: more → Parses l.node t.name (.ok x) → Means l (.ok (.one x))
  | oneFails {t : Token} {more : List Token} {o : Out Scalar} {o' : Out Value} :
      l.node.vt.isList = false → l.tokens = t :: more → Parses l.node t.name o →
      SameFailure o o' → Means l o'
  | nothing : l.node.vt.isList = false → l.tokens = [] → Means l (.ok l.node.vt.zero)

/-- What a policy of a node says about a value: `ok` if it has nothing to say. -/
inductive Says (n : Node) (v : Value) : Policy → Out Unit → Prop
  | tooSmall {lo : Value} {hi : Option Value} {less : Value → Value → Bool} : less v lo = true →
      Says n v (.minMaxValue (some lo) hi less) (.throw ⟨.minimum_value_not_reached, [n.tokenType]⟩)
  | tooLarge {lo : Option Value} {hi : Value} {less : Value → Value → Bool} :
      (∀ x, lo = some x → less v x = false) → less hi v = true →
      Says n v (.minMaxValue lo (some hi) less) (.throw ⟨.maximum_value_exceeded, [n.tokenType]⟩)
  | within {lo hi : Option Value} {less : Value → Value → Bool} :
      (∀ x, lo = some x → less v x = false) → (∀ x, hi = some x → less x v = false) →
      Says n v (.minMaxValue lo hi less) (.ok ())
  | users {tag : Nat} {f : Value → Out Unit} : Says n v (.validation tag f) (f v)
  | indifferent {p : Policy} : (∀ lo hi less, p ≠ .minMaxValue lo hi less) →
      (∀ tag f, p ≠ .validation tag f) → Says n v p (.ok ())

/-- What the policies of a node say about a value: nothing, or what the first says that has something
to say. -/
inductive Judged (n : Node) (v : Value) : Out Unit → Prop
  | fine : (∀ p ∈ n.policies, Says n v p (.ok ())) → Judged n v (.ok ())
  | refused {before after : List Policy} {p : Policy} {o : Out Unit} :
      n.policies = before ++ p :: after → (∀ q ∈ before, Says n v q (.ok ())) → Says n v p o →
      o ≠ .ok () → Judged n v o

/-- A flag, or an argument that takes values (not a mode, group, root or the help). -/
def HasUses (n : Node) : Prop :=
  n.kind = .flag ∨ n.kind = .countingFlag ∨ TakesValues n = true

/-- The value a use of an argument gives. A flag gives `true`. -/
inductive Gives (l : Leaf) : Out Value → Prop
  | flag : l.node.kind = .flag ∨ l.node.kind = .countingFlag → Gives l (.ok (.one (.bool true)))
  | value {v : Value} : TakesValues l.node = true → Means l (.ok v) → Judged l.node v (.ok ()) →
      Gives l (.ok v)
  | unreadable {o o' : Out Value} : TakesValues l.node = true → Means l o → SameFailure o o' →
      Gives l o'
  | refused {v : Value} {o : Out Unit} {o' : Out Value} : TakesValues l.node = true →
      Means l (.ok v) → Judged l.node v o → SameFailure o o' → Gives l o'

/-- In child `c` the use is for the argument `n`: the first of this type in it. -/
def ForArgument (c : Node) (l : Leaf) (n : Node) : Prop :=
  ∃ before after, c.nodes = before ++ n :: after ∧
    (n.kind ≠ .mode ∧ n.hasParse = true ∧ n.hash = l.node.hash) ∧
    ∀ x ∈ before, ¬ (x.kind ≠ .mode ∧ x.hasParse = true ∧ x.hash = l.node.hash)

/-- The use is for argument `n` in child number `i`, which is `c` and has a value. -/
structure ForChild (children : List Node) (l : Leaf) (i : Nat) (c n : Node) : Prop where
  child : IsFor children l i
  at_ : children[i]? = some c
  value : c.hasNoResult = false
  argument : ForArgument c l n

/-- The argument cannot be given more than once. -/
def OnceOnly (n : Node) : Prop := ∀ f, .multiStage f ∉ n.policies

/-- What comes of the value so far and a new one, for an argument that can be given more than once. -/
def Merges (n : Node) (old : Option Value) (v : Value) (new : Option Value) : Prop :=
  ∃ before after f, n.policies = before ++ .multiStage f :: after ∧
    (∀ g, .multiStage g ∉ before) ∧ new = f old v

/-- Change what child number `i` has got. -/
def put (got : Nat → Option Value) (i : Nat) (r : Option Value) : Nat → Option Value :=
  fun j => if j = i then r else got j

/-- What the children have got in the end, if they have got `got` and then these uses follow. -/
inductive Collects (children : List Node) :
    List Leaf → (Nat → Option Value) → Out (Nat → Option Value) → Prop
  | done {got : Nat → Option Value} : Collects children [] got (.ok got)
  /-- a use does not give a value -/
  | fails {l : Leaf} {ls : List Leaf} {got : Nat → Option Value} {o : Out Value}
      {o' : Out (Nat → Option Value)} : Gives l o → SameFailure o o' →
      Collects children (l :: ls) got o'
  /-- nobody wants the value -/
  | ignored {l : Leaf} {ls : List Leaf} {got : Nat → Option Value} {v : Value}
      {o : Out (Nat → Option Value)} : Gives l (.ok v) →
      (∀ i c, IsFor children l i → children[i]? = some c → c.hasNoResult = true) →
      Collects children ls got o → Collects children (l :: ls) got o
  | first {l : Leaf} {ls : List Leaf} {got : Nat → Option Value} {v : Value} {i : Nat} {c n : Node}
      {o : Out (Nat → Option Value)} : Gives l (.ok v) → ForChild children l i c n → OnceOnly n →
      got i = none → Collects children ls (put got i (some v)) o → Collects children (l :: ls) got o
  | again {l : Leaf} {ls : List Leaf} {got : Nat → Option Value} {v w : Value} {i : Nat}
      {c n : Node} : Gives l (.ok v) → ForChild children l i c n → OnceOnly n → got i = some w →
      Collects children (l :: ls) got (.throw ⟨.argument_has_already_been_set, [n.tokenType]⟩)
  | merged {l : Leaf} {ls : List Leaf} {got : Nat → Option Value} {v : Value} {r : Option Value}
      {i : Nat} {c n : Node} {o : Out (Nat → Option Value)} : Gives l (.ok v) →
      ForChild children l i c n → Merges n (got i) v r → Collects children ls (put got i r) o →
      Collects children (l :: ls) got o

/-- The value a child has in the end, from what it has got. -/
inductive Fills (c : Node) : Option Value → Out Value → Prop
  | given {v : Value} : Fills c (some v) (.ok v)
  | missing : MustBeGiven c → Fills c none (.throw ⟨.missing_required_argument, [c.tokenType]⟩)
  | fallback {v : Value} : Fallback c v → Judged c v (.ok ()) → Fills c none (.ok v)
  | refused {v : Value} {o : Out Unit} {o' : Out Value} : Fallback c v → Judged c v o →
      SameFailure o o' → Fills c none o'

/-- The child, or a child of it, can be given more than once. -/
def Repeatable (c : Node) : Prop := ¬ OnceOnly c ∨ ∃ d ∈ c.children, ¬ OnceOnly d

/-- The final check of a value: values that were merged are judged. -/
inductive Checked (c : Node) (v : Value) : Out Unit → Prop
  | merged {o : Out Unit} : Repeatable c → Judged c v o → Checked c v o
  | other : ¬ Repeatable c → Checked c v (.ok ())

/-- The children that have a value, in the order of declaration, with their number. -/
def valued (children : List Node) : List (Node × Nat) :=
  children.zipIdx.filter fun x => !x.1.hasNoResult

/-- What a mode does with these uses of its arguments: the values its router is called with, or how
it fails. First the uses, in the order of the command line, then the children that have a value, in
the order of declaration, then the final check of these. -/
inductive ModeDoes (mode : Node) (uses : List Leaf) : Out (List Value) → Prop
  | useFails {o : Out (Nat → Option Value)} {o' : Out (List Value)} :
      Collects mode.children uses (fun _ => none) o → SameFailure o o' → ModeDoes mode uses o'
  | fillFails {got : Nat → Option Value} {o : Out (List Value)} {o' : Out (List Value)} :
      Collects mode.children uses (fun _ => none) (.ok got) →
      OneByOne (fun x o => Fills x.1 (got x.2) o) (valued mode.children) o → SameFailure o o' →
      ModeDoes mode uses o'
  | checkFails {got : Nat → Option Value} {vals : List Value} {o : Out (List Unit)}
      {o' : Out (List Value)} :
      Collects mode.children uses (fun _ => none) (.ok got) →
      OneByOne (fun x o => Fills x.1 (got x.2) o) (valued mode.children) (.ok vals) →
      OneByOne (fun x o => Checked x.1.1 x.2 o) ((valued mode.children).zip vals) o →
      SameFailure o o' → ModeDoes mode uses o'
  | noRouter {got : Nat → Option Value} {vals : List Value} {us : List Unit} :
      Collects mode.children uses (fun _ => none) (.ok got) →
      OneByOne (fun x o => Fills x.1 (got x.2) o) (valued mode.children) (.ok vals) →
      OneByOne (fun x o => Checked x.1.1 x.2 o) ((valued mode.children).zip vals) (.ok us) →
      .router ∉ mode.policies →
      ModeDoes mode uses (.throw ⟨.mode_requires_arguments, [mode.tokenType]⟩)
  | calls {got : Nat → Option Value} {vals : List Value} {us : List Unit} :
      Collects mode.children uses (fun _ => none) (.ok got) →
      OneByOne (fun x o => Fills x.1 (got x.2) o) (valued mode.children) (.ok vals) →
      OneByOne (fun x o => Checked x.1.1 x.2 o) ((valued mode.children).zip vals) (.ok us) →
      .router ∈ mode.policies → ModeDoes mode uses (.ok vals)

/-- How a run ends that makes these calls or fails: the failure is passed on, and then there was no
call. -/
def ended : Out (List Call) → St → Out Unit × St
  | .ok calls, s => (.ok (), { s with calls := s.calls ++ calls })
  | .throw e, s => (.throw e, s)
  | .foreign, s => (.foreign, s)
  | .ub, s => (.ub, s)
  | .diverge, s => (.diverge, s)

/-- A call of the router of a node with the values. -/
def called (n : Node) : Out (List Value) → Out (List Call)
  | .ok vals => .ok [⟨n.uid, vals⟩]
  | .throw e => .throw e
  | .foreign => .foreign
  | .ub => .ub
  | .diverge => .diverge

end ArgRouter.Spec
