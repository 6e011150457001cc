import Verif.Valid.Asserts
import Verif.Props.Cyclic
import Verif.Spec.Links
import Verif.Spec.Conditions

/-!
# What the reference asks of nodes and policies

The restrictions that the documentation of the node classes and the policies states, and the messages
of their static assertions. (What a validator asks in addition is in `Spec/Conditions`.)
-/

namespace ArgRouter.Spec

/-- The phases of parsing, docs/related_pages/policies.doxy. -/
inductive Phase where
  | preParse | parse | validation | routing | missing

/-- Which policies take part in which phase. -/
inductive TakesPart : Policy → Phase → Prop where
  | alias (refs : List NameRef) : TakesPart (.alias refs) .preParse
  | dependent (refs : List NameRef) : TakesPart (.dependent refs) .preParse
  | minMaxCount (mn mx : Nat) : TakesPart (.minMaxCount mn mx) .preParse
  | runtimeEnable (e : Bool) : TakesPart (.runtimeEnable e) .preParse
  | runtimeEnableRequired (e : Bool) (v : Value) :
      TakesPart (.runtimeEnableRequired e v) .preParse
  | shortFormExpander : TakesPart .shortFormExpander .preParse
  | tokenEndMarker (s : Bytes) : TakesPart (.tokenEndMarker s) .preParse
  | valueSeparator (s : Bytes) : TakesPart (.valueSeparator s) .preParse
  | customParser (f : Bytes → Out Scalar) : TakesPart (.customParser f) .parse
  | minMaxValue (lo hi : Option Value) (less : Value → Value → Bool) :
      TakesPart (.minMaxValue lo hi less) .validation
  | validation (t : Nat) (f : Value → Out Unit) : TakesPart (.validation t f) .validation
  | router : TakesPart .router .routing
  | defaultValue (v : Value) : TakesPart (.defaultValue v) .missing
  | required : TakesPart .required .missing
  | runtimeEnableRequiredMissing (e : Bool) (v : Value) :
      TakesPart (.runtimeEnableRequired e v) .missing

/-- The node has a policy of this form. -/
def HasOne {α : Type} (n : Node) (f : α → Policy) : Prop := ∃ x, f x ∈ n.policies

/-- The node has a policy that takes part in the phase. -/
def Has (n : Node) (ph : Phase) : Prop := ∃ p ∈ n.policies, TakesPart p ph

/-- `utf8::count`: the text has this many user-perceived characters (C96 says which they are). -/
def Characters (s : Bytes) (k : Nat) : Prop := ∃ gs, Utf8.graphemes s = .ok gs ∧ gs.length = k

/-- `!utf8::contains_whitespace` (C39 says what that means). -/
def NoBlanks (s : Bytes) : Prop := Utf8.containsWhitespace s = .ok false

/-- What the reference asks of a policy itself. -/
inductive PolicyRule (cfg : Config) : Policy → Prop where
  /-- longer than one character, no whitespace -/
  | longName {s k} : Characters s k → 1 < k → NoBlanks s → PolicyRule cfg (.longName s)
  /-- one character; with the prefix it is not the long prefix -/
  | shortName {s} : Characters s 1 → cfg.shortPrefix ++ s ≠ cfg.longPrefix →
      PolicyRule cfg (.shortName s)
  | noneName {s k} : Characters s k → 1 < k → NoBlanks s → PolicyRule cfg (.noneName s)
  | displayName {s} : s ≠ [] → PolicyRule cfg (.displayName s)
  | errorName {s} : s ≠ [] → PolicyRule cfg (.errorName s)
  | description {s} : s ≠ [] → PolicyRule cfg (.description s)
  | minMaxCount {mn mx} : mn ≤ mx → PolicyRule cfg (.minMaxCount mn mx)
  /-- one character, not whitespace -/
  | valueSeparator {s} : Characters s 1 → Utf8.isWhitespace s = false →
      PolicyRule cfg (.valueSeparator s)
  /-- at least one character, no whitespace -/
  | tokenEndMarker {s k} : Characters s k → 0 < k → NoBlanks s → PolicyRule cfg (.tokenEndMarker s)
  /-- at least one name -/
  | alias {r refs} : PolicyRule cfg (.alias (r :: refs))
  | dependent {r refs} : PolicyRule cfg (.dependent (r :: refs))
  | required : PolicyRule cfg .required
  | defaultValue {v} : PolicyRule cfg (.defaultValue v)
  | shortFormExpander : PolicyRule cfg .shortFormExpander
  | runtimeEnable {e} : PolicyRule cfg (.runtimeEnable e)
  | runtimeEnableRequired {e v} : PolicyRule cfg (.runtimeEnableRequired e v)
  | minMaxValue {lo hi less} : PolicyRule cfg (.minMaxValue lo hi less)
  | customParser {f} : PolicyRule cfg (.customParser f)
  | validation {t f} : PolicyRule cfg (.validation t f)
  | router : PolicyRule cfg .router
  | multiStage {f} : PolicyRule cfg (.multiStage f)
  | noResult : PolicyRule cfg .noResult
  | helpText {f} : PolicyRule cfg (.helpText f)
  | other {t} : PolicyRule cfg (.other t)

/-- The node takes exactly `k` values. -/
def Fixed (n : Node) (k : Nat) : Prop := n.minMaxCount = some (k, k)

/-- The innermost of the nodes that routes: the mode that the names of an alias or a dependency are
looked up in. -/
def ModeOf (ns : List Node) (mode : Node) : Prop :=
  ∃ pre post, ns = pre ++ mode :: post ∧ .router ∈ mode.policies ∧
    ∀ m ∈ pre, .router ∉ m.policies

/-- No way along the names leads back to where it has been. -/
def Acyclic (k : LinkKind) (mode n : Node) : Prop :=
  ¬ Chain k mode n n ∧ ∀ m, Chain k mode n m → ¬ Chain k mode m m

/-- There are as many nodes in the mode that have one of the names as there are names; they are of
different types, and none has two of the names. -/
structure NamesFound (mode : Node) (refs : List NameRef) : Prop where
  many : ∃ ps : List (List Nat), ps.Nodup ∧ ps.length = refs.length ∧
    ∀ p, p ∈ ps ↔ ∃ m, nodeAt mode p = some m ∧ NamedIn refs m
  types : ∀ (p q : List Nat) (m m' : Node), nodeAt mode p = some m → nodeAt mode q = some m' →
    NamedIn refs m → NamedIn refs m' → m.hash = m'.hash → p = q
  once : ∀ (p : List Nat) (m : Node) (i j : Nat) (r s : NameRef), nodeAt mode p = some m →
    m.nameRefs[i]? = some r → m.nameRefs[j]? = some s → r ∈ refs → s ∈ refs → i = j

/-- The nodes are found for the names in the policy of `n`, and in the policies of the nodes found. -/
def AllFound (k : LinkKind) (mode n : Node) : Prop :=
  ∀ m refs, m = n ∨ Chain k mode n m → Names k m refs → NamesFound mode refs

/-- What the reference asks of a policy in the node that has it. -/
inductive OwnerRule (cfg : Config) (n : Node) (parents : List Node) : Policy → Prop where
  /-- a short name of one character, and prefixes that can be told apart -/
  | shortFormExpander {s} : n.shortName = some s → Characters s 1 →
      cfg.shortPrefix ≠ cfg.longPrefix → OwnerRule cfg n parents .shortFormExpander
  /-- one value -/
  | valueSeparator {s} : Fixed n 1 → OwnerRule cfg n parents (.valueSeparator s)
  /-- a variable number of values -/
  | tokenEndMarker {s mn mx} : n.minMaxCount = some (mn, mx) → mn ≠ mx →
      (∀ f, .multiStage f ∉ n.policies) → OwnerRule cfg n parents (.tokenEndMarker s)
  | runtimeEnable {e} : .required ∉ n.policies → OwnerRule cfg n parents (.runtimeEnable e)
  | runtimeEnableRequired {e v} : .required ∉ n.policies →
      OwnerRule cfg n parents (.runtimeEnableRequired e v)
  /-- no parsing, validation or routing of its own; a fixed number of values; as many nodes of the
  mode as names, each taking that number; no cycles -/
  | alias {refs mode k} : ¬ Has n .parse → ¬ Has n .validation → ¬ Has n .routing →
      ModeOf parents mode → AllFound .alias mode n → Acyclic .alias mode n → Fixed n k →
      (∀ m, Leads .alias mode n m → Fixed m k) → OwnerRule cfg n parents (.alias refs)
  /-- as many nodes of the mode as names; no cycles -/
  | dependent {refs mode} : ModeOf parents mode → AllFound .dependent mode n →
      Acyclic .dependent mode n → OwnerRule cfg n parents (.dependent refs)
  /-- other policies can be in any node -/
  | free {p} : (∀ s, p ≠ .valueSeparator s) → (∀ s, p ≠ .tokenEndMarker s) →
      p ≠ .shortFormExpander → (∀ e, p ≠ .runtimeEnable e) →
      (∀ e v, p ≠ .runtimeEnableRequired e v) → (∀ refs, p ≠ .alias refs) →
      (∀ refs, p ≠ .dependent refs) → OwnerRule cfg n parents p

/-- The node has a long or a short name. -/
def LongOrShort (n : Node) : Prop := HasOne n Policy.longName ∨ HasOne n Policy.shortName

/-- The node has one of the names that appear on the command line. -/
def OnCommandLine (n : Node) : Prop := LongOrShort n ∨ HasOne n Policy.noneName

/-- The node has no value of its own: it says so, or it is an alias. -/
def NoValue (n : Node) : Prop := .noResult ∈ n.policies ∨ HasOne n Policy.alias

/-- Values of the node are merged. -/
def Merging (n : Node) : Prop := HasOne n Policy.multiStage

/-- What the reference asks of all nodes that take values. -/
structure ValueNode (n : Node) : Prop where
  onlyPolicies : n.children = []
  counts : ∃ mn mx, n.minMaxCount = some (mn, mx)
  notZero : ¬ Fixed n 0
  named : OnCommandLine n ∨ HasOne n Policy.displayName

/-- What the reference asks of both kinds of groups. -/
structure GroupNode (n : Node) : Prop where
  alternatives : 2 ≤ n.children.length
  value : ∃ c ∈ n.children, ¬ NoValue c
  unnamed : ¬ OnCommandLine n
  undescribed : ¬ HasOne n Policy.description
  missing : Has n .missing
  delegates : ¬ Has n .preParse ∧ ¬ Has n .parse ∧ ¬ Has n .routing

/-- What the reference asks of the nodes of a class, below the given nodes (nearest first). -/
inductive ClassRule (n : Node) (parents : List Node) : Prop where
  | flag : n.kind = .flag → n.children = [] → LongOrShort n → ¬ HasOne n Policy.displayName →
      ¬ HasOne n Policy.noneName → ¬ Has n .parse → ¬ Has n .validation → ClassRule n parents
  | countingFlag : n.kind = .countingFlag → n.children = [] → LongOrShort n →
      ¬ HasOne n Policy.displayName → ¬ HasOne n Policy.noneName → ¬ Has n .parse →
      ¬ Has n .routing → ClassRule n parents
  | arg : n.kind = .arg → ValueNode n → ¬ HasOne n Policy.noneName →
      ¬ HasOne n Policy.displayName → ClassRule n parents
  | multiArg {mn mx} : n.kind = .multiArg → ValueNode n → ¬ HasOne n Policy.noneName →
      ¬ HasOne n Policy.displayName → n.minMaxCount = some (mn, mx) → ¬ (mn = 1 ∧ mx = 1) →
      1 ≤ mn → ¬ Has n .routing → ClassRule n parents
  | positional : n.kind = .positional → ValueNode n → HasOne n Policy.displayName →
      ¬ OnCommandLine n → ¬ Has n .routing → ClassRule n parents
  | forwarding : n.kind = .forwarding → ValueNode n → ¬ HasOne n Policy.displayName →
      ¬ LongOrShort n → ¬ Has n .routing → ClassRule n parents
  | aliasGroup : n.kind = .aliasGroup → GroupNode n →
      (∀ c ∈ n.children, Merging c → ¬ NoValue c → ¬ Has c .validation) → ClassRule n parents
  | oneOf : n.kind = .oneOf → GroupNode n → (∀ c ∈ n.children, ¬ Merging c) →
      ¬ Has n .validation → ClassRule n parents
  /-- an anonymous mode: no description, no modes in it, directly below the root, with a router -/
  | anonymousMode : n.kind = .mode → n.children ≠ [] → ¬ HasOne n Policy.noneName →
      ¬ LongOrShort n → ¬ HasOne n Policy.displayName → ¬ HasOne n Policy.description →
      (∀ c ∈ n.children, c.kind ≠ .mode ∧ .router ∉ c.policies) →
      ¬ Has n .parse → ¬ Has n .validation → ¬ Has n .missing → parents.length ≤ 1 →
      .router ∈ n.policies → ClassRule n parents
  /-- a named mode: no other name, and a router or nothing but modes in it -/
  | namedMode : n.kind = .mode → n.children ≠ [] → HasOne n Policy.noneName →
      ¬ LongOrShort n → ¬ HasOne n Policy.displayName → ¬ HasOne n Policy.errorName →
      (∀ c ∈ n.children, c.kind ≠ .mode → .router ∉ c.policies) →
      ¬ Has n .parse → ¬ Has n .validation → ¬ Has n .missing →
      (.router ∈ n.policies ∨ ∀ c ∈ n.children, c.kind = .mode) → ClassRule n parents
  | help : n.kind = .help → n.children = [] → LongOrShort n → ¬ HasOne n Policy.displayName →
      ¬ HasOne n Policy.noneName → parents ≠ [] → ¬ Has n .parse → ¬ Has n .validation →
      ¬ Has n .missing → ClassRule n parents
  /-- the root: nothing that takes part in parsing, no names, a validator, and children that have a
  router, unless they have no value -/
  | root : n.kind = .root → parents = [] → (∀ ph, ¬ Has n ph) → ¬ OnCommandLine n →
      ¬ HasOne n Policy.displayName → ¬ HasOne n Policy.errorName →
      ¬ HasOne n Policy.description → Carries n .validator →
      n.children ≠ [] → (∀ c ∈ n.children, NoValue c ∨ .router ∈ c.policies) → ClassRule n parents

/-- At most one policy of the node takes part in the phase. -/
def AtMostOne (n : Node) (ph : Phase) : Prop :=
  ∀ (i j : Nat) (p q : Policy), n.policies[i]? = some p → n.policies[j]? = some q →
    TakesPart p ph → TakesPart q ph → i = j

/-- What the reference asks of a node: what it asks of its class and of its policies, and that there is
one policy at most for routing, parsing, and missing values. -/
structure NodeRule (cfg : Config) (n : Node) (parents : List Node) : Prop where
  cls : ClassRule n parents
  routing : AtMostOne n .routing
  parsing : (n.kind = .arg ∨ n.kind = .multiArg ∨ n.kind = .positional ∨ n.kind = .forwarding) →
    AtMostOne n .parse ∧ AtMostOne n .missing
  policies : ∀ p ∈ n.policies, PolicyRule cfg p ∧ OwnerRule cfg n parents p

/-- A node with one alias and one dependency at most; the C++ of a node with two is ambiguous, and the
default validator rejects it. -/
def OneLink (n : Node) : Prop :=
  ∀ k refs, linkPolicy k refs ∈ n.policies → Names k n refs

/-- A program that can show help: none of its descriptions has a tab (default_help_formatter.hpp:58-59,
"Help descriptions cannot contain tabs"). -/
def HelpRule (root : Node) : Prop :=
  (∃ h ∈ root.nodes, h.kind = .help) → ∀ n ∈ root.nodes, ∀ d, .description d ∈ n.policies →
    (9 : UInt8) ∉ d

end ArgRouter.Spec
