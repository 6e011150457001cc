import Verif.Help.Format
import Verif.Spec.Sound

/-!
# Specification vocabulary: help output
-/

namespace ArgRouter.Spec

/-- A dependency group. -/
def IsGroup (n : Node) : Prop := n.kind = .aliasGroup ∨ n.kind = .oneOf

instance (n : Node) : Decidable (IsGroup n) := by unfold IsGroup; infer_instance

/-- The tree shapes that compile: leaf classes take no children (is_all_policies_v assertions), the
members of a group are leaves (groups and modes are only accepted in modes and root, validator.hpp
681-709), an anonymous mode has no child mode (mode.hpp:212-213), and `root` is only at the top. -/
structure HelpTree (t : Node) : Prop where
  leaf : ∀ n ∈ t.nodes, Runnable n = true → n.children = []
  group : ∀ n ∈ t.nodes, IsGroup n → ∀ c ∈ n.children, Runnable c = true
  anon : ∀ n ∈ t.nodes, n.kind = .mode → n.isAnonymous = true → ∀ c ∈ n.children, c.kind ≠ .mode
  noRoot : ∀ n ∈ t.nodes, ∀ c ∈ n.children, c.kind ≠ .root

/-- Elementwise relation between two lists. -/
inductive Zip {α β : Type} (R : α → β → Prop) : List α → List β → Prop where
  | nil : Zip R [] []
  | cons {a b l m} : R a b → Zip R l m → Zip R (a :: l) (b :: m)

/-- SwitchedOff at run time by `runtime_enable` or `runtime_enable_required`. -/
def SwitchedOff (n : Node) : Bool := n.runtimeEnabled == some false

/-- A mode whose contents are left out: a named one, unless the output is flattened. -/
def Closed (flatten : Bool) (n : Node) : Bool := n.kind == .mode && !n.isAnonymous && !flatten

/-- Whether the help for some target has a row for `x.1`, a node below or equal to the target with
`x.2` its parents up to the target: neither the node nor a parent below the target is disabled, and
no parent is a mode whose contents are left out. -/
def Listed (flatten : Bool) (x : Node × List Node) : Bool :=
  (x.1 :: x.2).dropLast.all (fun n => !SwitchedOff n) && x.2.all (fun p => !Closed flatten p)

/-- A row (depth, label, description) is the one of the node `x.1` with parents `x.2`: it is indented
by the number of parents, it has the node's description and it has the node's label, behind a bar if
the node belongs to a group. -/
def RowOf (info : HelpInfo) (row : Nat × Bytes × Bytes) (x : Node × List Node) : Prop :=
  row.1 = x.2.length ∧
  (row.2.1 = x.1.helpLabel info ∨
    (∃ p ps, x.2 = p :: ps ∧ IsGroup p) ∧
      ∃ bar ∈ [b "┌ ", b "├ ", b "└ "], row.2.1 = bar ++ x.1.helpLabel info) ∧
  row.2.2 = x.1.helpDescription

/-- `name` is a way to write one of the names of the node on a command line. -/
def Selects (cfg : Config) (c : Node) (name : Bytes) : Prop :=
  (∃ l, c.longName = some l ∧ name = cfg.longPrefix ++ l) ∨
  (∃ s, c.shortName = some s ∧ name = cfg.shortPrefix ++ s) ∨
  c.noneName = some name

/-- The names of a node can be told apart by their prefixes: a node with a plain name has no other
name, and no short name looks like a long one. -/
def Nameable (cfg : Config) (c : Node) : Prop :=
  (c.noneName.isSome = true → c.longName = none ∧ c.shortName = none) ∧
  ∀ s, c.shortName = some s → ¬ cfg.longPrefix <+: cfg.shortPrefix ++ s

/-- Following names down from a node, through enabled nodes: each name selects the first child that
has it. The last node may be disabled. -/
inductive Follows (cfg : Config) : Node → List Bytes → Node → Prop where
  | here {n} : Follows cfg n [] n
  | down {n c m pre post name names} : SwitchedOff n = false → n.children = pre ++ c :: post →
      Selects cfg c name → (∀ x ∈ pre, ¬ Selects cfg x name) → Follows cfg c names m →
      Follows cfg n (name :: names) m

/-- A number of spaces. -/
def blanks (n : Nat) : Bytes := List.replicate n 32

/-- What the help output starts with: the program's name and version if it has them, and a blank line;
then its introduction if it has one, and a blank line. -/
inductive Heading (f : HelpFormat) : Bytes → Prop where
  | none : f.name = none → f.intro = none → Heading f []
  | intro {i} : f.name = none → f.intro = some i → Heading f (i ++ b "\n\n")
  | name {n} : f.name = some n → f.version = none → f.intro = none → Heading f (n ++ b "\n\n")
  | nameIntro {n i} : f.name = some n → f.version = none → f.intro = some i →
      Heading f (n ++ b "\n\n" ++ i ++ b "\n\n")
  | version {n v} : f.name = some n → f.version = some v → f.intro = none →
      Heading f (n ++ b " " ++ v ++ b "\n\n")
  | versionIntro {n v i} : f.name = some n → f.version = some v → f.intro = some i →
      Heading f (n ++ b " " ++ v ++ b "\n\n" ++ i ++ b "\n\n")

/-- What the help output ends with: a blank line and the addendum, if there is one. -/
inductive Closing (f : HelpFormat) : Bytes → Prop where
  | none : f.addendum = none → Closing f []
  | some {a} : f.addendum = some a → Closing f (b "\n" ++ a ++ b "\n")

/-- How the help output shows a row (depth, label, description): nothing without a label; the indented
label; the label, a gap of at least `ind` columns that ends at column `D`, and the description in
lines of at most `limit` columns of which all but the first are preceded by `D` spaces. -/
inductive RowText (ind D limit : Nat) : Nat × Bytes × Bytes → Bytes → Prop where
  | hidden {k d} : RowText ind D limit (k, [], d) []
  | label {k l} : l ≠ [] → RowText ind D limit (k, l, []) (blanks (k * ind) ++ l ++ b "\n")
  | described {k l d w g ls} : l ≠ [] → d ≠ [] → Utf8.terminalWidth l = .ok w →
      k * ind + w + g = D → ind ≤ g → Utf8.lines d limit = .ok ls →
      RowText ind D limit (k, l, d)
        (blanks (k * ind) ++ l ++ blanks g ++ (b "\n" ++ blanks D).intercalate ls ++ b "\n")

/-! ## Labels

`Num v t` says how the integer `v` is written. -/

section
variable (Num : Int → Bytes → Prop)

/-- The lower end of a value range: the bound; without one, `0` if the type is unsigned and `-N` if it
is not. -/
inductive LowText (r : CtRange) : Bytes → Prop where
  | bound {v t} : r.lo = some v → Num v t → LowText r t
  | natural : r.lo = none → r.unsigned = true → LowText r (b "0")
  | unbounded : r.lo = none → r.unsigned = false → LowText r (b "-N")

/-- The upper end of a value range: the bound, or `N`. -/
inductive HighText (r : CtRange) : Bytes → Prop where
  | bound {v t} : r.hi = some v → Num v t → HighText r t
  | unbounded : r.hi = none → HighText r (b "N")

/-- The node has a value range, with at least one bound. -/
def Ranged (info : HelpInfo) (n : Node) (r : CtRange) : Prop :=
  info.range n = some r ∧ (r.lo ≠ none ∨ r.hi ≠ none)

/-- The value range of a node, `<lo-hi>`, if it has one. -/
inductive RangeText (info : HelpInfo) (n : Node) : Bytes → Prop where
  | none : (¬ ∃ r, Ranged info n r) → RangeText info n []
  | range {r lo hi} : Ranged info n r → LowText Num r lo → HighText Num r hi →
      RangeText info n (b "<" ++ lo ++ b "-" ++ hi ++ b ">")

/-- The placeholder of a value: the range, or `<Value>`. -/
inductive ValuePlace (info : HelpInfo) (n : Node) : Bytes → Prop where
  | value : (¬ ∃ r, Ranged info n r) → ValuePlace info n (b "<Value>")
  | range {r t} : Ranged info n r → RangeText Num info n t → ValuePlace info n t

/-- The value a node takes, behind its names: after its separator if it has one, after a space if the
node takes exactly one value, and not at all otherwise. -/
inductive ValueText (info : HelpInfo) (n : Node) : Bytes → Prop where
  | separated {s t} : Policy.valueSeparator s ∈ n.policies → ValuePlace Num info n t →
      ValueText info n (s ++ t)
  | spaced {t} : (∀ s, Policy.valueSeparator s ∉ n.policies) → n.minMaxCount = some (1, 1) →
      ValuePlace Num info n t → ValueText info n (b " " ++ t)
  | none : (∀ s, Policy.valueSeparator s ∉ n.policies) → n.minMaxCount ≠ some (1, 1) →
      ValueText info n []

/-- The names of a node as they are typed. -/
inductive NamesText (cfg : Config) (n : Node) : Bytes → Prop where
  | both {l s} : n.longName = some l → n.shortName = some s →
      NamesText cfg n (cfg.longPrefix ++ l ++ b "," ++ cfg.shortPrefix ++ s)
  | long {l} : n.longName = some l → n.shortName = none → NamesText cfg n (cfg.longPrefix ++ l)
  | short {s} : n.longName = none → n.shortName = some s → NamesText cfg n (cfg.shortPrefix ++ s)
  | plain {s} : n.longName = none → n.shortName = none → n.noneName = some s → NamesText cfg n s

/-- The number of values a node takes: `[n]`, `[n,m]`, or `[n,N]` if there is no maximum. -/
inductive CountText (n : Node) : Bytes → Prop where
  | any : n.minMaxCount = none → CountText n (b "[0,N]")
  | fixed {k t} : n.minMaxCount = some (k, k) → Num k t → CountText n (b "[" ++ t ++ b "]")
  | between {k m t u} : n.minMaxCount = some (k, m) → k ≠ m → m ≠ sizeMax → Num k t → Num m u →
      CountText n (b "[" ++ t ++ b "," ++ u ++ b "]")
  | atLeast {k t} : n.minMaxCount = some (k, sizeMax) → k ≠ sizeMax → Num k t →
      CountText n (b "[" ++ t ++ b ",N]")

/-- The label of a node in the help output. -/
inductive LabelText (info : HelpInfo) (n : Node) : Bytes → Prop where
  /-- names and value -/
  | leaf {names value} : n.kind ∈ [.flag, .countingFlag, .arg, .help] →
      NamesText info.cfg n names → ValueText Num info n value → LabelText info n (names ++ value)
  /-- names, value and count -/
  | multi {names value count} : n.kind ∈ [.multiArg, .forwarding] →
      NamesText info.cfg n names → ValueText Num info n value → CountText Num n count →
      LabelText info n (names ++ value ++ b " " ++ count)
  /-- `<display name>` and count -/
  | positional {d count} : n.kind = .positional → n.displayName = some d → CountText Num n count →
      LabelText info n (b "<" ++ d ++ b "> " ++ count)
  /-- display name and value range -/
  | aliasGroup {d range} : n.kind = .aliasGroup → n.displayName = some d →
      RangeText Num info n range → LabelText info n (d ++ range)
  /-- display name -/
  | oneOf {d} : n.kind = .oneOf → n.displayName = some d → LabelText info n d
  /-- names and value of a named mode, nothing visible for an anonymous one -/
  | mode {names value} : n.kind = .mode → n.isAnonymous = false →
      NamesText info.cfg n names → ValueText Num info n value → LabelText info n (names ++ value)
  | anonymous : n.kind = .mode → n.isAnonymous = true → LabelText info n (b " ")
  | root : n.kind = .root → LabelText info n []

end

/-- A node has the name its class needs for its label. -/
structure Labelled (n : Node) : Prop where
  named : n.kind ∈ [.flag, .countingFlag, .arg, .help, .multiArg, .forwarding] →
    n.longName ≠ none ∨ n.shortName ≠ none ∨ n.noneName ≠ none
  displayed : n.kind ∈ [.positional, .aliasGroup, .oneOf] → n.displayName ≠ none

/-- The bar before the label of the `i`th of `m` members of a group: none for a single member. -/
def barAt (m i : Nat) : Bytes :=
  if m = 1 then [] else if i = 0 then b "┌ " else if i + 1 = m then b "└ " else b "├ "

end ArgRouter.Spec
