import Verif.Spec.Groups
import Verif.Spec.Sound
import Verif.Spec.Links

/-!
# Specification: how a mode reads a command line

A reference reading of a command line, written from the documentation: what an argument does with
the tokens it is offered, which argument of the mode gets them, and what becomes of the rest. The
property (C76) is that the library reads every command line this way.
-/

namespace ArgRouter.Spec

open Utf8

/-- How an argument was declared, as far as the reading of a command line is concerned. -/
structure Shape where
  /-- the value follows the label after this character, as in `--level=3` -/
  separator : Option UInt8
  /-- collapsed short flags are expanded, as in `-abc` -/
  expands : Bool
  /-- the values end at this token -/
  marker : Option Bytes
  /-- the fewest values -/
  min : Nat
  /-- the most values -/
  max : Nat
  /-- it stands for the arguments with these names -/
  aliasOf : Option (List NameRef)
  /-- it needs the arguments with these names before it -/
  needs : Option (List NameRef)

/-- The policies that declare this shape. -/
def Shape.policies (sh : Shape) : List Policy :=
  (sh.separator.map fun ch => Policy.valueSeparator [ch]).toList ++
  (if sh.expands then [Policy.shortFormExpander] else []) ++
  (sh.marker.map Policy.tokenEndMarker).toList ++
  [Policy.minMaxCount sh.min sh.max] ++
  (sh.aliasOf.map Policy.alias).toList ++
  (sh.needs.map Policy.dependent).toList

/-- The argument was declared with this shape, in a combination that makes sense. -/
structure Declared (c : Node) (sh : Shape) : Prop where
  policies : MatchPolicies c sh.policies
  leaf : c.kind ≠ .mode ∧ c.kind ≠ .aliasGroup ∧ c.kind ≠ .oneOf
  sizes : sh.max ≤ sizeMax
  /-- a separator is for exactly one value, of an argument that is given by long or short name -/
  separated : sh.separator.isSome → c.isNamed = true ∧ c.noneName = none ∧ sh.min = 1 ∧
    sh.max = 1 ∧ sh.expands = false
  /-- short flags have names -/
  expanded : sh.expands → c.isNamed = true
  /-- an end marker is for arguments with many values -/
  marked : sh.marker.isSome → sh.separator = none ∧ sh.expands = false ∧
    (c.isNamed = false → sh.max = sizeMax)
  /-- a positional argument takes a value -/
  positional : c.isNamed = false → 0 < sh.max
  /-- an alias has a name, a fixed number of values, and is not itself a router or dependent -/
  aliased : sh.aliasOf.isSome → c.isNamed = true ∧ sh.min = sh.max ∧
    c.minMaxCount = some (sh.min, sh.max) ∧ c.hasRouter = false ∧ sh.marker = none ∧
    sh.needs = none

/-- The argument is switched off at runtime (and has no separator, see C11). -/
structure Off (c : Node) : Prop where
  disabled : Disabled c
  leaf : c.kind ≠ .mode ∧ c.kind ≠ .aliasGroup ∧ c.kind ≠ .oneOf
  separator : ∀ s, Policy.valueSeparator s ∉ c.policies
  /-- no policy twice -/
  once : c.policies.Pairwise fun p q => ¬ (p = .shortFormExpander ∧ q = .shortFormExpander)

/-- The token `t` is the label of the argument, and `follows` is what comes after it on the command
line. Where the value is in the same token as the label it comes first in `follows`. The command
line of a positional argument has no label. -/
inductive Labels (cfg : Config) (c : Node) (sh : Shape) (t : Token) (rest : List Token) :
    (follows : List Token) → Prop
  | label (hs : sh.separator = none) (hl : IsLabel cfg c t) : Labels cfg c sh t rest rest
  | collapsed {x g g2 : Bytes} {gs : List Bytes} (he : sh.expands = true)
      (hx : ShortText cfg t x) (hg : graphemes x = .ok (g :: g2 :: gs)) (hn : c.shortName = some g) :
      Labels cfg c sh t rest ((g2 :: gs).map (Token.mk .short) ++ rest)
  | separated {ch : UInt8} {l v : Bytes} (hs : sh.separator = some ch)
      (ht : t.name = l ++ ch :: v) (hc : ch ∉ l) (hv : v ≠ []) (hl : IsLabel cfg c ⟨t.pre, l⟩) :
      Labels cfg c sh t rest (⟨.none, v⟩ :: rest)
  | positional (hn : c.isNamed = false) : Labels cfg c sh t rest (t :: rest)

/-- The values an argument takes from what follows its label, and what it leaves. -/
def Shape.values (sh : Shape) (c : Node) (follows : List Token) :
    Except Exc (List Token × List Token) :=
  match sh.marker with
  | none =>
    if follows.length < sh.min then .error ⟨.minimum_count_not_reached, [c.tokenType]⟩
    else .ok (follows.take sh.max, follows.drop sh.max)
  | some m =>
    if sh.max < (beforeMarker m follows).length then
      .error ⟨.maximum_count_exceeded, [c.tokenType]⟩
    else if (beforeMarker m follows).length < sh.min then
      .error ⟨.minimum_count_not_reached, [c.tokenType]⟩
    else .ok (beforeMarker m follows, afterMarker m follows)

/-- The arguments of the mode that have one of the names, in the order of declaration. -/
def namedNodes (mode : Node) (refs : List NameRef) : List Node :=
  mode.nodes.filter fun d => d.nameRefs.any fun r => refs.contains r

/-- What the use of an argument with these values means: an alias means the arguments it stands
for, with the same values. -/
def Shape.uses (sh : Shape) (mode c : Node) (values : List Token) : List Leaf :=
  match sh.aliasOf with
  | none => [⟨c, values⟩]
  | some refs => (namedNodes mode refs).map fun d => ⟨d, values⟩

/-- `d` is the first of the arguments needed (in the order the mode has them) that has not been
used. -/
def Lacks (mode : Node) (sofar : List Leaf) (sh : Shape) (d : Node) : Prop :=
  ∃ refs pre post, sh.needs = some refs ∧ mode.owners refs = pre ++ d :: post ∧
    (∀ x ∈ pre, Seen ⟨mode, [], sofar⟩ x) ∧ ¬ Seen ⟨mode, [], sofar⟩ d

/-- What an argument does with a command line that begins with its label. -/
inductive Claim where
  /-- it is used (an alias: its arguments are), and this is left of the command line -/
  | takes (uses : List Leaf) (left : List Token)
  /-- it cannot be used like this -/
  | refuses (e : Exc)

/-- An argument `c` of the mode, declared with shape `sh` and offered the command line `t rest...`
after the arguments `sofar`, claims it. -/
inductive ClaimsAs (cfg : Config) (mode : Node) (sofar : List Leaf) (c : Node) (sh : Shape)
    (t : Token) (rest : List Token) : Claim → Prop
  | noSeparator {ch : UInt8} (hs : sh.separator = some ch) (hc : ch ∉ t.name)
      (hl : IsLabel cfg c t) :
      ClaimsAs cfg mode sofar c sh t rest (.refuses ⟨.missing_value_separator, [c.tokenType]⟩)
  | count {follows : List Token} {e : Exc} (hl : Labels cfg c sh t rest follows)
      (hv : sh.values c follows = .error e) : ClaimsAs cfg mode sofar c sh t rest (.refuses e)
  | lacks {follows vs left : List Token} {d : Node} (hl : Labels cfg c sh t rest follows)
      (hv : sh.values c follows = .ok (vs, left)) (hd : Lacks mode sofar sh d) :
      ClaimsAs cfg mode sofar c sh t rest
        (.refuses ⟨.dependent_argument_missing, [d.tokenType]⟩)
  | takes {follows vs left : List Token} (hl : Labels cfg c sh t rest follows)
      (hv : sh.values c follows = .ok (vs, left)) (hd : ∀ d, ¬ Lacks mode sofar sh d) :
      ClaimsAs cfg mode sofar c sh t rest (.takes (sh.uses mode c vs) left)

/-- The argument claims the command line. -/
def Claims (cfg : Config) (mode : Node) (sofar : List Leaf) (c : Node) (t : Token)
    (rest : List Token) (cl : Claim) : Prop :=
  ∃ sh, Declared c sh ∧ ClaimsAs cfg mode sofar c sh t rest cl

/-- What the mode makes of the command line: it accepts it, with these uses of arguments; it fails;
or it does not know the token. -/
inductive Result where
  | accepts (uses : List Leaf)
  | fails (e : Exc)
  | unknown (t : Token)

mutual
/-- The arguments a child of a mode stands for: those in it if it is a group of aliases. -/
def leaves : Node → List Node
  | .mk k u h v p cs => if k == .aliasGroup then leavesList cs else [.mk k u h v p cs]
def leavesList : List Node → List Node
  | [] => []
  | c :: cs => leaves c ++ leavesList cs
end

/-- The arguments a child of a mode stands for: those in it if it is a group. -/
def members (c : Node) : List Node := if c.kind == .oneOf then c.children else leaves c

/-- The arguments in these children in declaration order, each with the number of its child;
nested modes are not arguments. -/
def argumentsFrom : Nat → List Node → List (Nat × Node)
  | _, [] => []
  | i, c :: cs =>
    (if c.kind == .mode then [] else (members c).map fun n => (i, n)) ++ argumentsFrom (i + 1) cs

/-- The arguments of a mode, each with the number of the child it belongs to. -/
def arguments (mode : Node) : List (Nat × Node) := argumentsFrom 0 mode.children

/-- The argument may be used once more: it is repeatable, or its child has not been used yet. -/
def Available (used : List Nat) (a : Nat × Node) : Prop :=
  a.2.isMultiStage = true ∨ a.1 ∉ used

/-- The argument wants the command line: it claims it, and, if it is a positional argument, has not
been used yet. -/
def Wants (cfg : Config) (mode : Node) (sofar : List Leaf) (used : List Nat) (t : Token)
    (rest : List Token) (a : Nat × Node) : Prop :=
  (∃ cl, Claims cfg mode sofar a.2 t rest cl) ∧ (a.2.isNamed = true ∨ Available used a)

/-- The argument is the first that wants the command line. -/
def First (cfg : Config) (mode : Node) (sofar : List Leaf) (used : List Nat) (t : Token)
    (rest : List Token) (a : Nat × Node) : Prop :=
  ∃ before after, arguments mode = before ++ a :: after ∧
    (∀ x ∈ before, ¬ Wants cfg mode sofar used t rest x) ∧ Wants cfg mode sofar used t rest a

/-- The `one_of` objects of which an alternative has been chosen, each with the type of the
alternative; they remember it (see C15). -/
abbrev Choices := List (Nat × Nat)

/-- The `one_of` that the argument is an alternative of, if it is. -/
def oneOfAt (mode : Node) (a : Nat × Node) : Option Node :=
  mode.children[a.1]?.filter fun o => o.kind == .oneOf

/-- The argument is an alternative of `o`, and another alternative of it has been chosen. -/
def Clashes (mode : Node) (chosen : Choices) (a : Nat × Node) (o : Node) : Prop :=
  oneOfAt mode a = some o ∧ ∃ h, chosen.lookup o.uid = some h ∧ h ≠ a.2.hash

/-- The choices after the argument: if it is an alternative of a `one_of` of which none has been
chosen, it is. -/
def choose (mode : Node) (chosen : Choices) (a : Nat × Node) : Choices :=
  match oneOfAt mode a with
  | none => chosen
  | some o =>
    match chosen.lookup o.uid with
    | some _ => chosen
    | none => (o.uid, a.2.hash) :: chosen

/-- The reading of a command line by a mode, given the alternatives `chosen`, the uses `sofar` and
the children `used` up to now; the last parameter are the choices afterwards. -/
inductive Reading (cfg : Config) (mode : Node) : (chosen : Choices) → (sofar : List Leaf) →
    (used : List Nat) → List Token → Result → Choices → Prop
  /-- everything has been read -/
  | done {chosen : Choices} {sofar : List Leaf} {used : List Nat} :
      Reading cfg mode chosen sofar used [] (.accepts sofar) chosen
  /-- an argument takes its part -/
  | take {chosen chosen' : Choices} {sofar uses : List Leaf} {used : List Nat} {t : Token}
      {rest left : List Token} {a : Nat × Node} {r : Result}
      (hf : First cfg mode sofar used t rest a) (hk : ∀ o, ¬ Clashes mode chosen a o)
      (ha : Available used a) (hc : Claims cfg mode sofar a.2 t rest (.takes uses left))
      (hr : Reading cfg mode (choose mode chosen a) (sofar ++ uses) (a.1 :: used) left r chosen') :
      Reading cfg mode chosen sofar used (t :: rest) r chosen'
  /-- an argument is given although another alternative has been chosen -/
  | clash {chosen : Choices} {sofar : List Leaf} {used : List Nat} {t : Token} {rest : List Token}
      {a : Nat × Node} {o : Node} (hf : First cfg mode sofar used t rest a)
      (hk : Clashes mode chosen a o) :
      Reading cfg mode chosen sofar used (t :: rest)
        (.fails ⟨.one_of_selected_type_mismatch, [o.tokenType]⟩) chosen
  /-- an argument that may be given once is given again -/
  | again {chosen : Choices} {sofar : List Leaf} {used : List Nat} {t : Token} {rest : List Token}
      {a : Nat × Node} (hf : First cfg mode sofar used t rest a)
      (hk : ∀ o, ¬ Clashes mode chosen a o) (ha : ¬ Available used a) :
      Reading cfg mode chosen sofar used (t :: rest)
        (.fails ⟨.argument_has_already_been_set, [t]⟩) (choose mode chosen a)
  /-- an argument cannot be used like this -/
  | refused {chosen : Choices} {sofar : List Leaf} {used : List Nat} {t : Token}
      {rest : List Token} {a : Nat × Node} {e : Exc} (hf : First cfg mode sofar used t rest a)
      (hk : ∀ o, ¬ Clashes mode chosen a o) (ha : Available used a)
      (hc : Claims cfg mode sofar a.2 t rest (.refuses e)) :
      Reading cfg mode chosen sofar used (t :: rest) (.fails e) (choose mode chosen a)
  /-- no argument wants the rest, all have been used -/
  | unhandled {chosen : Choices} {sofar : List Leaf} {used : List Nat} {t : Token}
      {rest : List Token} (hn : ∀ a ∈ arguments mode, ¬ Wants cfg mode sofar used t rest a)
      (hu : ∀ i, i < mode.children.length → i ∈ used) :
      Reading cfg mode chosen sofar used (t :: rest) (.fails ⟨.unhandled_arguments, t :: rest⟩)
        chosen
  /-- no argument wants the rest -/
  | unknown {chosen : Choices} {sofar : List Leaf} {used : List Nat} {t : Token}
      {rest : List Token} (hn : ∀ a ∈ arguments mode, ¬ Wants cfg mode sofar used t rest a)
      (hu : ∃ i, i < mode.children.length ∧ i ∉ used) :
      Reading cfg mode chosen sofar used (t :: rest) (.unknown t) chosen

/-- A mode made of the arguments specified here. The groups in it are groups of arguments (only a
group of aliases may be in a group of aliases). -/
structure Ordinary (mode : Node) : Prop where
  /-- only a mode that does nothing but hold other modes may lack a router -/
  router : Spec.arguments mode ≠ [] → mode.hasRouter = true
  arguments : ∀ a ∈ Spec.arguments mode, Off a.2 ∨ ∃ sh, Declared a.2 sh ∧
    ∀ refs, sh.aliasOf = some refs → namedNodes mode refs ≠ []
  /-- the alternatives of a `one_of` have names -/
  alternatives : ∀ a ∈ Spec.arguments mode, ∀ o, oneOfAt mode a = some o → a.2.isNamed = true

/-- What comes after the short prefix, if anything does, is text that is not empty. -/
def Readable (cfg : Config) (t : Token) : Prop := ∀ x, ShortText cfg t x → x ≠ [] ∧ Text x

/-- The mode expands collapsed short flags. -/
def Expanding (mode : Node) : Prop :=
  ∃ a ∈ arguments mode, Policy.shortFormExpander ∈ a.2.policies

end ArgRouter.Spec
