import Verif.Spec.Conditions

/-!
# What the default validator asks for

Written out by policy and by node class, without the list of rules.
-/

namespace ArgRouter.Spec

/-- It is the only policy of its template in the node. -/
def Alone (n : Node) (q : Policy) : Prop :=
  ∀ (k : PKind) (i j : Nat) (r s : Policy), MadeFrom q k → n.policies[i]? = some r →
    n.policies[j]? = some s → MadeFrom r k → MadeFrom s k → i = j

/-- No other policy has the name, in the nearest mode and outside the modes in it. A policy that is
reached through nodes of the same types is not seen as another one. Names in the root are not looked
at. -/
def NameFree (root : Node) (p : List Nat) (n : Node) (q : Policy) : Prop :=
  p = [] ∨ ∀ (pm r : List Nat) (m : Node), pm ++ r = p → NearestMode [.mode] root pm r m →
    ∀ (at_ : List Nat) (y : Item) (above : List Node), Occurs m at_ y above →
      SameSpace [.mode] m at_ → SameType (.policy q) y →
        (n :: lineage m r).map Node.hash = above.map Node.hash

/-- What is asked of a policy `q` of the node `n` at the position `p`. -/
def PolicyAllowed (root : Node) (p : List Nat) (n : Node) (q : Policy) : Prop :=
  Alone n q ∧
  match q with
  | .longName _ | .shortName _ => NameFree root p n q
  | .noneName _ => NameFree root p n q ∧ ¬ Carries n .longName ∧ ¬ Carries n .shortName ∧
      ¬ Carries n .displayName
  | .displayName _ => ¬ Carries n .longName ∧ ¬ Carries n .shortName ∧ ¬ Carries n .noneName
  | .required => ¬ Carries n .defaultValue
  | .defaultValue _ => ¬ Carries n .required
  | .router => n.kind = .mode ∨ ∃ m above, lineage root p = m :: above ∧ m.kind = .root
  | .other 1 => n.kind = .root
  | _ => True

/-- The node has none of these policies. -/
def Without (n : Node) (ks : List PKind) : Prop := ∀ k ∈ ks, ¬ Carries n k

/-- There is no child, or one that does not have the policy. -/
def NotAllHave (n : Node) (k : PKind) : Prop := n.children = [] ∨ ∃ c ∈ n.children, ¬ Carries c k

/-- The parent is a mode. -/
def UnderMode (parents : List Node) : Prop := ∃ m above, parents = m :: above ∧ m.kind = .mode

/-- The parent is the root. -/
def UnderRoot (parents : List Node) : Prop := ∃ m above, parents = m :: above ∧ m.kind = .root

/-- What is asked of a node below the given nodes (nearest first). -/
def NodeAllowed (n : Node) (parents : List Node) : Prop :=
  match n.kind with
  | .flag => Without n [.multiStage, .noResult, .required, .validator]
  | .arg | .multiArg | .forwarding => Without n [.multiStage, .noResult, .validator]
  | .countingFlag => Without n [.noResult, .required, .validator]
  | .positional => Without n [.alias, .multiStage, .noResult, .validator] ∧
      (Carries n .required → ∀ mn mx, n.minMaxCount = some (mn, mx) → 1 ≤ mn)
  | .oneOf => Without n [.noResult, .multiStage, .validator] ∧ NotAllHave n .required ∧
      NotAllHave n .defaultValue ∧ UnderMode parents
  | .aliasGroup => Without n [.noResult, .validator] ∧ NotAllHave n .required ∧
      NotAllHave n .defaultValue ∧ UnderMode parents
  | .mode => Without n [.multiStage, .required, .runtimeEnableRequired, .alias, .dependent] ∧
      AtEnd [.positional] n.children ∧
      (∀ (i : Nat) (c : Node), n.children[i]? = some c → ListLike c → i + 1 = n.children.length) ∧
      (UnderRoot parents ∨ UnderMode parents)
  | .help => Without n [.multiStage, .required, .shortFormExpander, .validator, .runtimeEnable] ∧
      UnderRoot parents
  | .root => Carries n .validator ∧
      Without n [.multiStage, .noResult, .runtimeEnable, .runtimeEnableRequired] ∧
      NotAllHave n .required ∧ NotAllHave n .alias ∧
      (∀ (i j : Nat) (c d : Node), n.children[i]? = some c → n.children[j]? = some d →
        AnonymousMode [.mode] c → AnonymousMode [.mode] d → i = j) ∧
      ((∃ c ∈ n.children, AnonymousMode [.mode] c) → AtEnd [.mode] n.children)

end ArgRouter.Spec
