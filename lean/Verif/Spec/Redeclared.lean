import Verif.Parse.Mode

/-!
# Declaring the same program in another way

Two trees that differ in the order in which the policies of a node are given, and in what is said about
nodes for the help only.
-/

namespace ArgRouter

/-- The kind of a policy. The two runtime switches count as one kind; policies of the user's and those that
take no part in parsing are distinguished by their tag. Model only: the templates of policy/, e.g.
policy/long_name.hpp:22. -/
def Policy.kindNo : Policy → Nat
  | .longName _ => 0
  | .shortName _ => 1
  | .noneName _ => 2
  | .displayName _ => 3
  | .errorName _ => 4
  | .description _ => 5
  | .required => 6
  | .defaultValue _ => 7
  | .minMaxCount _ _ => 8
  | .valueSeparator _ => 9
  | .shortFormExpander => 10
  | .tokenEndMarker _ => 11
  | .runtimeEnable _ => 12
  | .runtimeEnableRequired _ _ => 12
  | .alias _ => 13
  | .dependent _ => 14
  | .minMaxValue _ _ _ => 15
  | .customParser _ => 16
  | .router => 17
  | .multiStage _ => 18
  | .noResult => 19
  | .helpText _ => 20
  | .validation t _ => 21 + 2 * t
  | .other t => 22 + 2 * t

namespace Spec

/-- Policies that say something about the help only. -/
def ForHelpOnly : Policy → Bool
  | .description _ => true
  | .other _ => true
  | _ => false

/-- Policies that check values, or stand in for a value that is not given. -/
def ChecksOrStandsIn : Policy → Bool
  | .minMaxValue _ _ _ => true
  | .validation _ _ => true
  | .defaultValue _ => true
  | .required => true
  | .runtimeEnableRequired _ _ => true
  | _ => false

/-- The same policies but for what is there for the help only, in any order; no kind is given twice. -/
structure SameSet (p q : List Policy) : Prop where
  once : ((p.filter fun x => !ForHelpOnly x).map Policy.kindNo).Nodup
  same : (p.filter fun x => !ForHelpOnly x).Perm (q.filter fun x => !ForHelpOnly x)

/-- Policies that take no part in reading a command line: those for the help only, and those that check
values or say what becomes of an argument that is not given. -/
def SetAside : Policy → Bool
  | .description _ => true
  | .other _ => true
  | .minMaxValue _ _ _ => true
  | .validation _ _ => true
  | .defaultValue _ => true
  | .required => true
  | _ => false

/-- The same policies but for those that take no part in reading a command line, in any order; no other kind
is given twice. -/
structure SameReading (p q : List Policy) : Prop where
  once : ((p.filter fun x => !SetAside x).map Policy.kindNo).Nodup
  same : (p.filter fun x => !SetAside x).Perm (q.filter fun x => !SetAside x)

/-- The policies of a node declared in another way: no kind is given twice, and but for what is there for
the help only they are the same, in any order; only those that check values or stand in for them stay in the
order in which they were. -/
structure SamePolicies (p q : List Policy) : Prop extends SameSet p q where
  checks : p.filter ChecksOrStandsIn = q.filter ChecksOrStandsIn

/-- All policies of a node in any other order; no kind is given twice. -/
structure AnyOrder (p q : List Policy) : Prop where
  once : (p.map Policy.kindNo).Nodup
  same : p.Perm q

/-- All policies of a node in any other order, but those that check values or stand in for them in the order in
which they were. -/
structure Shuffled (p q : List Policy) : Prop where
  same : p.Perm q
  checks : p.filter ChecksOrStandsIn = q.filter ChecksOrStandsIn

mutual
/-- Two trees of the same shape. Nodes in the same place are of the same class, the same object and have the
same value type; `P` says how their policies may differ. The type of a node depends on the order of its
policies: `σ` gives the new types for the old ones. -/
inductive Alike (P : List Policy → List Policy → Prop) (σ : Nat → Nat) : Node → Node → Prop where
  | mk {k u h v p q cs ds} : P p q → AlikeAll P σ cs ds →
      Alike P σ (.mk k u h v p cs) (.mk k u (σ h) v q ds)
/-- Several trees of the same shape. -/
inductive AlikeAll (P : List Policy → List Policy → Prop) (σ : Nat → Nat) :
    List Node → List Node → Prop where
  | nil : AlikeAll P σ [] []
  | cons {c d cs ds} : Alike P σ c d → AlikeAll P σ cs ds → AlikeAll P σ (c :: cs) (d :: ds)
end

/-- A tree declared in another way: the policies of its nodes in other orders. -/
abbrev Redeclared (σ : Nat → Nat) : Node → Node → Prop := Alike SamePolicies σ

/-- The same past: the same routers have been called with the same values, and each `one_of` remembers the
same alternative. -/
def SamePast (σ : Nat → Nat) (s s' : St) : Prop :=
  s'.calls = s.calls ∧ s'.sel = s.sel.map fun x => (x.1, σ x.2)

end Spec

end ArgRouter
