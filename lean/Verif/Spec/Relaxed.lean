import Verif.Spec.Redeclared

/-!
# Programs that are less strict

Two trees of the same shape in which arguments are checked less strictly, or need no longer be given.
-/

namespace ArgRouter

namespace Spec

/-- A value passes a check: it is within the bounds, or the user's check has nothing against it. Policies that
check nothing let every value pass. -/
def Passes (v : Value) : Policy → Prop
  | .minMaxValue lo hi less => (∀ l, lo = some l → less v l = false) ∧ ∀ h, hi = some h → less h v = false
  | .validation _ f => f v = .ok ()
  | _ => True

/-- Policies that say what becomes of an argument that is not given. -/
def StandsIn : Policy → Bool
  | .defaultValue _ => true
  | .required => true
  | .runtimeEnableRequired _ _ => true
  | _ => false

/-- The policies `q` are less strict than `p`: they are for the same words on the command line, every value
that passes the checks of `p` passes those of `q`, and an argument that is not given is either an error with
`p`, or the same becomes of it. -/
structure Relaxes (p q : List Policy) : Prop where
  reading : SameReading p q
  checks : ∀ v, (∀ x ∈ p, Passes v x) → ∀ x ∈ q, Passes v x
  missing : .required ∈ p ∨ p.filter StandsIn = q.filter StandsIn

/-- A tree in which any number of nodes are less strict. -/
abbrev Relaxed (σ : Nat → Nat) : Node → Node → Prop := Alike Relaxes σ

/-- The run was ended by a check of a value, or because a required argument is missing: the error says so,
or it is how a check of the user's, of one of the nodes, has ended. -/
def Refused (root : Node) (o : Out Unit) : Prop :=
  (∃ e, o = .throw e ∧ (e.ec = .missing_required_argument ∨ e.ec = .minimum_value_not_reached ∨
    e.ec = .maximum_value_exceeded)) ∨
  ∃ n ∈ root.nodes, ∃ tag f v, .validation tag f ∈ n.policies ∧ f v = o ∧ o ≠ .ok ()

end Spec

end ArgRouter
