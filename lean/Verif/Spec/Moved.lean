import Verif.Spec.Typed

/-!
# Specification: the same mode in another program

Two modes that contain the same, whatever they are called and wherever they are, and what it means
that two runs of programs that get to these modes are the same. The property is C120.
-/

namespace ArgRouter.Spec

/-- The two modes contain the same. They may have other names and other routers. -/
structure SameInside (mode mode' : Node) : Prop where
  children : mode.children = mode'.children
  router : Policy.router ∈ mode.policies ↔ Policy.router ∈ mode'.policies
  enabled : mode.runtimeEnabled = mode'.runtimeEnabled
  /-- modes do not have the names of flags -/
  plain : ∀ s, Policy.longName s ∉ mode.policies ++ mode'.policies ∧
    Policy.shortName s ∉ mode.policies ++ mode'.policies
  /-- neither of them is part of itself -/
  proper : ∀ c ∈ mode.children, ∀ x ∈ c.nodes, x.hash ≠ mode.hash ∧ x.hash ≠ mode'.hash

/-- Two runs that began with the state `s`, one with `mode` and one with `mode'`, are the same. -/
inductive SameThere (mode mode' : Node) (s : St) : Out Unit × St → Out Unit × St → Prop
  /-- each calls its router, both with the same values -/
  | calls (vals : List Value) (sel : Choices) : SameThere mode mode' s
      (.ok (), ⟨sel, s.calls ++ [⟨mode.uid, vals⟩]⟩) (.ok (), ⟨sel, s.calls ++ [⟨mode'.uid, vals⟩]⟩)
  /-- both fail in the same way, without a call -/
  | fails (o : Out Unit) (sel : Choices) (hne : o ≠ .ok ()) : SameThere mode mode' s
      (o, ⟨sel, s.calls⟩) (o, ⟨sel, s.calls⟩)
  /-- there are no routers, and each says so of its mode -/
  | noRouter (sel : Choices) : SameThere mode mode' s
      (.throw ⟨.mode_requires_arguments, [mode.tokenType]⟩, ⟨sel, s.calls⟩)
      (.throw ⟨.mode_requires_arguments, [mode'.tokenType]⟩, ⟨sel, s.calls⟩)

end ArgRouter.Spec
