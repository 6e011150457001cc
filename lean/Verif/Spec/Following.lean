import Verif.Spec.Proper

/-!
# Specification vocabulary: doing what the error messages say

A user who has not given all required arguments is told about one of them, adds it and tries again. The
property is C125.
-/

namespace ArgRouter.Spec

/-- The use is for a child of the mode that must be given, and is not among `ps`. -/
structure Supplies (mode : Node) (ps : List TypedArg) (child : Node) (q : TypedArg) : Prop where
  at_ : mode.children[q.argument.1]? = some child
  valued : child.hasNoResult = false
  required : MustBeGiven child
  missing : ∀ p ∈ ps, p.argument.1 ≠ q.argument.1

end ArgRouter.Spec
