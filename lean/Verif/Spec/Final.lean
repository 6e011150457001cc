import Verif.Spec.Typed

/-!
# Specification: errors that are final

Which errors in a command line are there whatever else is typed after it. The property is C121.
-/

namespace ArgRouter.Spec

/-- Typing more does not make this error go away: not one about missing values, nor about a command
line that is too long. -/
def FinalError : ErrorCode → Prop
  | .one_of_selected_type_mismatch | .argument_has_already_been_set | .missing_value_separator
  | .maximum_count_exceeded | .dependent_argument_missing => True
  | _ => False

/-- No argument of the mode that has a list with an end marker needs other arguments. -/
def ListsNeedNothing (mode : Node) : Prop :=
  ∀ a ∈ arguments mode, ∀ m refs, Policy.tokenEndMarker m ∈ a.2.policies →
    Policy.dependent refs ∉ a.2.policies

/-- The command line is read up to an error, and the error is final. -/
inductive EndsThere (mode : Node) : Result → Prop
  | unknown (t : Token) : EndsThere mode (.unknown t)
  | fails {e : Exc} (hf : FinalError e.ec)
      (hd : e.ec = .dependent_argument_missing → ListsNeedNothing mode) : EndsThere mode (.fails e)

end ArgRouter.Spec
