import Verif.Spec.Proper
import Verif.Spec.NewLabels

/-!
# Specification vocabulary: the same arguments, called and typed in another way

Two programs want the same values from their users, but have other names for them, other separators and
end markers, and other rules for what has to be typed with what. The property is C124.
-/

namespace ArgRouter.Spec

/-- What a policy says about the value of an argument, if it says anything: not how the argument is called
or described, or how it is typed (with which label, separator and end marker, how many words, and after what
others). An alias has no value of its own. -/
def AboutValues : Policy → Option Policy
  | .longName _ | .shortName _ | .noneName _ | .displayName _ | .errorName _ | .description _ => none
  | .minMaxCount _ _ | .valueSeparator _ | .shortFormExpander | .tokenEndMarker _ => none
  | .dependent _ | .runtimeEnable _ | .helpText _ | .other _ => none
  | .alias _ => some .noResult
  | p => some p

/-- The two modes have the same children, as far as their values go. `σ` gives the types of the second for
those of the first. -/
abbrev SameValues (σ : Nat → Nat) (mode mode' : Node) : Prop :=
  Alike (fun p q => p.filterMap AboutValues = q.filterMap AboutValues) σ mode mode'

/-- The same argument of the two modes, with the same values. -/
def SameInput (mode mode' : Node) (p p' : TypedArg) : Prop :=
  (∃ k : Nat, (arguments mode)[k]? = some p.argument ∧ (arguments mode')[k]? = some p'.argument) ∧
    p.values = p'.values

/-- Both runs call the router of the mode with the same values, or both fail for the same reason and
call nothing. -/
inductive SameWorth (mode mode' : Node) (s s' : St) : Out Unit × St → Out Unit × St → Prop
  | calls {r r' : St} (vals : List Value) (h : r.calls = s.calls ++ [⟨mode.uid, vals⟩])
      (h' : r'.calls = s'.calls ++ [⟨mode'.uid, vals⟩]) :
      SameWorth mode mode' s s' (.ok (), r) (.ok (), r')
  | fails {o o' : Out Unit} {r r' : St} (ho : SameReason mode mode' o o') (h : r.calls = s.calls)
      (h' : r'.calls = s'.calls) : SameWorth mode mode' s s' (o, r) (o', r')

end ArgRouter.Spec
