import Verif.Parse.Node

/-!
# Recursion through the types of a parse tree

`utility::tree_type_recursor` visits nodes and policies and is what the validator is built on. In
C++ everything here is a type; "the same type" is modelled by equal `Node.hash` for nodes, and by
equal template and equal string for name policies (the only policies whose types are compared).
-/

namespace ArgRouter

/-- The templates policies are specialisations of (include/arg_router/policy/*.hpp). `validator` and
`exceptionTranslator` are the policies `other 0` and `other 1` of the model, every further tag is a
template of its own. Simplification: `min_max_value_t` and `min_max_value_ct` are one template. -/
inductive PKind where
  | longName | shortName | noneName | displayName | errorName | description | required
  | defaultValue | minMaxCount | valueSeparator | shortFormExpander | tokenEndMarker
  | runtimeEnable | runtimeEnableRequired | alias | dependent | minMaxValue | customParser
  | router | multiStage | noResult | helpFormatter | validator | exceptionTranslator
  | validation (tag : Nat) | other (tag : Nat)
  deriving DecidableEq, Repr

/-- The despecialised type of a policy (traits::is_specialisation_of, is_same_when_despecialised).
traits.hpp:161-203 and policy/validator.hpp:169-178. -/
def Policy.kind : Policy → PKind
  | .longName _ => .longName
  | .shortName _ => .shortName
  | .noneName _ => .noneName
  | .displayName _ => .displayName
  | .errorName _ => .errorName
  | .description _ => .description
  | .required => .required
  | .defaultValue _ => .defaultValue
  | .minMaxCount _ _ => .minMaxCount
  | .valueSeparator _ => .valueSeparator
  | .shortFormExpander => .shortFormExpander
  | .tokenEndMarker _ => .tokenEndMarker
  | .runtimeEnable _ => .runtimeEnable
  | .runtimeEnableRequired _ _ => .runtimeEnableRequired
  | .alias _ => .alias
  | .dependent _ => .dependent
  | .minMaxValue _ _ _ => .minMaxValue
  | .customParser _ => .customParser
  | .router => .router
  | .multiStage _ => .multiStage
  | .noResult => .noResult
  | .helpText _ => .helpFormatter
  | .validation t _ => .validation t
  | .other 0 => .validator
  | .other 1 => .exceptionTranslator
  | .other (n + 2) => .other n

/-- The type of a name policy, `long_name_t<S>`, `short_name_t<S>` or `none_name_t<S>`: its template
and its string (long_name.hpp:22-23, short_name.hpp:27-28, none_name.hpp:25-26). -/
def Policy.nameType : Policy → Option (PKind × Bytes)
  | .longName s => some (.longName, s)
  | .shortName s => some (.shortName, s)
  | .noneName s => some (.noneName, s)
  | _ => none

/-- What `tree_type_recursor` visits: tree nodes and policies. utility/tree_recursor.hpp:36-53. -/
inductive Item where
  | node (n : Node)
  | policy (p : Policy)

/-- A visit: the item and its parents, nearest first (`Current, Parents...`).
utility/tree_recursor.hpp:36-53. -/
abbrev Visit := Item × List Node

mutual
/-- `tree_type_recursor_impl`, tree_recursor.hpp:36-53: the visits of the subtree of a node with
parents `ps`, in order. `skip` is the `SkipFn`: skipped items are not visited, and neither is what is
below them. -/
def typeWalk (skip : Item → List Node → Bool) (ps : List Node) : Node → List Visit
  | .mk k u h v p cs =>
    if skip (.node (.mk k u h v p cs)) ps then []
    else
      (.node (.mk k u h v p cs), ps) ::
        ((p.filter fun q => !skip (.policy q) (.mk k u h v p cs :: ps)).map fun q =>
            ((.policy q, .mk k u h v p cs :: ps) : Visit)) ++
          typeWalkList skip (.mk k u h v p cs :: ps) cs
/-- The loop of `tree_type_recursor_impl` over the children. utility/tree_recursor.hpp:36-53. -/
def typeWalkList (skip : Item → List Node → Bool) (ps : List Node) : List Node → List Visit
  | [] => []
  | c :: cs => typeWalk skip ps c ++ typeWalkList skip ps cs
end

/-- `detail::always_false`, tree_recursor.hpp:14-20. -/
def noSkip (_ : Item) (_ : List Node) : Bool := false

end ArgRouter
