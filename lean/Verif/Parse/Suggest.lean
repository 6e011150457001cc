import Verif.Parse.Node
import Verif.Utf8.Levenshtein

/-!
# Suggestions for unknown arguments

Model of `closest_matching_child_node`, include/arg_router/utility/utf8/levenshtein_distance.hpp:
70-148, and of `unknown_argument_exception`,
include/arg_router/parsing/unknown_argument_handling.hpp:19-35.
-/

namespace ArgRouter

open Utf8

/-- The names of a node in the order they are tried, utility/utf8/levenshtein_distance.hpp:116-142. -/
def Node.nameTokens (n : Node) : List Token :=
  (n.longName.map (Token.mk .long)).toList ++ (n.shortName.map (Token.mk .short)).toList ++
    (n.noneName.map (Token.mk .none)).toList

/-- The candidates in the order they are tried: every enabled node below the start node, with the
tokens of its parents up to but excluding the start node
(utility/utf8/levenshtein_distance.hpp:86-142). -/
def candidates (start : Node) : List (List Token) :=
  (start.walk []).flatMap fun (child, parents) =>
    if parents.isEmpty || isRuntimeDisabled (child :: parents) then []
    else child.nameTokens.map fun t => t :: parents.dropLast.map Node.tokenType

/-- `best_token`/`best_score` update: a strictly smaller score wins
(utility/utf8/levenshtein_distance.hpp:119-123). The initial score is `SIZE_MAX`. -/
def closestLoop (name : Bytes) : List (List Token) → List Token → Nat → Out (List Token)
  | [], best, _ => .ok best
  | c :: cs, best, score => do
    let s ← levenshtein name ((c.head?.map Token.name).getD [])
    if s < score then closestLoop name cs c s else closestLoop name cs best score

/-- `closest_matching_child_node`. utility/utf8/levenshtein_distance.hpp:70-148. -/
def closest (cfg : Config) (start : Node) (t : Token) : Out (List Token) :=
  let t := if t.pre == .none then getTokenType cfg t.name else t
  closestLoop t.name (candidates start) [] sizeMax

/-- `unknown_argument_exception`: always throws. parsing/unknown_argument_handling.hpp:19-35. -/
def unknownArgument {α : Type} (cfg : Config) (node : Node) (t : Token) : Out α := do
  let found ← closest cfg node t
  if found.isEmpty then .throw ⟨.unknown_argument, [t]⟩
  else .throw ⟨.unknown_argument_with_suggestion, t :: found.reverse⟩

end ArgRouter
