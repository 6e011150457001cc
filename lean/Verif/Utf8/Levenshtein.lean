import Verif.Utf8.Grapheme

/-!
# Edit distance

Model of `levenshtein_distance`, include/arg_router/utility/utf8/levenshtein_distance.hpp:22-58.
-/

namespace ArgRouter.Utf8

/-- The inner loop, utility/utf8/levenshtein_distance.hpp:41-53: walks the clusters of the second
string together with the cost row. `row` holds `costs[j+1 ..]`, `left` is the already updated
`costs[j]`. Returns the updated `costs[j+1 ..]`. -/
def levRow (c1 : Bytes) : List Bytes → List Nat → (left corner : Nat) → List Nat
  | c2 :: cs2, upper :: row, left, corner =>
    let v := if c1 = c2 then corner else min left (min upper corner) + 1
    v :: levRow c1 cs2 row v upper
  | _, row, _, _ => row

/-- The outer loop, utility/utf8/levenshtein_distance.hpp:36-55. `costs` is the whole row; `i` the
number of clusters done. -/
def levLoop (b : List Bytes) : List Bytes → Nat → List Nat → List Nat
  | [], _, costs => costs
  | c1 :: a, i, costs => levLoop b a (i + 1) ((i + 1) :: levRow c1 b costs.tail (i + 1) i)

/-- The function on lists of grapheme clusters. utility/utf8/levenshtein_distance.hpp:31-57, with the
clusters already split. -/
def levClusters (a b : List Bytes) : Nat :=
  (levLoop b a 0 (List.range (b.length + 1))).getLastD 0

/-- `levenshtein_distance`, utility/utf8/levenshtein_distance.hpp:22-58. -/
def levenshtein (a b : Bytes) : Out Nat :=
  if a.isEmpty then gCount b
  else if b.isEmpty then gCount a
  else do
    let ga ← graphemes a
    let gb ← graphemes b
    return levClusters ga gb

end ArgRouter.Utf8
