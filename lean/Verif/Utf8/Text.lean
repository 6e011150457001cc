import Verif.Utf8.TableWhitespace
import Verif.Utf8.TableDoubleWidth
import Verif.Utf8.TableZeroWidth

/-!
# Whitespace and terminal width

Model of `is_whitespace`, `contains_whitespace` and `terminal_width`
(include/arg_router/utility/utf8.hpp:289-338).
-/

namespace ArgRouter.Utf8

/-- `is_whitespace`, utf8.hpp:289-297: looks at the leading code point only. -/
def isWhitespace (s : Bytes) : Bool :=
  match decode s with
  | none => false
  | some cp => (findRange whitespaceTable cp).isSome

/-- Loop of `contains_whitespace`, utf8.hpp:304-313. -/
def containsWhitespaceAux : Nat → Bytes → Out Bool
  | _, [] => .ok false
  | 0, _ :: _ => .diverge
  | fuel + 1, s@(_ :: _) =>
    if isWhitespace (cpDeref s) then .ok true
    else do
      let s' ← cpNext s
      containsWhitespaceAux fuel s'

/-- `contains_whitespace`, utf8.hpp:304-313. -/
def containsWhitespace (s : Bytes) : Out Bool := containsWhitespaceAux s.length s

/-- Body of the loop of `terminal_width`, utf8.hpp:325-334: columns of one code point. -/
def cpWidth (s : Bytes) : Nat :=
  match decode s with
  | none => 0
  | some cp =>
    if (findRange doubleWidthTable cp).isSome then 2
    else if (findRange zeroWidthTable cp).isSome then 0
    else 1

/-- Loop of `terminal_width`, utf8.hpp:321-338. -/
def terminalWidthAux : Nat → Nat → Bytes → Out Nat
  | _, width, [] => .ok width
  | 0, _, _ :: _ => .diverge
  | fuel + 1, width, s@(_ :: _) => do
    let width' := width + cpWidth (cpDeref s)
    let s' ← cpNext s
    terminalWidthAux fuel width' s'

/-- `terminal_width`, utf8.hpp:321-338. -/
def terminalWidth (s : Bytes) : Out Nat := terminalWidthAux s.length 0 s

end ArgRouter.Utf8
