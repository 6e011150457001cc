import Verif.Exc.Format
import Verif.Parse.Mode

/-!
# What the caller of `root.parse` sees
-/

namespace ArgRouter

/-- How a call of `root.parse` ends. root.hpp:147-180. -/
inductive Seen where
  | returned
  /-- a `parse_exception` with this `what()` -/
  | parseException (what : Bytes)
  /-- an exception of another type -/
  | foreign
  | ub
  | diverge
  deriving DecidableEq, Repr

/-- `root_t::parse`, root.hpp:147-180 with the handler at 173-178: a `multi_lang_exception` is
handed to `translate_exception`; nothing else is caught. `custom` and `fallback` are the tables of
the exception translator; a root without such a policy gets the default en_GB table as
its only one (root.hpp:27-47, 120-137). -/
def rootSeen (cfg : Config) (custom fallback : Translations) (root : Node) (args : List Bytes)
    (s : St) : Seen × St :=
  match parseArgs cfg root args s with
  | (.ok _, s') => (.returned, s')
  | (.throw e, s') =>
    (match translate cfg custom fallback e.ec.num e.tokens with
      | .ok msg => .parseException msg
      | .foreign => .foreign
      | .throw _ => .foreign
      | .ub => .ub
      | .diverge => .diverge, s')
  | (.foreign, s') => (.foreign, s')
  | (.ub, s') => (.ub, s')
  | (.diverge, s') => (.diverge, s')

end ArgRouter
