import Verif.Basic

/-!
# Languages

Locale names and the choice of the language of a multi-language root.
-/

namespace ArgRouter

/-- `multi_lang::iso_locale`, include/arg_router/multi_lang/iso_locale.hpp:35-53: everything before
the first `.` (46 = '.'; `find` gives `npos` when there is none, and `substr(0, npos)` is the whole
string), then every `-` (45) becomes `_` (95). -/
def isoLocale (name : Bytes) : Bytes :=
  let pos := (name.findIdx? (· == 46)).getD name.length
  let result := name.take pos
  result.map fun c => if c == 45 then 95 else c

/-- The loop over the languages in the constructor of `multi_lang::root_t`, multi_lang/root.hpp:
115-123 (`tuple_type_iterator` visits them in order): `sel` is the index held by `root_`, `i` the
index of the next language. `root_wrapper_t` runs the same loop, root_wrapper.hpp:94-101. -/
def selectLoop (requested : Bytes) : List Bytes → Nat → Option Nat → Option Nat
  | [], _, sel => sel
  | id :: ids, i, sel =>
    if sel.isSome || requested != id then selectLoop requested ids (i + 1) sel
    else selectLoop requested ids (i + 1) (some i)

/-- The constructor of `multi_lang::root_t`, multi_lang/root.hpp:113-129, and of `root_wrapper_t`,
root_wrapper.hpp:92-107: the index of the language whose root is built. -/
def selectLanguage (requested : Bytes) (ids : List Bytes) : Nat :=
  match selectLoop requested ids 0 none with
  | some i => i
  | none => 0

end ArgRouter
