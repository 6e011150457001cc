import Verif.Exc.Root
import Verif.Util.Locale

/-!
# Programs in several languages

Model of include/arg_router/multi_lang/root.hpp and root_wrapper.hpp: one root for each language, of
which one is built.
-/

namespace ArgRouter

/-- A root made for a language: its tree, and the messages of its `exception_translator` policy.
multi_lang/root.hpp:100-104 and policy/exception_translator.hpp:31-47. -/
structure LanguageRoot where
  tree : Node
  errors : Translations

/-- The constructor of `multi_lang::root_t`, multi_lang/root.hpp:113-129: what the factory makes of
the language selected. `ids` has at least two elements (94). -/
def multiRoot {α : Type} (ids : List Bytes) (factory : Bytes → α) (requested : Bytes) : α :=
  factory (ids.getD (selectLanguage requested ids) [])

/-- `multi_lang::root_t::parse`, multi_lang/root.hpp:137-180: handed to the root that was built. The
default translations are the fallback of its translator, policy/exception_translator.hpp:31-32. -/
def multiSeen (cfg : Config) (ids : List Bytes) (factory : Bytes → LanguageRoot) (requested : Bytes)
    (args : List Bytes) (s : St) : Seen × St :=
  let root := multiRoot ids factory requested
  rootSeen cfg root.errors defaultTranslations root.tree args s

end ArgRouter
