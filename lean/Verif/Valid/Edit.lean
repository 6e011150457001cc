import Verif.Valid.Rules

/-!
# Editing rule lists

include/arg_router/policy/validator_rule_utilities.hpp. A failing `static_assert` is `none`.
-/

namespace ArgRouter

/-- `find_index_of_rule_type`, validator_rule_utilities.hpp:40-53: the index of the first rule with
this key, or the number of rules. -/
def findRule (key : RuleKey) (rules : List Rule) : Nat := rules.findIdx fun r => r.key == key

/-- `insert_rule_t`, validator_rule_utilities.hpp:62-77 (`mp_insert_c`). -/
def insertRule (i : Nat) (r : Rule) (rules : List Rule) : Option (List Rule) :=
  if i ≤ rules.length then some (rules.take i ++ r :: rules.drop i) else none

/-- `remove_rule_t`, validator_rule_utilities.hpp:84-98 (`mp_erase_c<Rules, I, I + 1>`). -/
def removeRule (i : Nat) (rules : List Rule) : Option (List Rule) :=
  if i < rules.length then some (rules.take i ++ rules.drop (i + 1)) else none

/-- `remove_rule_by_type_t`, validator_rule_utilities.hpp:106-128: the rules themselves if there is no
rule with the key. -/
def removeRuleByType (key : RuleKey) (rules : List Rule) : List Rule :=
  if findRule key rules < rules.length then
    rules.take (findRule key rules) ++ rules.drop (findRule key rules + 1)
  else rules

/-- `update_rule_t`, validator_rule_utilities.hpp:136-151 (`mp_replace_at_c`). -/
def updateRule (i : Nat) (r : Rule) (rules : List Rule) : Option (List Rule) :=
  if i < rules.length then some (rules.take i ++ r :: rules.drop (i + 1)) else none

/-- `update_rule_by_type_t`, validator_rule_utilities.hpp:159-177. -/
def updateRuleByType (key : RuleKey) (r : Rule) (rules : List Rule) : Option (List Rule) :=
  if findRule key rules < rules.length then updateRule (findRule key rules) r rules else none

/-- `detail::appender`, validator_rule_utilities.hpp:13-35: only keys with a list of types can be
extended. -/
def RuleKey.append (t : TypeName) : RuleKey → Option RuleKey
  | .anyOf ts => some (.anyOf (ts ++ [t]))
  | .isPolicy => none

/-- `add_to_rule_types_t`, validator_rule_utilities.hpp:201-223. -/
def addToRuleTypes (i : Nat) (t : TypeName) (rules : List Rule) : Option (List Rule) :=
  match rules[i]? with
  | none => none
  | some r =>
    match r.key.append t with
    | none => none
    | some key => updateRule i ⟨key, r.conditions⟩ rules

/-- `add_to_rule_types_by_rule_t`, validator_rule_utilities.hpp:231-249. -/
def addToRuleTypesByRule (key : RuleKey) (t : TypeName) (rules : List Rule) : Option (List Rule) :=
  if findRule key rules < rules.length then addToRuleTypes (findRule key rules) t rules else none

end ArgRouter
