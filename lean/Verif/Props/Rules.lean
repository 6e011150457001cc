import Verif.Lemmas.Valid
import Verif.Valid.Edit

/-!
# C71: rules are found by first match and can be edited
-/

namespace ArgRouter.Spec

/-- Rule number `i` is the first one that applies to the node or policy. -/
def FirstRule (rules : List Rule) (it : Item) (i : Nat) (r : Rule) : Prop :=
  rules[i]? = some r ∧ r.key.matches it = true ∧
    ∀ (j : Nat) (q : Rule), j < i → rules[j]? = some q → q.key.matches it = false

/-- The rule is the first one with this key. -/
def FirstKey (rules : List Rule) (key : RuleKey) (i : Nat) : Prop :=
  (∃ r, rules[i]? = some r ∧ r.key = key) ∧
    ∀ (j : Nat) (q : Rule), j < i → rules[j]? = some q → q.key ≠ key

end ArgRouter.Spec

namespace ArgRouter.Props

open Spec

theorem find?_first {rules : List Rule} {it : Item} {i : Nat} {r : Rule}
    (h : FirstRule rules it i r) : rules.find? (fun r => r.key.matches it) = some r := by
  induction rules generalizing i with
  | nil => obtain ⟨h, -⟩ := h; simp at h
  | cons q rules ih =>
    obtain ⟨h1, h2, h3⟩ := h
    cases i with
    | zero =>
      simp only [List.getElem?_cons_zero, Option.some.injEq] at h1
      subst h1
      rw [List.find?_cons_of_pos (p := fun r : Rule => r.key.matches it) h2]
    | succ i =>
      have h0 := h3 0 q (by omega) rfl
      rw [List.find?_cons_of_neg (p := fun r : Rule => r.key.matches it) (by simp [h0])]
      exact ih ⟨by simpa using h1, h2, fun j p hj hp =>
        h3 (j + 1) p (by omega) (by simpa using hp)⟩

theorem first_of_find? {rules : List Rule} {it : Item} {r : Rule}
    (h : rules.find? (fun r => r.key.matches it) = some r) : ∃ i, FirstRule rules it i r := by
  induction rules with
  | nil => simp at h
  | cons q rules ih =>
    by_cases hq : q.key.matches it = true
    · rw [List.find?_cons_of_pos (p := fun r : Rule => r.key.matches it) hq, Option.some.injEq] at h
      subst h
      exact ⟨0, rfl, hq, fun j p hj => by omega⟩
    · rw [List.find?_cons_of_neg (p := fun r : Rule => r.key.matches it) hq] at h
      obtain ⟨i, h1, h2, h3⟩ := ih h
      refine ⟨i + 1, by simpa using h1, h2, fun j p hj hp => ?_⟩
      cases j with
      | zero =>
        simp only [List.getElem?_cons_zero, Option.some.injEq] at hp
        subst hp; simpa using hq
      | succ j => exact h3 j p (by omega) (by simpa using hp)

/-- A node or policy passes the check if and only if there is a rule that applies to it and the
conditions of the *first* such rule hold. -/
theorem C71_first_match (rules : List Rule) (it : Item) (parents : List Node) :
    checkItem rules (it, parents) = true ↔
      ∃ i r, FirstRule rules it i r ∧ ∀ c ∈ r.conditions, c.holds it parents = true := by
  unfold checkItem
  constructor
  · intro h
    cases hr : rules.find? (fun r => r.key.matches it) with
    | none => simp [hr] at h
    | some r =>
      obtain ⟨i, hi⟩ := first_of_find? hr
      simp only [hr, List.all_eq_true] at h
      exact ⟨i, r, hi, h⟩
  · rintro ⟨i, r, hi, h⟩
    simp only [find?_first hi, List.all_eq_true]
    exact h

/-- Validation succeeds if and only if every node and every policy of the tree, with its ancestors,
passes the check. -/
theorem C71_validate (rules : List Rule) (root : Node) :
    validate rules root = true ↔
      ∀ p n, nodeAt root p = some n →
        checkItem rules (.node n, lineage root p) = true ∧
        ∀ q ∈ n.policies, checkItem rules (.policy q, n :: lineage root p) = true := by
  rw [validate_iff]
  exact ⟨fun h p n hn => ⟨h.1 p n hn, fun q hq => h.2 p n q hn hq⟩,
    fun h => ⟨fun p n hn => (h p n hn).1, fun p n q hn hq => (h p n hn).2 q hq⟩⟩

/-- Inserting works exactly for the indices up to the number of rules; the rules before the index
keep their place, the others move up by one. -/
theorem C71_insert (i : Nat) (r : Rule) (rules : List Rule) :
    (i ≤ rules.length ↔ (insertRule i r rules).isSome) ∧
    ∀ out, insertRule i r rules = some out →
      ∀ j, out[j]? = if j < i then rules[j]? else if j = i then some r else rules[j - 1]? := by
  unfold insertRule
  constructor
  · split <;> simp_all
  · intro out h j
    split at h
    · rename_i hi
      cases h
      rw [List.getElem?_append]
      have hl : (rules.take i).length = i := by rw [List.length_take]; omega
      rw [hl]
      split
      · rename_i hj; rw [List.getElem?_take_of_lt hj]
      · split
        · rename_i h1; subst h1; simp
        · have : j - i = (j - i - 1) + 1 := by omega
          rw [this, List.getElem?_cons_succ, List.getElem?_drop]
          congr 1; omega
    · cases h

/-- Removing works exactly for the indices of rules; the rules before the index keep their place,
those after it move down by one. -/
theorem C71_remove (i : Nat) (rules : List Rule) :
    (i < rules.length ↔ (removeRule i rules).isSome) ∧
    ∀ out, removeRule i rules = some out →
      ∀ j, out[j]? = if j < i then rules[j]? else rules[j + 1]? := by
  unfold removeRule
  constructor
  · split <;> simp_all
  · intro out h j
    split at h
    · cases h
      rw [List.getElem?_append]
      have hl : (rules.take i).length = i := by rw [List.length_take]; omega
      rw [hl]
      split
      · rename_i hj; rw [List.getElem?_take_of_lt hj]
      · rw [List.getElem?_drop]; congr 1; omega
    · cases h

/-- Replacing works exactly for the indices of rules and changes the rule at that index only. -/
theorem C71_update (i : Nat) (r : Rule) (rules : List Rule) :
    (i < rules.length ↔ (updateRule i r rules).isSome) ∧
    ∀ out, updateRule i r rules = some out →
      ∀ j, out[j]? = if j = i then some r else rules[j]? := by
  unfold updateRule
  constructor
  · split <;> simp_all
  · intro out h j
    split at h
    · cases h
      rw [List.getElem?_append]
      have hl : (rules.take i).length = i := by rw [List.length_take]; omega
      rw [hl]
      split
      · rename_i hj; rw [List.getElem?_take_of_lt hj, if_neg (by omega)]
      · split
        · rename_i h1; subst h1; simp
        · have : j - i = (j - i - 1) + 1 := by omega
          rw [this, List.getElem?_cons_succ, List.getElem?_drop]
          congr 1; omega
    · cases h

theorem findRule_spec (key : RuleKey) (rules : List Rule) :
    (findRule key rules < rules.length ↔ ∃ r ∈ rules, r.key = key) ∧
    (findRule key rules < rules.length → FirstKey rules key (findRule key rules)) := by
  unfold findRule
  constructor
  · rw [List.findIdx_lt_length]; simp
  · intro h
    refine ⟨⟨_, List.getElem?_eq_getElem h, by simpa using List.findIdx_getElem (w := h)⟩, ?_⟩
    intro j q hj hq
    have := List.not_of_lt_findIdx hj
    have hq' := (List.getElem?_eq_some_iff.1 hq)
    rw [hq'.2] at this
    simpa using this

/-- The index found for a key is that of the first rule with the key, if there is one, and the number
of rules otherwise. -/
theorem C71_find (key : RuleKey) (rules : List Rule) :
    (∀ i, FirstKey rules key i → findRule key rules = i) ∧
    ((∀ r ∈ rules, r.key ≠ key) → findRule key rules = rules.length) := by
  constructor
  · rintro i ⟨⟨r, hr, hk⟩, hi⟩
    have hlt : findRule key rules < rules.length :=
      (findRule_spec key rules).1.2 ⟨r, List.mem_of_getElem? hr, hk⟩
    obtain ⟨⟨q, hq, hqk⟩, hf⟩ := (findRule_spec key rules).2 hlt
    rcases Nat.lt_trichotomy (findRule key rules) i with h | h | h
    · exact absurd hqk (hi _ q h hq)
    · exact h
    · exact absurd hk (hf i r h hr)
  · intro h
    have hn : ¬ findRule key rules < rules.length := fun hlt => by
      obtain ⟨r, hr, hk⟩ := (findRule_spec key rules).1.1 hlt
      exact h r hr hk
    have : findRule key rules ≤ rules.length := List.findIdx_le_length
    omega

/-- Editing by key is editing the first rule with that key. Without such a rule, removing changes
nothing, and replacing and extending are errors. -/
theorem C71_by_key (key : RuleKey) (r : Rule) (t : TypeName) (rules : List Rule) :
    (∀ i, FirstKey rules key i →
      removeRule i rules = some (removeRuleByType key rules) ∧
      updateRuleByType key r rules = updateRule i r rules ∧
      addToRuleTypesByRule key t rules = addToRuleTypes i t rules) ∧
    ((∀ q ∈ rules, q.key ≠ key) →
      removeRuleByType key rules = rules ∧ updateRuleByType key r rules = none ∧
      addToRuleTypesByRule key t rules = none) := by
  constructor
  · intro i hi
    have hf := (C71_find key rules).1 i hi
    have hlt : i < rules.length := by
      obtain ⟨⟨q, hq, _⟩, _⟩ := hi
      exact (List.getElem?_eq_some_iff.1 hq).1
    simp [removeRule, removeRuleByType, updateRuleByType, addToRuleTypesByRule, hf, hlt]
  · intro h
    have hf := (C71_find key rules).2 h
    simp [removeRuleByType, updateRuleByType, addToRuleTypesByRule, hf]

/-- Extending a rule keeps its conditions and makes it apply to what it applied to before and to the
new type, and to nothing else; the other rules are untouched. -/
theorem C71_extend (i : Nat) (t : TypeName) (rules out : List Rule)
    (h : addToRuleTypes i t rules = some out) :
    ∃ old new, rules[i]? = some old ∧ out[i]? = some new ∧ new.conditions = old.conditions ∧
      (∀ it, new.key.matches it = true ↔ old.key.matches it = true ∨
        (match it with | .node n => t = .node n.kind | .policy p => t = .policy p.kind)) ∧
      ∀ j, j ≠ i → out[j]? = rules[j]? := by
  unfold addToRuleTypes at h
  cases hr : rules[i]? with
  | none => simp [hr] at h
  | some r =>
    simp only [hr] at h
    cases hk : r.key with
    | isPolicy => simp [hk, RuleKey.append] at h
    | anyOf ts =>
      simp only [hk, RuleKey.append] at h
      have hu := (C71_update i ⟨.anyOf (ts ++ [t]), r.conditions⟩ rules).2 out h
      refine ⟨r, ⟨.anyOf (ts ++ [t]), r.conditions⟩, rfl, by simpa using hu i, rfl, ?_, ?_⟩
      · intro it
        rw [hk]
        cases it with
        | node n => simp only [RuleKey.matches, List.contains_eq_mem, List.mem_append,
            List.mem_singleton, decide_eq_true_eq]; rw [@eq_comm _ t]
        | policy p => simp only [RuleKey.matches, List.contains_eq_mem, List.mem_append,
            List.mem_singleton, decide_eq_true_eq]; rw [@eq_comm _ t]
      · intro j hj
        rw [hu j, if_neg hj]

theorem checkItem_congr {rules out : List Rule} {v : Visit}
    (h : rules.find? (fun r => r.key.matches v.1) = out.find? (fun r => r.key.matches v.1)) :
    checkItem rules v = checkItem out v := by
  unfold checkItem; rw [h]

theorem find?_skip {α} (f : α → Bool) (l₁ l₂ : List α) (a : α) (h : f a = false) :
    (l₁ ++ a :: l₂).find? f = (l₁ ++ l₂).find? f := by
  rw [List.find?_append, List.find?_append, List.find?_cons_of_neg (by simp [h])]

theorem split_at_idx {α} {l : List α} {i : Nat} {a : α} (h : l[i]? = some a) :
    l = l.take i ++ a :: l.drop (i + 1) := by
  obtain ⟨hi, e⟩ := List.getElem?_eq_some_iff.1 h
  conv => lhs; rw [← List.take_append_drop i l, List.drop_eq_getElem_cons hi, e]

/-- Inserting, removing or replacing a rule makes no difference for the nodes and policies that
neither the new nor the old rule at that index applies to. -/
theorem C71_unaffected (i : Nat) (r : Rule) (rules out : List Rule) (v : Visit) :
    (insertRule i r rules = some out → r.key.matches v.1 = false →
      checkItem out v = checkItem rules v) ∧
    (removeRule i rules = some out → (∀ q, rules[i]? = some q → q.key.matches v.1 = false) →
      checkItem out v = checkItem rules v) ∧
    (updateRule i r rules = some out → r.key.matches v.1 = false →
      (∀ q, rules[i]? = some q → q.key.matches v.1 = false) →
      checkItem out v = checkItem rules v) := by
  refine ⟨?_, ?_, ?_⟩
  · intro h hr
    unfold insertRule at h
    split at h
    · cases h
      refine checkItem_congr ?_
      rw [find?_skip (fun r : Rule => r.key.matches v.1) _ _ _ hr, List.take_append_drop]
    · cases h
  · intro h hr
    unfold removeRule at h
    split at h
    · rename_i hi
      cases h
      have hq := List.getElem?_eq_getElem hi
      refine checkItem_congr ?_
      conv => rhs; rw [split_at_idx hq]
      rw [find?_skip (fun r : Rule => r.key.matches v.1) _ _ _ (hr _ hq)]
    · cases h
  · intro h hr hr'
    unfold updateRule at h
    split at h
    · rename_i hi
      cases h
      have hq := List.getElem?_eq_getElem hi
      refine checkItem_congr ?_
      conv => rhs; rw [split_at_idx hq]
      rw [find?_skip (fun r : Rule => r.key.matches v.1) _ _ _ hr, find?_skip (fun r : Rule => r.key.matches v.1) _ _ _ (hr' _ hq)]
    · cases h

/-- A rule inserted in front of every other rule that applies to a node or policy decides about it. -/
theorem C71_override (i : Nat) (r : Rule) (rules out : List Rule) (it : Item) (parents : List Node)
    (h : insertRule i r rules = some out) (hm : r.key.matches it = true)
    (hno : ∀ (j : Nat) (q : Rule), j < i → rules[j]? = some q → q.key.matches it = false) :
    checkItem out (it, parents) = true ↔ ∀ c ∈ r.conditions, c.holds it parents = true := by
  have hi : FirstRule out it i r := by
    have hs := (C71_insert i r rules).2 out h
    refine ⟨by simpa using hs i, hm, fun j q hj hq => ?_⟩
    rw [hs j, if_pos hj] at hq
    exact hno j q hj hq
  unfold checkItem
  simp only [find?_first hi, List.all_eq_true]

section Examples

/-- The default rules have 19 entries; the rule for arguments is number 9 and can be extended, the
generic policy rule cannot. -/
example : defaultRules.length = 19 ∧ findRule (.anyOf [.node .arg]) defaultRules = 9 ∧
    (addToRuleTypes 9 (.node .help) defaultRules).isSome ∧
    addToRuleTypes 7 (.node .help) defaultRules = none := by decide +kernel

example : FirstKey defaultRules (.anyOf [.node .arg]) 9 := by
  refine ⟨⟨_, rfl, rfl⟩, ?_⟩
  intro j q hj hq
  have hj' : j = 0 ∨ j = 1 ∨ j = 2 ∨ j = 3 ∨ j = 4 ∨ j = 5 ∨ j = 6 ∨ j = 7 ∨ j = 8 := by omega
  rcases hj' with rfl | rfl | rfl | rfl | rfl | rfl | rfl | rfl | rfl <;> cases hq <;> decide

/-- Two of the default rules apply to a `one_of`, number 14 and number 15: the first one counts. -/
example (n : Node) (hn : n.kind = .oneOf) :
    FirstRule defaultRules (.node n) 14 ⟨.anyOf [.node .oneOf],
      [.mustNotHave [.noResult, .multiStage, .validator], .childMustNotHave .required,
       .childMustNotHave .defaultValue, .parentTypes [(0, .mode)]]⟩ ∧
    (∃ r, defaultRules[15]? = some r ∧ r.key.matches (.node n) = true) := by
  refine ⟨⟨rfl, by simp [RuleKey.matches, hn], ?_⟩, _, rfl, by simp [RuleKey.matches, hn]⟩
  intro j q hj hq
  have hj' : j = 0 ∨ j = 1 ∨ j = 2 ∨ j = 3 ∨ j = 4 ∨ j = 5 ∨ j = 6 ∨ j = 7 ∨ j = 8 ∨ j = 9 ∨
    j = 10 ∨ j = 11 ∨ j = 12 ∨ j = 13 := by omega
  rcases hj' with rfl | rfl | rfl | rfl | rfl | rfl | rfl | rfl | rfl | rfl | rfl | rfl | rfl | rfl <;>
    cases hq <;> simp [RuleKey.matches, hn]

end Examples

end ArgRouter.Props
