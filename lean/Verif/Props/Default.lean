import Verif.Spec.Default
import Verif.Props.Conditions
import Verif.Props.Reference

/-!
# C102 – what the default validator accepts
-/

namespace ArgRouter.Props

open Spec

section
variable {root : Node} {p : List Nat} {n : Node} {q : Policy} {parents : List Node}

theorem alone_iff (hq : q ∈ n.policies) :
    Condition.uniqueInOwner.holds (.policy q) (n :: parents) = true ↔ Alone n q := by
  simp only [Condition.holds, Node.countKind, beq_iff_eq]
  rw [countP_eq_one]
  constructor
  · rintro ⟨i, a, ha, hk, h⟩ k i' j r s hq hr hs h1 h2
    rw [madeFrom_iff] at hq h1 h2
    subst hq
    rw [h i' r hr (by simpa using h1), h j s hs (by simpa using h2)]
  · intro h
    obtain ⟨i, hi, he⟩ := List.getElem_of_mem hq
    refine ⟨i, q, by rw [List.getElem?_eq_getElem hi, he], by simp, fun j a ha hk => ?_⟩
    exact h q.kind j i a q (madeFrom_iff.2 rfl) ha (by rw [List.getElem?_eq_getElem hi, he])
      (madeFrom_iff.2 (by simpa using hk)) (madeFrom_iff.2 rfl)

theorem nameFree_iff (hn : nodeAt root p = some n) (hq : q ∈ n.policies) :
    (Condition.uniqueToMode [.mode]).holds (.policy q) (n :: lineage root p) = true ↔
      NameFree root p n q := by
  by_cases hp : p = []
  · subst hp
    simp [Condition.holds, NameFree, lineage]
  · have hlen : 1 < (n :: lineage root p).length := by
      rw [List.length_cons, lineage_length p root n hn]
      have := List.length_pos_iff.2 hp
      omega
    constructor
    · intro h
      refine .inr fun pm r m hpr hm => ?_
      have ha : nodeAt m r = some n := by
        rw [← hpr, nodeAt_append, hm.at_] at hn; exact hn
      exact (C99_unique_partial (it := .policy q) (.policy hn hq) hlen hpr hm ha).1 h
    · intro h
      have h := h.resolve_left hp
      obtain ⟨pm, r, m, hpr, hm⟩ := nearest_exists [.mode] root p ⟨n, hn⟩
      have ha : nodeAt m r = some n := by
        rw [← hpr, nodeAt_append, hm.at_] at hn; exact hn
      exact (C99_unique_partial (it := .policy q) (.policy hn hq) hlen hpr hm ha).2 (h pm r m hpr hm)

theorem parentMustNotHave_iff (k : PKind) :
    (Condition.parentMustNotHave k).holds (.policy q) (n :: parents) = true ↔ ¬ Carries n k := by
  simp only [Condition.holds, Bool.not_eq_true', ← has_iff, Bool.not_eq_true]

theorem without_iff (ks : List PKind) :
    (Condition.mustNotHave ks).holds (.node n) parents = true ↔ Without n ks := by
  simp only [Condition.holds, List.all_eq_true, Bool.not_eq_true', Without, ← has_iff,
    Bool.not_eq_true]

theorem parent_iff (ks : List Kind) :
    (Condition.parentTypes (ks.map fun k => (0, k))).holds (.node n) parents = true ↔
      ∃ m above, parents = m :: above ∧ m.kind ∈ ks := by
  cases parents <;> simp [Condition.holds]

theorem policyAllowed_iff (hn : nodeAt root p = some n) (hq : q ∈ n.policies) :
    checkItem defaultRules (.policy q, n :: lineage root p) = true ↔ PolicyAllowed root p n q := by
  have ha := alone_iff (parents := lineage root p) hq
  have hf := nameFree_iff hn hq
  have hm := fun k => parentMustNotHave_iff (q := q) (n := n) (parents := lineage root p) k
  cases q
  case other t =>
    rcases t with _ | _ | t <;>
      simp [checkItem, defaultRules, RuleKey.matches, Policy.kind, PolicyAllowed, ha]
    intro _
    simp [Condition.holds]
  case router =>
    simp [checkItem, defaultRules, RuleKey.matches, Policy.kind, PolicyAllowed, ha]
    intro _
    cases lineage root p <;> simp [Condition.holds]
  all_goals
    simp [checkItem, defaultRules, RuleKey.matches, Policy.kind, PolicyAllowed, ha, hf, hm]

theorem nodeAllowed_iff :
    checkItem defaultRules (.node n, parents) = true ↔ NodeAllowed n parents := by
  have hw := fun ks => without_iff (n := n) (parents := parents) ks
  have hc := fun k => C99_child_partial k n parents
  have hr : (Condition.parentTypes [(0, .root)]).holds (.node n) parents = true ↔ UnderRoot parents := by
    have := parent_iff (n := n) (parents := parents) [.root]
    simpa [UnderRoot] using this
  have hm : (Condition.parentTypes [(0, .mode)]).holds (.node n) parents = true ↔ UnderMode parents := by
    have := parent_iff (n := n) (parents := parents) [.mode]
    simpa [UnderMode] using this
  have hrm : (Condition.parentTypes [(0, .root), (0, .mode)]).holds (.node n) parents = true ↔
      UnderRoot parents ∨ UnderMode parents := by
    have := parent_iff (n := n) (parents := parents) [.root, .mode]
    simp only [List.map_cons, List.map_nil, List.mem_cons, List.not_mem_nil, or_false] at this
    rw [this]
    constructor
    · rintro ⟨m, above, h, h1 | h1⟩
      · exact .inl ⟨m, above, h, h1⟩
      · exact .inr ⟨m, above, h, h1⟩
    · rintro (⟨m, above, h, h1⟩ | ⟨m, above, h, h1⟩)
      · exact ⟨m, above, h, .inl h1⟩
      · exact ⟨m, above, h, .inr h1⟩
  have hd := fun c hc => C99_documented_partial (root := n) (p := []) (it := .node n)
    (parents := parents) c hc
  have hv : (Condition.mustHave [.validator]).holds (.node n) parents = true ↔
      Carries n .validator := by
    rw [hd _ (by simp [FallsShort])]; simp [Documented]
  have h1 : Condition.minOneIfRequired.holds (.node n) parents = true ↔
      (Carries n .required → ∀ mn mx, n.minMaxCount = some (mn, mx) → 1 ≤ mn) := by
    rw [hd _ (by simp [FallsShort])]; simp [Documented]
  have h2 : (Condition.nodesAtEnd [.positional]).holds (.node n) parents = true ↔
      AtEnd [.positional] n.children := by
    rw [hd _ (by simp [FallsShort])]; simp [Documented]
  have h3 : Condition.fixedCountUnlessLast.holds (.node n) parents = true ↔
      ∀ (i : Nat) (c : Node), n.children[i]? = some c → ListLike c → i + 1 = n.children.length := by
    rw [hd _ (by simp [FallsShort])]; simp [Documented]
  have h4 : (Condition.singleAnonymousMode [.mode]).holds (.node n) parents = true ↔
      ∀ (i j : Nat) (c d : Node), n.children[i]? = some c → n.children[j]? = some d →
        AnonymousMode [.mode] c → AnonymousMode [.mode] d → i = j := by
    rw [hd _ (by simp [FallsShort])]; simp [Documented]
  have h5 : (Condition.anonymousAtEnd [.mode]).holds (.node n) parents = true ↔
      ((∃ c ∈ n.children, AnonymousMode [.mode] c) → AtEnd [.mode] n.children) := by
    rw [hd _ (by simp [FallsShort])]; simp [Documented]
  unfold NodeAllowed
  cases hk : n.kind <;>
    simp [checkItem, defaultRules, RuleKey.matches, hk, hw, hc, hr, hm, hrm, hv, h1, h2, h3, h4, h5,
      NotAllHave]

end

/-- The default validator accepts a tree exactly if every node and every policy in it is allowed where
it is. -/
theorem C102_default (root : Node) : validate defaultRules root = true ↔
    ∀ p n, nodeAt root p = some n → NodeAllowed n (lineage root p) ∧
      ∀ q ∈ n.policies, PolicyAllowed root p n q := by
  rw [C71_validate]
  constructor
  · intro h p n hn
    exact ⟨nodeAllowed_iff.1 (h p n hn).1, fun q hq => (policyAllowed_iff hn hq).1 ((h p n hn).2 q hq)⟩
  · intro h p n hn
    exact ⟨nodeAllowed_iff.2 (h p n hn).1, fun q hq => (policyAllowed_iff hn hq).2 ((h p n hn).2 q hq)⟩

theorem alone_eq {n : Node} {q r : Policy} (h : Alone n q) (hq : q ∈ n.policies)
    (hr : r ∈ n.policies) (hk : r.kind = q.kind) : r = q := by
  obtain ⟨i, hi, ei⟩ := List.getElem_of_mem hq
  obtain ⟨j, hj, ej⟩ := List.getElem_of_mem hr
  have := h q.kind i j q r (madeFrom_iff.2 rfl) (by rw [List.getElem?_eq_getElem hi, ei])
    (by rw [List.getElem?_eq_getElem hj, ej]) (madeFrom_iff.2 rfl) (madeFrom_iff.2 hk)
  subst this
  rw [← ei, ← ej]

theorem findSome_only {α β : Type} {f : α → Option β} {x : β} : ∀ {l : List α},
    (∃ a ∈ l, f a = some x) → (∀ a ∈ l, ∀ y, f a = some y → y = x) → l.findSome? f = some x
  | [], ⟨_, h, _⟩, _ => by simp at h
  | a :: l, ⟨c, hc, hx⟩, h => by
    rw [List.findSome?_cons]
    cases hf : f a with
    | some y => rw [h a (by simp) y hf]
    | none =>
      simp only
      rcases List.mem_cons.1 hc with rfl | hc
      · rw [hf] at hx; cases hx
      · exact findSome_only ⟨c, hc, hx⟩ fun a ha => h a (List.mem_cons_of_mem _ ha)

theorem oneLink_of_alone {n : Node} (h : ∀ q ∈ n.policies, Alone n q) : OneLink n := by
  intro k refs hr
  rw [← links_iff]
  cases k
  · refine findSome_only ⟨_, hr, by simp [linkPolicy]⟩ fun a ha y hy => ?_
    cases a <;> simp at hy
    subst hy
    have := alone_eq (h _ hr) hr ha rfl
    cases this; rfl
  · refine findSome_only ⟨_, hr, by simp [linkPolicy]⟩ fun a ha y hy => ?_
    cases a <;> simp at hy
    subst hy
    have := alone_eq (h _ hr) hr ha rfl
    cases this; rfl

/-- With the default validator, a program compiles exactly if every node keeps the rules of its class
and of its policies, every node and policy is allowed where it is, and no description has a tab if there
is a help node. -/
theorem C102_compiles (cfg : Config) (root : Node) :
    (∃ depth, compiles cfg depth defaultRules root = true) ↔
      root.kind = .root ∧ (∀ p n, nodeAt root p = some n →
        classPolicies n = true ∧ NodeRule cfg n (lineage root p) ∧ NodeAllowed n (lineage root p) ∧
          ∀ q ∈ n.policies, PolicyAllowed root p n q) ∧ HelpRule root := by
  constructor
  · rintro ⟨d, h⟩
    have hv := (C102_default root).1 (compiles_iff_parts h).2.1
    have h1 : ∀ p n, nodeAt root p = some n → OneLink n := fun p n hn =>
      oneLink_of_alone fun q hq => ((hv p n hn).2 q hq).1
    obtain ⟨hk, -, hn, hh⟩ := (C101_compiles h1).1 ⟨d, h⟩
    exact ⟨hk, fun p n hp => ⟨(hn p n hp).1, (hn p n hp).2, hv p n hp⟩, hh⟩
  · rintro ⟨hk, h, hh⟩
    have h1 : ∀ p n, nodeAt root p = some n → OneLink n := fun p n hn =>
      oneLink_of_alone fun q hq => ((h p n hn).2.2.2 q hq).1
    refine (C101_compiles h1).2 ⟨hk, (C102_default root).2 fun p n hn => (h p n hn).2.2, ?_, hh⟩
    exact fun p n hn => ⟨(h p n hn).1, (h p n hn).2.1⟩

/-- Both sides are met by a program with nested modes, an alias, a dependent argument with a separator,
a flag with short-form expansion and a positional argument. -/
example : (∃ depth, compiles .default depth defaultRules safeRoot = true) ∧
    ∀ p n, nodeAt safeRoot p = some n → NodeAllowed n (lineage safeRoot p) := by
  have h : ∃ depth, compiles .default depth defaultRules safeRoot = true := ⟨100, by decide +kernel⟩
  exact ⟨h, fun p n hn => (((C102_compiles _ _).1 h).2.1 p n hn).2.2.1⟩

/-- And neither side by a program with two flags of the same name in a mode. -/
example : ∀ depth, compiles .default depth defaultRules (CompileEx.tree
    [mkFlag .default 3 3 [.longName (b "aa")], mkFlag .default 4 4 [.longName (b "aa")]]) = false := by
  intro depth
  have : validate defaultRules (CompileEx.tree
    [mkFlag .default 3 3 [.longName (b "aa")], mkFlag .default 4 4 [.longName (b "aa")]]) = false := by
    decide +kernel
  simp [compiles, this]

end ArgRouter.Props
