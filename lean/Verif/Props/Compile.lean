import Verif.Valid.Asserts
import Verif.Props.Valid
import Verif.Props.Cyclic
import Verif.Props.Safe

/-!
# What a program that compiles guarantees

C80: a program that compiles does not crash on a command line.
C81: every argument has a name to report it by.
-/

namespace ArgRouter

namespace Spec

/-- What the library leaves to the author of a program: names are text (without the characters of
C34), separators are one byte long, short-form expansion is left to flags, and the author's own
parsers and the help formatter neither crash nor hang (C83 says when the library's formatter does
not). -/
structure Careful (root : Node) : Prop where
  names : ∀ n ∈ root.nodes, ∀ s,
    .longName s ∈ n.policies ∨ .shortName s ∈ n.policies ∨ .noneName s ∈ n.policies → Text s
  separators : ∀ n ∈ root.nodes, ∀ s, .valueSeparator s ∈ n.policies → s.length = 1
  expanders : ∀ n ∈ root.nodes, .shortFormExpander ∈ n.policies →
    n.kind = .flag ∨ n.kind = .countingFlag
  parsers : ∀ n ∈ root.nodes, TakesValues n = true → Behaves n.vt.parse
  customParsers : ∀ n ∈ root.nodes, ∀ f, .customParser f ∈ n.policies → Behaves f
  validation : ∀ n ∈ root.nodes, ∀ t f, .validation t f ∈ n.policies → ∀ v, f v ≠ .ub ∧ f v ≠ .foreign
  help : ∀ n ∈ root.nodes, ∀ f, .helpText f ∈ n.policies → ∀ ts, f ts ≠ .ub ∧ f ts ≠ .foreign
  ends : ParsersEnd root

end Spec

open Spec

namespace Props

section
variable {cfg : Config} {depth : Nat} {rules : List Rule} {root : Node}

theorem position_walked {n : Node} {p : List Nat} (hn : nodeAt root p = some n) :
    (n, lineage root p) ∈ root.walk [] := by
  have h := walk_posns root []
  have hp : p ∈ posns noSkip [] root :=
    (mem_posns noSkip root [] p).2 ⟨⟨n, hn⟩, reach_noSkip _ _ _⟩
  have : (some n, lineage root p) ∈ (root.walk []).map fun v => (some v.1, v.2) := by
    rw [h]; exact List.mem_map.2 ⟨p, hp, by simp [hn]⟩
  obtain ⟨⟨m, ps⟩, hm, e⟩ := List.mem_map.1 this
  simp only [Prod.mk.injEq, Option.some.injEq] at e
  obtain ⟨rfl, rfl⟩ := e
  exact hm

theorem compiles_iff_parts (h : compiles cfg depth rules root = true) :
    root.kind = .root ∧ validate rules root = true ∧
      ∀ p n, nodeAt root p = some n → nodeAsserts cfg depth n (lineage root p) = true := by
  simp only [compiles, Bool.and_eq_true, beq_iff_eq, List.all_eq_true] at h
  exact ⟨h.1.1.1, h.1.1.2, fun p n hn => h.1.2 _ (position_walked hn)⟩

theorem nodeAsserts_parts {n : Node} {ps : List Node} (h : nodeAsserts cfg depth n ps = true) :
    classPolicies n = true ∧ classAsserts n ps = true ∧
      ∀ q ∈ n.policies, policyAsserts cfg q = true ∧ ownerAsserts cfg depth n ps q = true := by
  simp only [nodeAsserts, Bool.and_eq_true, List.all_eq_true] at h
  exact ⟨h.1.1.1.1, h.1.1.1.2, h.2⟩

theorem lineage_child {n c : Node} {p : List Nat} (hn : nodeAt root p = some n)
    (hc : c ∈ n.children) : ∃ q, nodeAt root q = some c ∧ lineage root q = n :: lineage root p := by
  obtain ⟨i, hi⟩ := List.mem_iff_getElem?.1 hc
  refine ⟨p ++ [i], ?_, ?_⟩
  · rw [nodeAt_append, hn]; simp [nodeAt, hi]
  · rw [lineage_append p [i] root n hn (by simp [nodeAt, hi])]; simp [lineage, hi]

theorem longName_of_some {n : Node} (h : n.longName.isSome = true) : ∃ s, n.longName = some s :=
  Option.isSome_iff_exists.1 h

theorem alias_no_router {n : Node} {ps : List Node} {refs : List NameRef}
    (h : ownerAsserts cfg depth n ps (.alias refs) = true) :
    n.minMaxCount.isSome = true ∧ nearestModeLike ps ≠ none := by
  simp only [ownerAsserts, Bool.and_eq_true] at h
  obtain ⟨h1, h2⟩ := h
  have hr : n.hasRouter = false := by
    simp only [Node.noPhase, List.all_cons, List.all_nil, Bool.and_true, Bool.and_eq_true,
      Bool.not_eq_true'] at h1
    have := h1.2.2
    rw [List.any_eq_false] at this
    unfold Node.hasRouter
    rw [List.any_eq_false]
    intro q hq hh
    apply this q hq
    cases q <;> simp_all [Policy.hasRoutingPhase]
  have hm : nearestModeLike (n :: ps) = nearestModeLike ps := by
    simp [nearestModeLike, hr]
  rw [hm] at h2
  cases hmode : nearestModeLike ps with
  | none => simp [hmode] at h2
  | some mode =>
    refine ⟨?_, by simp⟩
    rw [hmode] at h2
    simp only [beq_iff_eq] at h2
    unfold aliasCheck fixedCountOf at h2
    cases hc : n.minMaxCount with
    | none => simp [hc] at h2
    | some x => rfl

theorem dependent_mode {n : Node} {ps : List Node} {refs : List NameRef}
    (h : ownerAsserts cfg depth n ps (.dependent refs) = true) : nearestModeLike ps ≠ none := by
  simp only [ownerAsserts] at h
  intro hm
  simp [hm] at h

theorem root_no_router {n : Node} {ps : List Node} (hk : n.kind = .root)
    (h : classAsserts n ps = true) : n.hasRouter = false ∧ ps = [] := by
  simp only [classAsserts, hk, Bool.and_eq_true] at h
  obtain ⟨⟨⟨⟨⟨⟨⟨⟨h0, h1⟩, -⟩, -⟩, -⟩, -⟩, -⟩, -⟩, -⟩ := h
  refine ⟨?_, by simpa using h0⟩
  simp only [Node.noPhase, List.all_cons, List.all_nil, Bool.and_true, Bool.and_eq_true,
    Bool.not_eq_true'] at h1
  have := h1.2.2.2.1
  rw [List.any_eq_false] at this
  unfold Node.hasRouter
  rw [List.any_eq_false]
  intro q hq hh
  apply this q hq
  cases q <;> simp_all [Policy.hasRoutingPhase]

theorem gCount_nil : Utf8.gCount [] = .ok 0 := by decide

/-- Names are never empty. -/
theorem name_nonempty {q : Policy} (h : policyAsserts cfg q = true) :
    q ≠ .longName [] ∧ q ≠ .shortName [] ∧ q ≠ .noneName [] ∧ q ≠ .displayName [] ∧
      q ≠ .errorName [] := by
  refine ⟨?_, ?_, ?_, ?_, ?_⟩ <;> rintro rfl <;> simp [policyAsserts, countOk, gCount_nil] at h

theorem mem_of_displayName {n : Node} {s : Bytes} (h : n.displayName = some s) :
    .displayName s ∈ n.policies := by
  unfold Node.displayName at h
  obtain ⟨q, hq, e⟩ := List.exists_of_findSome?_eq_some h
  cases q <;> simp at e
  subst e; exact hq

theorem mem_of_errorName {n : Node} {s : Bytes} (h : n.errorName = some s) :
    .errorName s ∈ n.policies := by
  unfold Node.errorName at h
  obtain ⟨q, hq, e⟩ := List.exists_of_findSome?_eq_some h
  cases q <;> simp at e
  subst e; exact hq

theorem has_multiStage {n : Node} (h : n.isMultiStage = true) : n.has .multiStage = true := by
  obtain ⟨q, hq, e⟩ := List.any_eq_true.1 h
  refine List.any_eq_true.2 ⟨q, hq, ?_⟩
  cases q <;> simp_all [Policy.kind]

/-- Only counting flags and groups can have several values merged into one. -/
theorem multi_stage_kinds {n : Node} {p : List Nat} (hacc : Accepted root)
    (hn : nodeAt root p = some n) (hm : n.isMultiStage = true) :
    n.kind = .countingFlag ∨ n.kind = .aliasGroup := by
  have h := (validate_iff.1 hacc).1 p n hn
  have hh := has_multiStage hm
  cases hk : n.kind
  all_goals try (left; rfl)
  all_goals try (right; rfl)
  all_goals
    simp [checkItem, defaultRules, RuleKey.matches, hk, Condition.holds, hh] at h

theorem nameRefs_label {n : Node} (h : n.nameRefs ≠ []) : n.hasLabel = true := by
  obtain ⟨r, hr⟩ := List.exists_mem_of_ne_nil _ h
  unfold Node.nameRefs at hr
  obtain ⟨q, hq, e⟩ := List.mem_filterMap.1 hr
  simp only [Node.hasLabel, Bool.or_eq_true]
  cases q <;> simp at e
  · left
    cases hl : n.longName with
    | some _ => rfl
    | none => unfold Node.longName at hl; rw [List.findSome?_eq_none_iff] at hl
              exact absurd (hl _ hq) (by simp)
  · right
    cases hl : n.shortName with
    | some _ => rfl
    | none => unfold Node.shortName at hl; rw [List.findSome?_eq_none_iff] at hl
              exact absurd (hl _ hq) (by simp)

/-- What may be repeated has names, and they are not empty. -/
theorem compiles_repeatable (hc : compiles cfg depth defaultRules root = true) :
    RepeatableNamed root := by
  obtain ⟨-, hacc, hnodes⟩ := compiles_iff_parts hc
  intro m hm hms hg
  obtain ⟨p, hp⟩ := mem_nodes.1 hm
  obtain ⟨h1, h2, h3⟩ := nodeAsserts_parts (hnodes p m hp)
  have hk : m.kind = .countingFlag := by
    rcases multi_stage_kinds hacc hp hms with h | h
    · exact h
    · simp [Node.isGroup, h] at hg
  refine ⟨?_, fun h => ?_, fun h => ?_, fun h => ?_⟩
  · simp only [classAsserts, hk, Bool.and_eq_true] at h2
    have := h2.1.1.1.2
    simp only [Node.hasLabel, Bool.or_eq_true] at this
    simp only [Node.isNamed, Bool.or_eq_true]
    exact .inl this
  · exact (name_nonempty (h3 _ (mem_of_longName h)).1).1 rfl
  · exact (name_nonempty (h3 _ (mem_of_shortName h)).1).2.1 rfl
  · exact (name_nonempty (h3 _ (mem_of_noneName h)).1).2.2.1 rfl

/-- A tree that compiles, of a careful author, is what the parser needs. -/
theorem compiles_sound (hc : compiles cfg depth defaultRules root = true) (hcare : Careful root) :
    SoundTree root ∧ RepeatableNamed root := by
  obtain ⟨htop, hacc, hnodes⟩ := compiles_iff_parts hc
  have hparts : ∀ p n, nodeAt root p = some n → _ := fun p n hn => nodeAsserts_parts (hnodes p n hn)
  have hroot := hparts [] root rfl
  have hrr := root_no_router htop hroot.2.1
  -- aliases and dependents have a parent with a router
  have hlink : ∀ p n, nodeAt root p = some n → (HasAlias n ∨ HasDependent n) →
      nearestModeLike (lineage root p) ≠ none := by
    rintro p n hn (⟨refs, hr⟩ | ⟨refs, hr⟩)
    · exact (alias_no_router ((hparts p n hn).2.2 _ hr).2).2
    · exact dependent_mode ((hparts p n hn).2.2 _ hr).2
  have hleaf : ∀ p n, nodeAt root p = some n → n.kind ≠ .mode → n.kind ≠ .root →
      n.kind ≠ .oneOf → n.kind ≠ .aliasGroup → n.children = [] := by
    intro p n hn h1 h2 h3 h4
    have := (hparts p n hn).2.1
    cases hk : n.kind <;> simp_all [classAsserts, multiArgBaseAsserts]
  refine ⟨⟨?_, ?_, htop, ?_, ?_⟩, ?_⟩
  · intro n hn
    obtain ⟨p, hp⟩ := mem_nodes.1 hn
    obtain ⟨h1, h2, h3⟩ := hparts p n hp
    refine ⟨?_, ?_, ?_, ?_, ?_, hcare.parsers n hn, hcare.customParsers n hn,
      hcare.validation n hn, hcare.help n hn⟩
    · rintro s (h | h | h)
      · exact hcare.names n hn s (.inl (mem_of_longName h))
      · exact hcare.names n hn s (.inr (.inl (mem_of_shortName h)))
      · exact hcare.names n hn s (.inr (.inr (mem_of_noneName h)))
    · intro s hs
      refine ⟨hcare.separators n hn s hs, fun he => ?_⟩
      have hcount := (h3 _ hs).2
      simp only [ownerAsserts, Node.countIs, beq_iff_eq] at hcount
      rcases hcare.expanders n hn he with hk | hk <;>
        simp [classPolicies, hk, Node.countIs, hcount] at h1
    · rintro ⟨refs, hr⟩
      exact (alias_no_router (h3 _ hr).2).1
    · intro hk
      have := (C74_forbidden hacc hp).1 hk
      exact ⟨fun ⟨r, hr⟩ => (this _ hr).2.1 r rfl, fun ⟨r, hr⟩ => (this _ hr).2.2 r rfl⟩
    · intro hr
      have hl := nameRefs_label hr
      unfold Node.hasLabel at hl
      cases hk : n.kind <;> simp_all [Runnable, classAsserts, basicOneOfAsserts, Node.isNamed]
  · intro m hm c hcm
    obtain ⟨p, hp⟩ := mem_nodes.1 hm
    obtain ⟨q, hq, hl⟩ := lineage_child hp hcm
    refine ⟨fun hk => ?_, fun hk => ?_⟩
    · have := (root_no_router hk (hparts q c hq).2.1).2
      rw [hl] at this; cases this
    · obtain ⟨m', hm', h⟩ := (C74_places hacc hq).1 hk
      rw [hl] at hm'
      cases hm'
      exact h.symm
  · intro m hm hk
    obtain ⟨p, hp⟩ := mem_nodes.1 hm
    have := (hparts p m hp).2.1
    simp only [classAsserts, hk, Bool.and_eq_true, Bool.or_eq_true, List.all_eq_true,
      beq_iff_eq] at this
    rcases this.2 with h | h
    · exact .inl h
    · exact .inr h.2
  · intro c hcm hk n hn
    obtain ⟨q, hq, hl⟩ := lineage_child (root := root) (p := []) rfl hcm
    have hplace := C74_places hacc hq
    have hkinds : c.kind ≠ .root ∧ c.kind ≠ .oneOf ∧ c.kind ≠ .aliasGroup := by
      refine ⟨fun h => ?_, fun h => ?_, fun h => ?_⟩
      · have := (root_no_router h (hparts q c hq).2.1).2
        rw [hl] at this; cases this
      · obtain ⟨m, hm, hmk⟩ := hplace.2.1 (.inl h)
        rw [hl] at hm; cases hm
        rw [htop] at hmk; cases hmk
      · obtain ⟨m, hm, hmk⟩ := hplace.2.1 (.inr h)
        rw [hl] at hm; cases hm
        rw [htop] at hmk; cases hmk
    have hch := hleaf q c hq hk hkinds.1 hkinds.2.1 hkinds.2.2
    have hnc : n = c := by
      obtain ⟨r, hr⟩ := mem_nodes.1 hn
      cases r with
      | nil => simpa [nodeAt] using hr.symm
      | cons i r => simp [nodeAt, hch] at hr
    subst hnc
    have hnone : nearestModeLike (lineage root q) = none := by
      rw [hl]; simp [lineage, nearestModeLike, hrr.1]
    exact ⟨fun h => hlink q n hq (.inl h) hnone, fun h => hlink q n hq (.inr h) hnone⟩
  · exact compiles_repeatable hc

/-- C80, what holds: a program that compiles, of a careful author, given a command line of text
(without the characters of C34) whose last argument is not just the short prefix (unless no flag of the
program has a short name), returns or throws a `parse_exception` with the documented message of the error found. It does not crash, throw anything
else or run forever. -/
theorem C80_compiled_partial (hcfg : AsciiPrefixes cfg)
    (hc : compiles cfg depth defaultRules root = true) (hcare : Careful root)
    (args : List Bytes) (hargs : ∀ a ∈ args, Text a)
    (hlast : Expands root → args.getLast? ≠ some cfg.shortPrefix) (s : St) :
    (∃ s', rootSeen cfg defaultTranslations [] root args s = (.returned, s')) ∨
    ∃ e s', parseArgs cfg root args s = (.throw e, s') ∧
      rootSeen cfg defaultTranslations [] root args s =
        (.parseException (errorText cfg (english e.ec) e.tokens), s') :=
  have h := compiles_sound hc hcare
  C57_safe_partial cfg hcfg root h.1 h.2 hcare.ends args hargs hlast s

end

namespace CompileEx

def wordType : ValueType := ⟨false, .one (.str []), fun s => .ok (.str s)⟩
def tree (cs : List Node) : Node := mkRoot 1 1 [mkMode 2 2 [.router] cs]
/-- A flag with a short name. -/
def shortTree : Node := tree [mkFlag .default 3 3 [.shortName (b "a")]]
/-- An argument with a separator of two bytes. -/
def wideTree : Node := tree [mkArg 3 3 wordType [.longName (b "name"), .valueSeparator (b "é")]]
/-- An argument with a separator and short-form expansion. -/
def bothTree : Node :=
  tree [mkArg 3 3 wordType [.shortName (b "n"), .valueSeparator (b "="), .shortFormExpander]]
/-- A flag with an ordinary name. -/
def plainTree : Node := tree [mkFlag .default 3 3 [.longName (b "hello")]]

end CompileEx

open CompileEx

/-- C80 is false: four programs that compile. `-` alone makes the first throw a `std::length_error`.
The second has a two byte separator and throws a `std::out_of_range` for `--©`, which shares a byte
with it. The third has a separator and short-form expansion in one argument and throws a
`std::out_of_range` for `-=n`. The fourth has nothing special about it and reads past the end of a
string for the argument `！`. -/
theorem C80_false :
    (∀ t ∈ [shortTree, wideTree, bothTree, plainTree],
      compiles .default 100 defaultRules t = true) ∧
    (rootSeen .default defaultTranslations [] shortTree [b "-"] .fresh).1 = .foreign ∧
    (rootSeen .default defaultTranslations [] wideTree [b "--©"] .fresh).1 = .foreign ∧
    (rootSeen .default defaultTranslations [] bothTree [b "-=n"] .fresh).1 = .foreign ∧
    (rootSeen .default defaultTranslations [] plainTree [b "！"] .fresh).1 = .ub := by
  decide +kernel

theorem safeRoot_careful : Careful safeRoot := by
  have hs := safeRoot_sound
  refine ⟨?_, ?_, ?_, fun n hn => (hs.node n hn).parser, fun n hn => (hs.node n hn).customParser,
    fun n hn => (hs.node n hn).validation, fun n hn => (hs.node n hn).help,
    ?_⟩
  · intro n hn s h
    apply text_ascii
    rcases safeRoot_nodes n hn with rfl | rfl | rfl | rfl | rfl | rfl | rfl | rfl <;>
      simp [safeRoot, safeSub, safeSub.safeDeep, safeFlag, safeMode, safeAlias, safeName,
        safeFiles, mkRoot, mkMode, modePolicies, mkFlag, mkArg, mkPositional, addCount, expanderIf,
        Config.default, Node.policies] at h <;>
      (try rcases h with h | h) <;> (try subst h) <;> decide +kernel
  · exact fun n hn s h => ((hs.node n hn).separator s h).1
  · intro n hn h
    rcases safeRoot_nodes n hn with rfl | rfl | rfl | rfl | rfl | rfl | rfl | rfl <;>
      simp [safeRoot, safeSub, safeSub.safeDeep, safeFlag, safeMode, safeAlias, safeName,
        safeFiles, mkRoot, mkMode, modePolicies, mkFlag, mkArg, mkPositional, addCount, expanderIf,
        Config.default, Node.policies, Node.kind] at h ⊢
  · intro n hn
    rcases safeRoot_nodes n hn with rfl | rfl | rfl | rfl | rfl | rfl | rfl | rfl <;>
      constructor <;>
      simp [safeRoot, safeSub, safeSub.safeDeep, safeFlag, safeMode, safeAlias, safeName,
        safeFiles, mkRoot, mkMode, modePolicies, mkFlag, mkArg, mkPositional, addCount, expanderIf,
        Config.default, Node.policies, Node.vt, boolType, stringList]

/-- The hypotheses of `C80_compiled_partial` are met by the tree of `C57_safe_partial`'s example: nested
modes, an alias, a dependent argument with a separator, a flag with short-form expansion and a
positional argument. -/
example : compiles .default 100 defaultRules safeRoot = true ∧ Careful safeRoot :=
  ⟨by decide +kernel, safeRoot_careful⟩

/-- Some trees that do not compile: an alias outside a mode; a nested root; an anonymous mode in a
mode; a mode with a flag and no router; a name of one letter; a separator on a list of values. -/
example : ∀ t ∈ [mkRoot 1 1 [mkFlag .default 3 3 [.longName (b "ab"), .alias [.long (b "ab")]]],
      mkRoot 1 1 [plainTree],
      mkRoot 1 1 [mkMode 2 2 [.noneName (b "run")] [mkMode 3 3 [.router] [safeFlag]]],
      mkRoot 1 1 [mkMode 2 2 [.noneName (b "run")] [safeFlag]],
      tree [mkFlag .default 3 3 [.longName (b "a")]],
      tree [mkMultiArg 3 3 stringList [.longName (b "ab"), .valueSeparator (b "=")]]],
    compiles .default 100 defaultRules t = false := by decide +kernel

/-! ## C81 -/

section
variable {cfg : Config} {depth : Nat} {rules : List Rule} {root : Node}

/-- C81: in a program that compiles, whatever the validator, every node but the root has a name for
error messages, and the name is not empty. -/
theorem C81_named (hc : compiles cfg depth rules root = true) {n : Node} {p : List Nat}
    (hn : nodeAt root p = some n) (hp : p ≠ []) : n.tokenType.name ≠ [] := by
  obtain ⟨-, -, hnodes⟩ := compiles_iff_parts hc
  obtain ⟨h1, h2, h3⟩ := nodeAsserts_parts (hnodes p n hn)
  have hne : ∀ q ∈ n.policies, _ := fun q hq => name_nonempty (h3 q hq).1
  have hlin : lineage root p ≠ [] := by
    intro h
    have := lineage_length p root n hn
    rw [h] at this
    exact hp (List.length_eq_zero_iff.1 (by simpa using this.symm))
  have hsome : n.errorName.isSome = true ∨ n.displayName.isSome = true ∨ n.longName.isSome = true ∨
      n.shortName.isSome = true ∨ n.noneName.isSome = true := by
    cases hk : n.kind <;>
      simp only [classAsserts, classPolicies, multiArgBaseAsserts, Node.hasLabel, Node.isNamed, hk,
        Bool.and_eq_true, Bool.or_eq_true] at h1 h2
    · rcases h2.1.1.1.2 with h | h <;> simp [h]
    · rcases h2.1.1.1.2 with h | h <;> simp [h]
    · rcases h2.1.1.2 with ((h | h) | h) | h <;> simp [h]
    · rcases h2.1.1.1.1.1.2 with ((h | h) | h) | h <;> simp [h]
    · exact .inr (.inl h2.1.1.1.1.2)
    · rcases h2.1.1.1.1.2 with ((h | h) | h) | h <;> simp [h]
    · exact .inl h1.2
    · exact .inl h1.2
    · rcases h1.2 with h | h <;> simp [h]
    · rcases h2.1.1.1.1.2 with h | h <;> simp [h]
    · exact absurd (List.isEmpty_iff.1 h2.1.1.1.1.1.1.1.1) hlin
  unfold Node.tokenType
  cases he : n.errorName with
  | some s => exact fun e => (hne _ (mem_of_errorName he)).2.2.2.2 (by rw [← e])
  | none =>
  cases hd : n.displayName with
  | some s => exact fun e => (hne _ (mem_of_displayName hd)).2.2.2.1 (by rw [← e])
  | none =>
  cases hl : n.longName with
  | some s => exact fun e => (hne _ (mem_of_longName hl)).1 (by rw [← e])
  | none =>
  cases hs : n.shortName with
  | some s => exact fun e => (hne _ (mem_of_shortName hs)).2.1 (by rw [← e])
  | none =>
  cases hnn : n.noneName with
  | some s => exact fun e => (hne _ (mem_of_noneName hnn)).2.2.1 (by rw [← e])
  | none => simp [he, hd, hl, hs, hnn] at hsome

end

/-- The hypotheses of `C81_named` are met by every node below the root of `safeRoot`, for instance the
positional argument in the anonymous mode. -/
example : compiles .default 100 defaultRules safeRoot = true ∧
    nodeAt safeRoot [1, 3] = some safeFiles ∧ safeFiles.tokenType = ⟨.none, b "FILES"⟩ ∧
    (nodeAt safeRoot [1]).map (·.tokenType) = some ⟨.none, b "(Anon mode)"⟩ :=
  ⟨by decide +kernel, rfl, rfl, rfl⟩

end Props

end ArgRouter
