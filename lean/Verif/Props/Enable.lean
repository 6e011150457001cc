import Verif.Props.Leaf
import Verif.Lemmas.PreParse
import Verif.Props.Separator
import Verif.Spec.Links

/-!
# C11 – nodes that are disabled at runtime
-/

namespace ArgRouter

namespace Props

open Spec

/-- A phase result after which the node cannot be selected. -/
def Blocked (m : PreResult) : Prop := m = .ok .skipNode ∨ ∃ e, m = .error e

theorem runPhases_disabled {cfg : Config} {n : Node} {parents : List Node}
    {processed : Option Target} {ps : List Policy} (hps : ∃ p ∈ ps, p.disables = true)
    {m r : PreResult} {a a' : Adapter} {subs subs' : List Leaf}
    (h : runPhases cfg n parents processed ps m a subs = .ok (r, a', subs')) : Blocked r := by
  have stuck : ∀ {ps m r a subs a' subs'}, Blocked m →
      runPhases cfg n parents processed ps m a subs = .ok (r, a', subs') → Blocked r := by
    rintro ps m r a subs a' subs' (rfl | ⟨e, rfl⟩) h
    · rw [runPhases_skip] at h
      simp only [Out.ok.injEq, Prod.mk.injEq] at h
      exact .inl h.1.symm
    · rw [runPhases_error] at h
      simp only [Out.ok.injEq, Prod.mk.injEq] at h
      exact .inr ⟨e, h.1.symm⟩
  induction ps generalizing m a subs with
  | nil => obtain ⟨p, hp, -⟩ := hps; cases hp
  | cons q qs ih =>
    by_cases hq : q.disables = true
    · have hpp : q.hasPreParse = true := by
        cases q <;> simp [Policy.disables, Policy.hasPreParse] at hq ⊢
      have hph : ∀ a subs, q.phase cfg n parents processed a subs = .ok (.ok .skipNode, a, subs) := by
        intro a subs
        cases q with
        | runtimeEnable e =>
          have : e = false := by simpa [Policy.disables] using hq
          subst this; rfl
        | runtimeEnableRequired e v =>
          have : e = false := by simpa [Policy.disables] using hq
          subst this; rfl
        | _ => simp [Policy.disables] at hq
      simp only [runPhases, hpp, if_true, hph, Out.ok_bind] at h
      match m with
      | .error e =>
        simp only [Out.ok.injEq, Prod.mk.injEq] at h
        exact .inr ⟨e, h.1.symm⟩
      | .ok .skipNode =>
        simp only [Out.ok.injEq, Prod.mk.injEq] at h
        exact .inl h.1.symm
      | .ok .validNode => exact stuck (.inl rfl) h
      | .ok .skipNodeButUseSubTargets => exact stuck (.inl rfl) h
    · have hqs : ∃ p ∈ qs, p.disables = true := by
        obtain ⟨p, hp, hd⟩ := hps
        rcases List.mem_cons.1 hp with rfl | hp
        · exact absurd hd hq
        · exact ⟨p, hp, hd⟩
      simp only [runPhases] at h
      split at h
      · match m with
        | .error e =>
          simp only [Out.ok.injEq, Prod.mk.injEq] at h
          exact .inr ⟨e, h.1.symm⟩
        | .ok .skipNode =>
          simp only [Out.ok.injEq, Prod.mk.injEq] at h
          exact .inl h.1.symm
        | .ok .validNode =>
          simp only [Out.bind_eq_ok, Prod.exists] at h
          obtain ⟨m1, a1, s1, -, h2⟩ := h
          exact ih hqs h2
        | .ok .skipNodeButUseSubTargets =>
          simp only [Out.bind_eq_ok, Prod.exists] at h
          obtain ⟨m1, a1, s1, -, h2⟩ := h
          exact ih hqs h2
      · exact ih hqs h

/-- C11 for leaf nodes: a disabled node never matches, whatever its other policies, the command
line, the parents, the history and the validator. -/
theorem C11_leaf_partial (cfg : Config) (n : Node) (parents : List Node) (args : List Token)
    (processed : Option Target) (validator : Validator) (s s' : St) (r : Target × List Token)
    (hd : Disabled n) :
    leafPreParse cfg n parents args processed validator s ≠ (.ok (some r), s') := by
  intro h
  simp only [leafPreParse, M.bind_eq_ok, M.lift_apply, Prod.exists, Prod.mk.injEq] at h
  obtain ⟨m, a, subs, s1, ⟨h1, rfl⟩, h2⟩ := h
  have hd' : ∃ p ∈ sortPolicies n.policies, p.disables = true := by
    obtain ⟨p, hp, hd⟩ := hd; exact ⟨p, mem_sortPolicies.2 hp, hd⟩
  rcases runPhases_disabled hd' h1 with rfl | ⟨e, rfl⟩
  · simp [checkLabel] at h2
  · cases hc : checkLabel cfg n (.error e) a with
    | none => rw [hc] at h2; simp at h2
    | some a' =>
      rw [hc] at h2
      simp only [M.bind_eq_ok] at h2
      obtain ⟨ok, s2, -, h3⟩ := h2
      cases ok <;> simp at h3

/-- C11 for named modes. -/
theorem C11_mode_partial (cfg : Config) (n : Node) (parents : List Node) (args : List Token)
    (validator : Validator) (s s' : St) (r : Target × List Token)
    (hd : Disabled n) (hn : n.noneName.isSome) :
    preParseMode cfg parents args validator n s ≠ (.ok (some r), s') := by
  intro h
  obtain ⟨k, u, hh, v, p, cs⟩ := n
  rw [preParseMode] at h
  have : (Node.mk k u hh v p cs).isAnonymous = false := by
    simp only [Node.isAnonymous]
    cases hx : (Node.mk k u hh v p cs).noneName with
    | none => rw [hx] at hn; cases hn
    | some x => rfl
  simp only [this, Bool.false_eq_true, if_false, M.bind_eq_ok] at h
  obtain ⟨o, s1, h1, h2⟩ := h
  cases o with
  | none => simp at h2
  | some t => exact C11_leaf_partial _ _ _ _ _ _ _ _ _ hd h1

mutual
/-- The node that matches is the leaf reached: it is enabled, through groups too. -/
theorem preParse_enabled (cfg : Config) (parents : List Node) (args : List Token)
    (processed : Option Target) (s s' : St) (r : Target × List Token) :
    ∀ (n : Node) (validator : Validator),
    preParse cfg parents args processed n validator s = (.ok (some r), s') → ¬ Disabled r.1.node
  | .mk k u h v p cs, validator, hr => by
    cases k
    case aliasGroup =>
      rw [preParse_aliasGroup] at hr
      exact preParseGroup_enabled cfg parents args processed s s' r cs validator hr
    case oneOf =>
      rw [preParse_oneOf] at hr
      exact preParseOneOf_enabled cfg parents args processed s s' r cs _ hr
    all_goals
      rw [preParse_leaf _ _ _ _ _ _ (by rfl)] at hr
      intro hd
      rw [(leafPreParse_node hr).1] at hd
      exact C11_leaf_partial _ _ _ _ _ _ _ _ _ hd hr
theorem preParseGroup_enabled (cfg : Config) (parents : List Node) (args : List Token)
    (processed : Option Target) (s s' : St) (r : Target × List Token) :
    ∀ (ns : List Node) (validator : Validator),
    preParseGroup cfg parents args processed validator ns s = (.ok (some r), s') →
      ¬ Disabled r.1.node
  | [], validator, hr => by simp [preParseGroup] at hr
  | c :: cs, validator, hr => by
    rw [preParseGroup] at hr
    simp only [M.bind_eq_ok] at hr
    obtain ⟨o, s1, h1, h2⟩ := hr
    cases o with
    | none => exact preParseGroup_enabled cfg parents args processed s1 s' r cs validator h2
    | some x =>
      simp only [M.pure_apply, Prod.mk.injEq, Out.ok.injEq, Option.some.injEq] at h2
      obtain ⟨rfl, rfl⟩ := h2
      exact preParse_enabled cfg parents args processed s s1 x c validator h1
theorem preParseOneOf_enabled (cfg : Config) (parents : List Node) (args : List Token)
    (processed : Option Target) (s s' : St) (r : Target × List Token) :
    ∀ (ns : List Node) (validator : Validator),
    preParseOneOf cfg parents args processed validator ns s = (.ok (some r), s') →
      ¬ Disabled r.1.node
  | [], validator, hr => by simp [preParseOneOf] at hr
  | c :: cs, validator, hr => by
    rw [preParseOneOf] at hr
    simp only [M.bind_eq_ok] at hr
    obtain ⟨o, s1, h1, h2⟩ := hr
    cases o with
    | none => exact preParseOneOf_enabled cfg parents args processed s1 s' r cs validator h2
    | some x =>
      simp only [M.bind_eq_ok, M.pure_apply, Prod.mk.injEq, Out.ok.injEq, Option.some.injEq] at h2
      obtain ⟨_, s2, -, rfl, rfl⟩ := h2
      exact preParse_enabled cfg parents args processed s s1 x c validator h1
end

/-- C11 through groups: whatever node ends up matching below an `alias_group` or `one_of` (nested
to any depth), it is not a disabled one. -/
theorem C11_group_partial (cfg : Config) (n : Node) (parents : List Node) (args : List Token)
    (processed : Option Target) (validator : Validator) (s s' : St) (t : Target)
    (rest : List Token)
    (h : preParse cfg parents args processed n validator s = (.ok (some (t, rest)), s')) :
    ¬ Disabled t.node :=
  preParse_enabled cfg parents args processed s s' (t, rest) n validator h

/-- C11: moreover a disabled node whose matching is not influenced by a value separator or a short
form expander is passed over without any effect: no exception, no state change, and the validator
is not consulted. -/
theorem C11_skipped (cfg : Config) (n : Node) (parents : List Node) (args : List Token)
    (processed : Option Target) (validator : Validator) (hd : Disabled n)
    (hsep : ∀ s, .valueSeparator s ∉ n.policies) (hexp : .shortFormExpander ∉ n.policies) :
    leafPreParse cfg n parents args processed validator = pure none := by
  rw [leafPreParse_eq]
  obtain ⟨p, hp, hdp⟩ := hd
  have hpm : p.matters = true := by
    cases p <;> simp [Policy.disables, Policy.matters] at hdp ⊢ <;> exact hdp
  have hmem : p ∈ n.phases := mem_sortPolicies.2 (List.mem_filter.2 ⟨hp, hpm⟩)
  have hpri : p.priority = 800 := by
    cases p <;> simp [Policy.disables, Policy.priority] at hdp ⊢
  have hdesc : Desc n.phases := sortPolicies_desc _
  cases hph : n.phases with
  | nil => rw [hph] at hmem; cases hmem
  | cons q qs =>
    rw [hph] at hmem hdesc
    have hq : q ∈ n.policies.filter Policy.matters :=
      mem_sortPolicies.1 (by show q ∈ n.phases; rw [hph]; exact List.mem_cons_self)
    obtain ⟨hqp, hqm⟩ := List.mem_filter.1 hq
    have hge : 800 ≤ q.priority := by
      rcases List.mem_cons.1 hmem with rfl | hm
      · omega
      · have := (List.pairwise_cons.1 hdesc).1 p hm; omega
    have hqd : q.disables = true := by
      cases q with
      | valueSeparator s => exact absurd hqp (hsep s)
      | shortFormExpander => exact absurd hqp hexp
      | _ => simp_all [Policy.priority, Policy.matters, Policy.disables]
    have hpp : q.hasPreParse = true := by
      cases q <;> simp [Policy.disables, Policy.hasPreParse] at hqd ⊢
    have hph' : ∀ a subs, q.phase cfg n parents processed a subs = .ok (.ok .skipNode, a, subs) := by
      intro a subs
      cases q with
      | runtimeEnable e =>
        have : e = false := by simpa [Policy.disables] using hqd
        subst this; rfl
      | runtimeEnableRequired e v =>
        have : e = false := by simpa [Policy.disables] using hqd
        subst this; rfl
      | _ => simp [Policy.disables] at hqd
    rw [runPhases_cons_valid _ _ _ _ _ _ _ _ hpp, hph']
    show M.lift (runPhases cfg n parents processed qs (.ok .skipNode) _ _) >>= _ = _
    rw [runPhases_skip]
    rfl

/-- A disabled flag. -/
def hiddenFlag : Node := .mk .flag 1 1 ⟨false, .one (.bool false), fun s => .ok (.str s)⟩
  [.defaultValue (.one (.bool false)), .minMaxCount 0 0, .shortFormExpander,
    .longName (b "hidden"), .runtimeEnable false] []

/-- A flag that is an alias for it. -/
def backdoorFlag : Node := .mk .flag 2 2 ⟨false, .one (.bool false), fun s => .ok (.str s)⟩
  [.defaultValue (.one (.bool false)), .minMaxCount 0 0, .shortFormExpander,
    .longName (b "all"), .alias [.long (b "hidden")]] []

def backdoorMode : Node := .mk .mode 3 3 ⟨false, .one (.bool false), fun s => .ok (.str s)⟩
  [.router] [hiddenFlag, backdoorFlag]

def backdoorRoot : Node := .mk .root 4 4 ⟨false, .one (.bool false), fun s => .ok (.str s)⟩
  [] [backdoorMode]

/-- A disabled argument with a value separator. -/
def hiddenLevel : Node := .mk .arg 0 0 ⟨false, .one (.int 0), fun s => .ok (.str s)⟩
  [.minMaxCount 1 1, .longName (b "level"), .valueSeparator (b "="), .runtimeEnable false] []

/-- C11 is false with aliases: the alias `--all` of the disabled flag `--hidden` sets it (the
router receives `true`), although `--hidden` itself is refused. Also, a disabled argument with a
value separator still makes the command line fail with an error message about itself. -/
theorem C11_alias_false :
    Disabled hiddenFlag ∧
    parseArgs .default backdoorRoot [b "--all"] .fresh =
      (.ok (), ⟨[], [⟨3, [.one (.bool true)]⟩]⟩) ∧
    taken (leafPreParse .default hiddenLevel [] [⟨.none, b "--level"⟩] none alwaysTrue .fresh) =
      .throw ⟨.missing_value_separator, [⟨.long, b "level"⟩]⟩ := by
  refine ⟨⟨.runtimeEnable false, by simp [hiddenFlag, Node.policies], rfl⟩, ?_, ?_⟩
  · decide +kernel
  · decide +kernel

/-- A disabled argument. -/
def hiddenArg : Node := .mk .arg 0 0 ⟨false, .one (.int 0), fun s => .ok (.str s)⟩
  [.minMaxCount 1 1, .longName (b "level"), .runtimeEnable false] []

example : Disabled hiddenArg ∧ (∀ s, .valueSeparator s ∉ hiddenArg.policies) ∧
    .shortFormExpander ∉ hiddenArg.policies :=
  ⟨⟨.runtimeEnable false, by simp [hiddenArg, Node.policies], rfl⟩,
    by simp [hiddenArg, Node.policies], by simp [hiddenArg, Node.policies]⟩

end Props

end ArgRouter
