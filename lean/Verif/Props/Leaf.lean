import Verif.Lemmas.Leaf

/-!
# C05, C06, C07 – offering the command line to a node
-/

namespace ArgRouter.Props

open Spec

/-! ## C05 -/

/-- C05: whatever the node, its policies, its parents and the caller's validator: if the node does
not match, or the call ends in any exceptional way, the caller's arguments are what they were. -/
theorem C05_no_match_leaves_args (cfg : Config) (n : Node) (parents : List Node)
    (processed : Option Target) (validator : Validator) (args : List Token) (s : St) :
    let r := leafPreParseRef cfg n parents processed validator args s
    (∀ t, r.1 ≠ .ok (some t)) → r.2.1 = args := by
  intro r h
  revert h
  simp only [r, leafPreParseRef]
  split <;> try (intro _; rfl)
  split <;> try (intro _; rfl)
  split <;> try (intro _; rfl)
  split <;> try (intro _; rfl)
  intro h
  exact absurd rfl (h _)

/-- The function used by the rest of the model is that function: same outcome, same state, and the
arguments it returns on a match are the content of the caller's vector. -/
theorem C05_same_function (cfg : Config) (n : Node) (parents : List Node)
    (processed : Option Target) (validator : Validator) (args : List Token) (s : St) :
    leafPreParse cfg n parents args processed validator s =
      match leafPreParseRef cfg n parents processed validator args s with
      | (.ok (some t), args', s') => (.ok (some (t, args')), s')
      | (.ok none, _, s') => (.ok none, s')
      | (.throw e, _, s') => (.throw e, s')
      | (.foreign, _, s') => (.foreign, s')
      | (.ub, _, s') => (.ub, s')
      | (.diverge, _, s') => (.diverge, s') := by
  simp only [leafPreParse, leafPreParseRef, M.bind_apply, M.lift_apply]
  cases runPhases cfg n parents processed (sortPolicies n.policies) (.ok .validNode) ⟨[], args⟩ []
    with
  | ok r =>
    obtain ⟨m, a, subs⟩ := r
    simp only
    cases checkLabel cfg n m a with
    | none => rfl
    | some a' =>
      simp only [M.bind_apply]
      match validator n s with
      | (.throw e, s) => rfl
      | (.foreign, s) => rfl
      | (.ub, s) => rfl
      | (.diverge, s) => rfl
      | (.ok false, s) => rfl
      | (.ok true, s) =>
        cases m with
        | error e => rfl
        | ok act => rfl
  | throw e => rfl
  | foreign => rfl
  | ub => rfl
  | diverge => rfl

/-! ## C06 -/

/-- The policy does not rewrite tokens. -/
def Rewrites : Policy → Bool
  | .valueSeparator _ => true
  | .shortFormExpander => true
  | .tokenEndMarker _ => true
  | .alias _ => true
  | _ => false

theorem phase_keeps {cfg : Config} {n : Node} {parents : List Node} {processed : Option Target}
    {p : Policy} {a a' : Adapter} {subs subs' : List Leaf} {r : PreResult}
    (hp : Rewrites p = false)
    (h : p.phase cfg n parents processed a subs = .ok (r, a', subs')) :
    tokenSeq a' = tokenSeq a ∧ subs' = subs ∧ r ≠ .ok .skipNodeButUseSubTargets := by
  cases p <;> simp only [Rewrites, Bool.true_eq_false] at hp
  case minMaxCount mn mx =>
    simp only [Policy.phase, Out.ok.injEq, Prod.mk.injEq] at h
    obtain ⟨rfl, rfl, rfl⟩ := h
    rcases minMaxCountPhase_cases n mn mx a with ⟨ec, h, -⟩ | ⟨it, h⟩
    · rw [h]; simp
    · rw [h]; exact ⟨(C04_transfer_any a it).1, rfl, by simp⟩
  case runtimeEnable e =>
    simp only [Policy.phase, runtimeEnablePhase, Out.ok.injEq, Prod.mk.injEq] at h
    obtain ⟨rfl, rfl, rfl⟩ := h
    refine ⟨rfl, rfl, ?_⟩
    cases e <;> simp
  case runtimeEnableRequired e _ =>
    simp only [Policy.phase, runtimeEnablePhase, Out.ok.injEq, Prod.mk.injEq] at h
    obtain ⟨rfl, rfl, rfl⟩ := h
    refine ⟨rfl, rfl, ?_⟩
    cases e <;> simp
  case dependent refs =>
    simp only [Policy.phase, Out.bind_eq_ok, Prod.exists, dependentPhase] at h
    obtain ⟨r', a1, h1, h2⟩ := h
    simp only [Out.pure_eq, Out.ok.injEq, Prod.mk.injEq] at h2
    obtain ⟨rfl, rfl, rfl⟩ := h2
    split at h1
    · split at h1
      · simp only [Out.ok.injEq, Prod.mk.injEq] at h1
        obtain ⟨rfl, rfl⟩ := h1; simp
      · simp only [Out.ok.injEq, Prod.mk.injEq] at h1
        obtain ⟨rfl, rfl⟩ := h1; simp
    · cases h1
  all_goals
    simp only [Policy.phase, Out.ok.injEq, Prod.mk.injEq] at h
    obtain ⟨rfl, rfl, rfl⟩ := h
    exact ⟨rfl, rfl, by simp⟩

theorem runPhases_keeps {cfg : Config} {n : Node} {parents : List Node}
    {processed : Option Target} (ps : List Policy) (hps : ∀ p ∈ ps, Rewrites p = false)
    {m r : PreResult} {a a' : Adapter} {subs subs' : List Leaf}
    (hm : m ≠ .ok .skipNodeButUseSubTargets)
    (h : runPhases cfg n parents processed ps m a subs = .ok (r, a', subs')) :
    tokenSeq a' = tokenSeq a ∧ subs' = subs ∧ r ≠ .ok .skipNodeButUseSubTargets := by
  induction ps generalizing m a subs with
  | nil =>
    simp only [runPhases, Out.ok.injEq, Prod.mk.injEq] at h
    obtain ⟨rfl, rfl, rfl⟩ := h
    exact ⟨rfl, rfl, hm⟩
  | cons p ps ih =>
    have ihp := fun {m a subs} => ih (m := m) (a := a) (subs := subs)
      fun q hq => hps q (List.mem_cons_of_mem _ hq)
    simp only [runPhases] at h
    split at h
    · match m, hm with
      | .error e, hm =>
        simp only [Out.ok.injEq, Prod.mk.injEq] at h
        obtain ⟨rfl, rfl, rfl⟩ := h
        exact ⟨rfl, rfl, hm⟩
      | .ok .skipNode, hm =>
        simp only [Out.ok.injEq, Prod.mk.injEq] at h
        obtain ⟨rfl, rfl, rfl⟩ := h
        exact ⟨rfl, rfl, hm⟩
      | .ok .validNode, hm =>
        simp only [Out.bind_eq_ok, Prod.exists] at h
        obtain ⟨m1, a1, s1, h1, h2⟩ := h
        obtain ⟨e1, e2, e3⟩ := phase_keeps (hps p List.mem_cons_self) h1
        obtain ⟨f1, f2, f3⟩ := ihp e3 h2
        exact ⟨f1.trans e1, f2.trans e2, f3⟩
    · exact ihp hm h

/-- C06: if a node without rewriting policies matches, the command line is the label (if the node
is named), then the node's value tokens, then the arguments left; the target is for this node. -/
theorem C06_match_accounts (cfg : Config) (n : Node) (parents : List Node) (args rest : List Token)
    (processed : Option Target) (validator : Validator) (t : Target) (s s' : St)
    (hp : ∀ p ∈ n.policies, Rewrites p = false)
    (h : leafPreParse cfg n parents args processed validator s = (.ok (some (t, rest)), s')) :
    t.node = n ∧ t.subs = [] ∧
    (n.isNamed = true → ∃ label, IsLabel cfg n label ∧ args = label :: (t.tokens ++ rest)) ∧
    (n.isNamed = false → args = t.tokens ++ rest) := by
  simp only [leafPreParse, M.bind_eq_ok, M.lift_apply, Prod.exists, Prod.mk.injEq] at h
  obtain ⟨m, a, subs, s1, ⟨h1, rfl⟩, h2⟩ := h
  obtain ⟨k1, rfl, k3⟩ := runPhases_keeps _
    (fun p hm => hp p (mem_sortPolicies.1 hm)) (by simp) h1
  have hseq : tokenSeq a = args := by rw [k1]; simp [tokenSeq]
  by_cases hsk : m = .ok .skipNode
  · subst hsk; simp [checkLabel] at h2
  have key : ∀ a', checkLabel cfg n m a = some a' →
      t = ⟨n, if n.isNamed then a'.processed.tail else a'.processed, []⟩ ∧ rest = a'.unprocessed := by
    intro a' ha
    rw [ha] at h2
    simp only [M.bind_eq_ok] at h2
    obtain ⟨ok, s2, -, h3⟩ := h2
    cases ok with
    | false => simp at h3
    | true =>
      cases m with
      | error e => simp at h3
      | ok act =>
        simp only [Bool.not_true, Bool.false_eq_true, if_false, M.pure_apply, Prod.mk.injEq,
          Out.ok.injEq, Option.some.injEq] at h3
        obtain ⟨⟨rfl, rfl⟩, -⟩ := h3
        exact ⟨rfl, rfl⟩
  by_cases hn : n.isNamed = true
  · rw [checkLabel_named hn hsk k3] at key
    have hne : checkLabel cfg n m a ≠ none := by
      intro hc; rw [hc] at h2; simp at h2
    rw [checkLabel_named hn hsk k3] at hne
    cases hA : tokenSeq a with
    | nil => rw [hA] at hne; exact absurd rfl hne
    | cons l r =>
      rw [hA] at hne key
      simp only at hne key
      by_cases hl : labelTest cfg n l = true
      · simp only [hl, if_true, Option.some.injEq, forall_eq'] at key
        obtain ⟨rfl, rfl⟩ := key
        refine ⟨rfl, rfl, fun _ => ⟨l, (labelTest_iff _ _ _).1 hl, ?_⟩, by simp [hn]⟩
        rw [← hseq, hA]
        simp [hn]
      · simp [hl] at hne
  · have hn' : n.isNamed = false := by simpa using hn
    obtain ⟨rfl, rfl⟩ := key a (checkLabel_unnamed hn' hsk)
    refine ⟨rfl, rfl, by simp [hn'], fun _ => ?_⟩
    simp only [hn', Bool.false_eq_true, if_false]
    rw [← hseq]; rfl

/-! ## C07 -/

/-- The validator decides whether the caller wants the node. -/
def guarded (validator : Validator) (n : Node) (m : M (Option (Target × List Token))) :
    M (Option (Target × List Token)) := do
  if ← validator n then m else pure none

theorem leafTail_some {cfg : Config} {n : Node} {v : Validator} {act : Action} {a a' : Adapter}
    {subs : List Leaf} (h : checkLabel cfg n (.ok act) a = some a') :
    leafTail cfg n v (.ok act) a subs = guarded v n (pure (some
      (⟨n, if n.isNamed then a'.processed.tail else a'.processed, subs⟩, a'.unprocessed))) := by
  simp only [leafTail, h, guarded]
  congr 1
  funext ok
  cases ok <;> rfl

theorem leafTail_error {cfg : Config} {n : Node} {v : Validator} {e : Exc} {a a' : Adapter}
    {subs : List Leaf} (h : checkLabel cfg n (.error e) a = some a') :
    leafTail cfg n v (.error e) a subs = guarded v n (M.throw e) := by
  simp only [leafTail, h, guarded]
  congr 1
  funext ok
  cases ok <;> rfl

theorem leafTail_none {cfg : Config} {n : Node} {v : Validator} {m : PreResult} {a : Adapter}
    {subs : List Leaf} (h : checkLabel cfg n m a = none) :
    leafTail cfg n v m a subs = pure none := by
  simp only [leafTail, h]

theorem hasTokenEndMarker_mem {n : Node} (h : n.hasTokenEndMarker = true) :
    ∃ s, .tokenEndMarker s ∈ n.policies.filter Policy.matters := by
  simp only [Node.hasTokenEndMarker, List.any_eq_true] at h
  obtain ⟨p, hp, h⟩ := h
  cases p with
  | tokenEndMarker s => exact ⟨s, List.mem_filter.2 ⟨hp, rfl⟩⟩
  | _ => simp at h

theorem no_marker {n : Node} {ps : List Policy} (h : MatchPolicies n ps)
    (hps : ∀ s, .tokenEndMarker s ∉ ps) : n.hasTokenEndMarker = false := by
  rw [← Bool.not_eq_true]
  intro hm
  obtain ⟨s, hs⟩ := hasTokenEndMarker_mem hm
  exact hps s (h.mem_iff.1 hs)

theorem leaf_count {cfg : Config} {n : Node} {mn mx : Nat} {parents : List Node}
    {args : List Token} {processed : Option Target} {validator : Validator}
    (hp : MatchPolicies n [.minMaxCount mn mx]) :
    leafPreParse cfg n parents args processed validator =
      leafTail cfg n validator (minMaxCountPhase n mn mx ⟨[], args⟩).1
        (minMaxCountPhase n mn mx ⟨[], args⟩).2 [] := by
  rw [leafPreParse_eq, hp.phases (by simp)]
  rfl

/-- C07 for named nodes whose matching is governed by their counts alone. On a command line
`label rest...` the node gets the first `max` of `rest` (or all of them if there are fewer), unless
there are fewer than `min`, which is an error. -/
theorem C07_named (cfg : Config) (n : Node) (mn mx : Nat) (parents : List Node) (label : Token)
    (rest : List Token) (processed : Option Target) (validator : Validator)
    (hp : MatchPolicies n [.minMaxCount mn mx]) (hn : n.isNamed = true) (hmx : mx ≤ sizeMax)
    (hlen : rest.length + 1 < 2 ^ 63) (hl : IsLabel cfg n label) :
    leafPreParse cfg n parents (label :: rest) processed validator =
      guarded validator n (if mn ≤ rest.length
        then pure (some (⟨n, rest.take mx, []⟩, rest.drop mx))
        else M.throw ⟨.minimum_count_not_reached, [n.tokenType]⟩) := by
  rw [leaf_count hp, minMaxCountPhase_eq (no_marker hp (by simp)) hmx
    (by simpa [Adapter.size] using hlen) (.inl hn)]
  have ht : labelTest cfg n label = true := (labelTest_iff _ _ _).2 hl
  simp only [hn, if_true, Adapter.size, List.length_nil, List.length_cons, Nat.zero_add,
    Nat.add_lt_add_iff_right, tokenSeq, List.nil_append, Nat.max_zero]
  by_cases hc : mn ≤ rest.length
  · rw [if_neg (by omega), if_pos hc]
    have hk : min (mx + 1) (rest.length + 1) = min mx rest.length + 1 := by omega
    have hcl : checkLabel cfg n (.ok .validNode)
        ⟨(label :: rest).take (min mx rest.length + 1),
          (label :: rest).drop (min mx rest.length + 1)⟩ = some
        ⟨(if label.pre == .none then n.getToken cfg label.name else label) :: rest.take mx,
          rest.drop mx⟩ := by
      rw [checkLabel_named hn (by simp) (by simp)]
      simp only [tokenSeq, List.take_append_drop, ht, if_true, List.tail_cons, List.length_take,
        List.length_cons, Option.some.injEq, Adapter.mk.injEq, List.cons.injEq, true_and]
      have : min (min mx rest.length + 1) (rest.length + 1) - 1 = min mx rest.length := by omega
      rw [this]
      constructor
      · by_cases h : mx ≤ rest.length
        · rw [Nat.min_eq_left h]
        · rw [Nat.min_eq_right (by omega), List.take_length, List.take_of_length_le (by omega)]
      · by_cases h : mx ≤ rest.length
        · rw [Nat.min_eq_left h]
        · rw [Nat.min_eq_right (by omega), List.drop_length, List.drop_eq_nil_of_le (by omega)]
    simp only [hk]
    rw [leafTail_some hcl]
    simp only [hn, if_true, List.tail_cons]
  · rw [if_pos (by omega), if_neg hc]
    refine leafTail_error (a' := ?_) ?_
    · exact ⟨[if label.pre == .none then n.getToken cfg label.name else label], rest⟩
    · rw [checkLabel_named hn (by simp) (by simp)]
      simp [tokenSeq, ht]

/-- C07 for named nodes, no label: the node does not match. -/
theorem C07_named_no_label (cfg : Config) (n : Node) (mn mx : Nat) (parents : List Node)
    (args : List Token) (processed : Option Target) (validator : Validator)
    (hp : MatchPolicies n [.minMaxCount mn mx]) (hn : n.isNamed = true)
    (hl : ∀ label ∈ args.head?, ¬ IsLabel cfg n label) :
    leafPreParse cfg n parents args processed validator = pure none := by
  rw [leaf_count hp]
  have hk : tokenSeq (minMaxCountPhase n mn mx ⟨[], args⟩).2 = args ∧
      (minMaxCountPhase n mn mx ⟨[], args⟩).1 ≠ .ok .skipNode ∧
      (minMaxCountPhase n mn mx ⟨[], args⟩).1 ≠ .ok .skipNodeButUseSubTargets := by
    rcases minMaxCountPhase_cases n mn mx ⟨[], args⟩ with ⟨ec, h, -⟩ | ⟨it, h⟩
    · rw [h]; simp [tokenSeq]
    · rw [h]; exact ⟨(C04_transfer_any _ it).1, by simp, by simp⟩
  refine leafTail_none ?_
  rw [checkLabel_named hn hk.2.1 hk.2.2, hk.1]
  cases args with
  | nil => rfl
  | cons l r =>
    have : labelTest cfg n l = false := by
      rw [← Bool.not_eq_true, labelTest_iff]; exact hl l (by simp)
    simp [this]

/-- C07 for nodes without a name (positional arguments). -/
theorem C07_unnamed (cfg : Config) (n : Node) (mn mx : Nat) (parents : List Node)
    (args : List Token) (processed : Option Target) (validator : Validator)
    (hp : MatchPolicies n [.minMaxCount mn mx]) (hn : n.isNamed = false) (hmx : mx ≤ sizeMax)
    (hpos : 0 < mx) (hlen : args.length < 2 ^ 63) :
    leafPreParse cfg n parents args processed validator =
      guarded validator n (if mn ≤ args.length
        then pure (some (⟨n, args.take mx, []⟩, args.drop mx))
        else M.throw ⟨.minimum_count_not_reached, [n.tokenType]⟩) := by
  rw [leaf_count hp, minMaxCountPhase_eq (no_marker hp (by simp)) hmx
    (by simpa [Adapter.size] using hlen) (.inr hpos)]
  simp only [hn, Bool.false_eq_true, if_false, Adapter.size, List.length_nil, Nat.zero_add,
    tokenSeq, List.nil_append, Nat.max_zero, Nat.add_zero]
  by_cases hc : mn ≤ args.length
  · rw [if_neg (by omega), if_pos hc]
    have : args.take (min mx args.length) = args.take mx ∧
        args.drop (min mx args.length) = args.drop mx := by
      by_cases h : mx ≤ args.length
      · rw [Nat.min_eq_left h]; exact ⟨rfl, rfl⟩
      · rw [Nat.min_eq_right (by omega), List.take_length, List.take_of_length_le (by omega),
          List.drop_length, List.drop_eq_nil_of_le (by omega)]
        exact ⟨rfl, rfl⟩
    rw [this.1, this.2, leafTail_some (checkLabel_unnamed hn (by simp))]
    simp [hn]
  · rw [if_pos (by omega), if_neg hc]
    exact leafTail_error (checkLabel_unnamed hn (by simp))

/-- An argument that takes one or two values. -/
def exNode : Node := .mk .multiArg 0 0 ⟨true, .many [], fun s => .ok (.str s)⟩
  [.minMaxCount 1 2, .longName (b "foo"), .shortName (b "f"), .required] []

example : MatchPolicies exNode [.minMaxCount 1 2] ∧ exNode.isNamed = true ∧
    IsLabel .default exNode ⟨.none, b "--foo"⟩ :=
  ⟨List.Perm.refl _, by decide +kernel,
    .inl ⟨b "foo", by decide +kernel, by decide +kernel⟩⟩

example : ∀ p ∈ exNode.policies, Rewrites p = false := by
  simp [exNode, Node.policies, Rewrites]

end ArgRouter.Props
