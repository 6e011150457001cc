import Verif.Parse.Classes
import Verif.Help.Program
import Verif.Props.Leaf
import Verif.Props.Route
import Verif.Lemmas.Fixed

/-!
# C103 – the nodes the creation functions give
-/

namespace ArgRouter.Props

open Spec

/-- The policies say nothing about which tokens are for the node, but for its names. -/
def Silent (user : List Policy) : Prop := ∀ p ∈ user, p.matters = false

/-- The policies give the count and nothing else about which tokens are for the node. -/
def OnlyCount (user : List Policy) (mn mx : Nat) : Prop := ∃ before after,
  user = before ++ .minMaxCount mn mx :: after ∧ Silent before ∧ Silent after

theorem Silent.filter {user : List Policy} (h : Silent user) : user.filter Policy.matters = [] := by
  rw [List.filter_eq_nil_iff]
  intro p hp
  simp [h p hp]

theorem addCount_silent {user : List Policy} (h : Silent user) (k : Nat) :
    addCount k user = .minMaxCount k sizeMax :: user := by
  unfold addCount
  rw [if_neg]
  rw [Bool.not_eq_true, List.any_eq_false]
  intro p hp
  have := h p hp
  cases p <;> simp_all [Policy.matters]

theorem addCount_only {user : List Policy} {mn mx : Nat} (h : OnlyCount user mn mx) (k : Nat) :
    addCount k user = user := by
  obtain ⟨x, y, rfl, -, -⟩ := h
  unfold addCount
  rw [if_pos (by simp)]

theorem OnlyCount.filter {user : List Policy} {mn mx : Nat} (h : OnlyCount user mn mx) :
    user.filter Policy.matters = [.minMaxCount mn mx] := by
  obtain ⟨x, y, rfl, hx, hy⟩ := h
  rw [List.filter_append, hx.filter, List.filter_cons_of_pos (by rfl), hy.filter]
  rfl

/-- What a named node does with `label rest...` if it takes from `mn` to `mx` values. -/
def TakesNamed (cfg : Config) (n : Node) (mn mx : Nat) : Prop :=
  ∀ (parents : List Node) (label : Token) (rest : List Token) (processed : Option Target)
    (validator : Validator), rest.length + 1 < 2 ^ 63 → IsLabel cfg n label →
    leafPreParse cfg n parents (label :: rest) processed validator =
      guarded validator n (if mn ≤ rest.length
        then pure (some (⟨n, rest.take mx, []⟩, rest.drop mx))
        else M.throw ⟨.minimum_count_not_reached, [n.tokenType]⟩)

/-- What a node without a name does with `args...` if it takes from `mn` to `mx` values. -/
def TakesUnnamed (cfg : Config) (n : Node) (mn mx : Nat) : Prop :=
  ∀ (parents : List Node) (args : List Token) (processed : Option Target)
    (validator : Validator), args.length < 2 ^ 63 →
    leafPreParse cfg n parents args processed validator =
      guarded validator n (if mn ≤ args.length
        then pure (some (⟨n, args.take mx, []⟩, args.drop mx))
        else M.throw ⟨.minimum_count_not_reached, [n.tokenType]⟩)

theorem takesNamed {cfg : Config} {n : Node} {mn mx : Nat}
    (hp : n.policies.filter Policy.matters = [.minMaxCount mn mx]) (hn : n.isNamed = true)
    (hmx : mx ≤ sizeMax) : TakesNamed cfg n mn mx :=
  fun parents label rest processed validator hlen hl =>
    C07_named cfg n mn mx parents label rest processed validator (by rw [MatchPolicies, hp]) hn hmx hlen hl

theorem takesUnnamed {cfg : Config} {n : Node} {mn mx : Nat}
    (hp : n.policies.filter Policy.matters = [.minMaxCount mn mx]) (hn : n.isNamed = false)
    (hmx : mx ≤ sizeMax) (hpos : 0 < mx) : TakesUnnamed cfg n mn mx :=
  fun parents args processed validator hlen =>
    C07_unnamed cfg n mn mx parents args processed validator (by rw [MatchPolicies, hp]) hn hmx hpos hlen

/-- C103: unless the policies say otherwise, an argument takes one value, a multi_arg all that follow
and at least one, a forwarding_arg and help all that follow, a positional_arg all there are. -/
theorem C103_counts (cfg : Config) (uid hash : Nat) (vt : ValueType) (user : List Policy)
    (hu : Silent user) :
    ((mkArg uid hash vt user).isNamed = true → TakesNamed cfg (mkArg uid hash vt user) 1 1) ∧
    ((mkMultiArg uid hash vt user).isNamed = true →
      TakesNamed cfg (mkMultiArg uid hash vt user) 1 sizeMax) ∧
    ((mkForwarding uid hash user).isNamed = true →
      TakesNamed cfg (mkForwarding uid hash user) 0 sizeMax) ∧
    ((mkHelp uid hash user).isNamed = true → TakesNamed cfg (mkHelp uid hash user) 0 sizeMax) ∧
    ((mkPositional uid hash vt user).isNamed = false →
      TakesUnnamed cfg (mkPositional uid hash vt user) 0 sizeMax) := by
  refine ⟨fun h => takesNamed ?_ h (by decide), fun h => takesNamed ?_ h (by decide),
    fun h => takesNamed ?_ h (by decide), fun h => takesNamed ?_ h (by decide),
    fun h => takesUnnamed ?_ h (by decide) (by decide)⟩
  · simp only [mkArg, Node.policies]
    rw [List.filter_cons_of_pos (by rfl), hu.filter]
  · simp only [mkMultiArg, Node.policies, addCount_silent hu]
    rw [List.filter_cons_of_pos (by rfl), hu.filter]
  · simp only [mkForwarding, Node.policies, addCount_silent hu]
    rw [List.filter_cons_of_pos (by rfl), hu.filter]
  · simp only [mkHelp, Node.policies, List.filter_append, hu.filter]
    rfl
  · simp only [mkPositional, Node.policies, addCount_silent hu]
    rw [List.filter_cons_of_pos (by rfl), hu.filter]

/-- C103: with a count among their policies, multi_arg, forwarding_arg and positional_arg take that. -/
theorem C103_given_counts (cfg : Config) (uid hash : Nat) (vt : ValueType) (user : List Policy)
    (mn mx : Nat) (hu : OnlyCount user mn mx) (hmx : mx ≤ sizeMax) :
    ((mkMultiArg uid hash vt user).isNamed = true → TakesNamed cfg (mkMultiArg uid hash vt user) mn mx) ∧
    ((mkForwarding uid hash user).isNamed = true → TakesNamed cfg (mkForwarding uid hash user) mn mx) ∧
    ((mkPositional uid hash vt user).isNamed = false → 0 < mx →
      TakesUnnamed cfg (mkPositional uid hash vt user) mn mx) := by
  refine ⟨fun h => takesNamed ?_ h hmx, fun h => takesNamed ?_ h hmx,
    fun h hpos => takesUnnamed ?_ h hmx hpos⟩
  · simp only [mkMultiArg, Node.policies, addCount_only hu, hu.filter]
  · simp only [mkForwarding, Node.policies, addCount_only hu, hu.filter]
  · simp only [mkPositional, Node.policies, addCount_only hu, hu.filter]

/-- C103: flags and counting flags take no values; what follows them is left. -/
theorem C103_flags (cfg : Config) (uid hash width : Nat) (user : List Policy) (hu : Silent user) :
    ((mkFlag cfg uid hash user).isNamed = true → TakesNamed cfg (mkFlag cfg uid hash user) 0 0) ∧
    ((mkCountingFlag cfg uid hash width user).isNamed = true →
      TakesNamed cfg (mkCountingFlag cfg uid hash width user) 0 0) := by
  have he : ∀ p : Policy, p.matters = false →
      (([p, .minMaxCount 0 0] ++ expanderIf cfg user ++ user).filter Policy.matters).Perm
        [.minMaxCount 0 0] ∨
      (([p, .minMaxCount 0 0] ++ expanderIf cfg user ++ user).filter Policy.matters).Perm
        [.shortFormExpander, .minMaxCount 0 0] := by
    intro p hp
    have hc : [p, .minMaxCount 0 0].filter Policy.matters = [.minMaxCount 0 0] := by
      rw [List.filter_cons_of_neg (by simp [hp])]
      rfl
    rw [List.filter_append, List.filter_append, hu.filter, hc]
    unfold expanderIf
    split
    · exact .inr (List.Perm.swap ..)
    · exact .inl (List.Perm.refl _)
  refine ⟨fun h => ?_, fun h => ?_⟩
  · have hf : FixedCount cfg (mkFlag cfg uid hash user) 0 :=
      ⟨by simp [mkFlag, Node.kind], h, by decide, (he _ rfl).imp id (⟨rfl, ·⟩)⟩
    exact fun parents label rest processed validator hlen hl =>
      plain_label hf parents label rest processed validator hlen hl
  · have hf : FixedCount cfg (mkCountingFlag cfg uid hash width user) 0 :=
      ⟨by simp [mkCountingFlag, Node.kind], h, by decide, (he _ rfl).imp id (⟨rfl, ·⟩)⟩
    exact fun parents label rest processed validator hlen hl =>
      plain_label hf parents label rest processed validator hlen hl

/-- C103: what is routed for nodes that are not given, if the policies have no default value: false for
a flag, zero for a counting flag, and the empty list for a forwarding_arg. -/
theorem C103_not_given (cfg : Config) (uid hash width : Nat) (user : List Policy)
    (hd : ∀ v e, .defaultValue v ∉ user ∧ .runtimeEnableRequired e v ∉ user) (mode : Node) (uses : List Leaf) (s s' : St) (i : Nat) (c : Node)
    (args : List Value) (hhelp : ∀ l ∈ uses, l.node.kind ≠ .help)
    (h : parseMode mode uses s = (.ok (), s')) (hargs : RoutedWith mode s' args)
    (hc : mode.children[i]? = some c) (hn : c.hasNoResult = false)
    (hnot : NotGiven mode.children uses i) :
    (c = mkFlag cfg uid hash user → args[position mode.children i]? = some (.one (.bool false))) ∧
    (c = mkCountingFlag cfg uid hash width user →
      args[position mode.children i]? = some (.one (.int 0))) ∧
    (c = mkForwarding uid hash user → args[position mode.children i]? = some (.many [])) := by
  have hu : user.filterMap Policy.default? = [] := by
    rw [List.filterMap_eq_nil_iff]
    intro p hp
    cases p <;> first | exact absurd hp (hd _ true).1 | exact absurd hp (hd _ _).2 | rfl
  obtain ⟨h1, h2⟩ := C22_fallback mode uses s s' i c args hhelp h hargs hc hn hnot
  refine ⟨fun e => h1 _ (e ▸ C22_flag cfg uid hash user hu), fun e => ?_, fun e => ?_⟩
  · rw [h2 ?_]
    · rw [e]; rfl
    · rw [e]
      simp only [defaults, mkCountingFlag, Node.policies, List.filterMap_append, hu]
      unfold expanderIf
      split <;> rfl
  · rw [h2 ?_]
    · rw [e]; rfl
    · rw [e]
      simp only [defaults, mkForwarding, Node.policies, addCount]
      split
      · exact hu
      · rw [List.filterMap_cons_none (by rfl), hu]

/-- C103: the value of a forwarding_arg is the list of all its tokens as they are. -/
theorem C103_forwarded (uid hash : Nat) (user : List Policy) (hc : ∀ f, .customParser f ∉ user)
    (ts : List Token) :
    parseValue (mkForwarding uid hash user) ts = .ok (.many (ts.map fun t => .str t.name)) := by
  have ht : ∀ s, parseToken (mkForwarding uid hash user) s = .ok (.str s) := by
    intro s
    unfold parseToken
    split
    · rename_i f hf
      obtain ⟨p, hp, hq⟩ := List.exists_of_findSome?_eq_some hf
      cases p <;> simp at hq
      simp only [mkForwarding, Node.policies, addCount] at hp
      split at hp
      · exact absurd hp (hc _)
      · exact absurd (by simpa using hp) (hc _)
    · rfl
  have : ∀ ts : List Token, parseTokens (mkForwarding uid hash user) ts =
      .ok (ts.map fun t => .str t.name) := by
    intro ts
    induction ts with
    | nil => rfl
    | cons t ts ih => simp [parseTokens, ht, ih]
  have hl : (mkForwarding uid hash user).vt.isList = true := rfl
  simp [parseValue, hl, this ts]

/-- A multi_arg with a name and a description, and the same with a count. -/
example : Silent [.longName (b "files"), .description (b "Files"), .required] ∧
    OnlyCount [.longName (b "files"), .minMaxCount 2 3, .required] 2 3 ∧
    (mkMultiArg 1 1 stringList [.longName (b "files"), .description (b "Files"), .required]).isNamed = true := by
  refine ⟨by simp [Silent, Policy.matters], ⟨[.longName (b "files")], [.required], rfl, ?_, ?_⟩, rfl⟩ <;>
    simp [Silent, Policy.matters]

/-- A program with them. -/
def manyRoot : Node := mkRoot 1 1 [mkMode 2 2 [.router]
  [mkMultiArg 3 3 stringList [.longName (b "files")],
   mkForwarding 4 4 [.noneName (b "--")],
   mkCountingFlag .default 5 5 32 [.longName (b "loud")]]]

/-- What it does. -/
example :
    parseArgs .default manyRoot [b "--files", b "x", b "--loud"] .fresh =
      (.ok (), ⟨[], [⟨2, [.many [.str (b "x"), .str (b "--loud")], .many [], .one (.int 0)]⟩]⟩) ∧
    parseArgs .default manyRoot [b "--loud", b "--", b "x", b "--loud"] .fresh =
      (.ok (), ⟨[], [⟨2, [.many [], .many [.str (b "x"), .str (b "--loud")], .one (.int 1)]⟩]⟩) ∧
    (parseArgs .default manyRoot [b "--files"] .fresh).1 =
      .throw ⟨.minimum_count_not_reached, [⟨.long, b "files"⟩]⟩ := by decide +kernel

end ArgRouter.Props
