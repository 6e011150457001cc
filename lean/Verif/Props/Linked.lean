import Verif.Props.Valid
import Verif.Props.Reading
import Verif.Props.Depend
import Verif.Lemmas.Outcome

/-!
# C12 with an alias, C77 and C78: links between nodes that go wrong
-/

namespace ArgRouter.Props

open Spec

/-- A flag `--force`. -/
def plainForce : Node := mkFlag .default 1 1 [.longName (b "force")]
/-- An argument `--level VALUE`. -/
def plainLevel : Node := mkArg 2 2 textType [.longName (b "level"), .defaultValue (.one (.str []))]
/-- A flag `--all` that stands for `--force` and may only be given after `--level`. -/
def needyAlias : Node := mkFlag .default 3 3
  [.longName (b "all"), .alias [.long (b "force")], .dependent [.long (b "level")]]
def needyMode : Node := mkMode 4 4 [.router] [plainForce, plainLevel, needyAlias]
def needyRoot : Node := mkRoot 5 5 [needyMode]

/-- C12 is false for an alias: `--all` stands for `--force` and depends on `--level`. The default
validator accepts this. Without `--level` the parse does fail, but not with
`dependent_argument_missing`: `--all` is reported as unknown, with `--all` as a suggestion. After `--level` it is
accepted. -/
theorem C12_alias_false :
    Accepted needyRoot ∧
    parseArgs .default needyRoot [b "--level", b "3", b "--all"] .fresh =
      (.ok (), ⟨[], [⟨4, [.one (.bool true), .one (.str (b "3"))]⟩]⟩) ∧
    parseArgs .default needyRoot [b "--all"] .fresh =
      (.throw ⟨.unknown_argument_with_suggestion,
        [⟨.none, b "--all"⟩, ⟨.long, b "all"⟩]⟩, .fresh) := by
  refine ⟨by unfold Accepted; decide +kernel, by decide +kernel, by decide +kernel⟩

/-- `C12_alias_exact` applies to `--all` of this program. -/
example : MatchPolicies needyAlias [.minMaxCount 0 0, .alias [.long (b "force")],
      .dependent [.long (b "level")]] ∧
    needyAlias.minMaxCount = some (0, 0) ∧ InnermostRouting [needyAlias, needyMode] needyMode ∧
    InnermostRouting [needyMode] needyMode ∧ needyAlias.isNamed = true ∧
    IsLabel .default needyAlias ⟨.none, b "--all"⟩ ∧
    (needyMode.owners [.long (b "level")]).map Node.uid = [2] ∧
    (∀ d ∈ needyMode.owners [.long (b "level")], ¬ Seen ⟨needyMode, [], []⟩ d ∧
      Seen ⟨needyMode, [], [⟨plainLevel, []⟩]⟩ d) ∧
    -- the dependency is reported if the alias is given twice
    taken (leafPreParse .default needyAlias [needyMode] [⟨.none, b "--all"⟩, ⟨.none, b "--all"⟩]
      (some ⟨needyMode, [], []⟩) alwaysTrue .fresh) =
      .throw ⟨.dependent_argument_missing, [⟨.long, b "level"⟩]⟩ := by
  refine ⟨List.Perm.refl _, by decide +kernel,
    ⟨[needyAlias], [], rfl, by decide +kernel, by simp only [List.mem_singleton]; rintro _ rfl; decide +kernel⟩,
    ⟨[], [], rfl, by decide +kernel, by simp⟩, by decide +kernel,
    .inl ⟨b "all", by decide +kernel, by decide +kernel⟩, by decide +kernel, ?_, by decide +kernel⟩
  intro d hd
  have h1 : (needyMode.owners [.long (b "level")]).map Node.hash = [2] := by decide +kernel
  have h2 : d.hash = 2 := by
    have := List.mem_map_of_mem (f := Node.hash) hd
    rw [h1] at this
    simpa using this
  constructor
  · rintro (h | ⟨l, hl, -⟩)
    · rw [h2] at h; exact absurd h (by decide +kernel)
    · cases hl
  · exact .inr ⟨_, List.mem_cons_self, by rw [h2]; decide +kernel⟩

/-! ## C13: aliases of aliases -/

theorem processSubs_idle (children : List Node) (before after : List Leaf) (u : Leaf)
    (hu : ∀ rs, processSubs children (u :: after) rs = processSubs children after rs)
    (rs : List (Option Value)) :
    processSubs children (before ++ u :: after) rs = processSubs children (before ++ after) rs := by
  induction before generalizing rs with
  | nil => exact hu rs
  | cons l ls ih =>
    simp only [List.cons_append, processSubs, ih]

/-- A use for a child that hands nothing to the router changes nothing. -/
theorem idle_use (mode : Node) (before after : List Leaf) (u : Leaf) (v : Value) (s : St)
    (hu : HasUses u.node) (hg : Gives u (.ok v)) (hr : .router ∉ u.node.policies)
    (ha : ∀ (i : Nat) (c : Node), IsFor mode.children u i → mode.children[i]? = some c →
      c.hasNoResult = true) :
    parseMode mode (before ++ u :: after) s = parseMode mode (before ++ after) s := by
  have key : ∀ rs, processSubs mode.children (u :: after) rs = processSubs mode.children after rs := by
    intro rs
    funext s
    rw [processSubs, M.bind_apply, parseLeaf_apply, leafValue_valueOf hu, (gives_iff hu _).1 hg]
    have hc : leafCalls u (some v) = [] := by
      have : u.node.hasRouter = false := by
        rw [Bool.eq_false_iff, ne_eq, hasRouter_iff]; exact hr
      unfold leafCalls
      rcases hu with h | h | h
      · simp [h, this]
      · simp [h]
      · unfold TakesValues at h
        split at h <;> simp_all
    simp only [Out.ok_bind, hc]
    have hs : s.withCalls [] = s := by cases s; simp [St.withCalls]
    rw [hs]
    cases hf : findChild u.node.hash mode.children 0 with
    | none => rfl
    | some r =>
      obtain ⟨i, c, n⟩ := r
      obtain ⟨j, hj, hc1, hc2, hc3⟩ := findChild_spec _ _ _ hf
      have hm := List.find?_some hc2
      have hx := List.mem_of_find?_eq_some hc2
      simp only [Bool.and_eq_true, beq_iff_eq, bne_iff_ne, ne_eq] at hm
      have hno : c.hasNoResult = true := by
        refine ha j c ⟨⟨c, hc1, n, hx, hm.1.1, hm.1.2, hm.2⟩, ?_⟩ hc1
        rintro k d hk hd ⟨x, hxd, hx1, hx2, hx3⟩
        have := hc3 k d hk hd
        rw [matchChild, List.find?_eq_none] at this
        exact this x hxd (by simp [hx1, hx2, hx3])
      simp only [processResult, hno, if_true, M.bind_apply, M.pure_apply]
  simp only [parseMode, processSubs_idle mode.children before after u key]

/-- C13, what becomes of an alias that another alias stands for. The mode is told of a use of the inner alias
(`C13_targets`), and whatever other arguments were used, before and after, that use changes nothing: the same
router is called with the same values, or there is the same error, as if it had not been there. -/
theorem C13_nested_exact (mode : Node) (before after : List Leaf) (u : Leaf) (v : Value) (s : St)
    (hu : HasUses u.node) (hg : Gives u (.ok v)) (hr : .router ∉ u.node.policies)
    (ha : ∀ c ∈ mode.children, ∀ x ∈ c.nodes, x.hash = u.node.hash → ∃ refs, .alias refs ∈ c.policies) :
    parseMode mode (before ++ u :: after) s = parseMode mode (before ++ after) s := by
  refine idle_use mode before after u v s hu hg hr fun i c hi hc => ?_
  obtain ⟨⟨d, hd, x, hx, -, -, he⟩, -⟩ := hi
  rw [hc] at hd
  cases hd
  obtain ⟨refs, hrefs⟩ := ha c (List.mem_of_getElem? hc) x hx he
  simp only [Node.hasNoResult, List.any_eq_true]
  exact ⟨_, hrefs, rfl⟩

/-- It applies to the use of `--both` that `--all` stands for. -/
example : HasUses bothFlag ∧ Gives ⟨bothFlag, []⟩ (.ok (.one (.bool true))) ∧
    .router ∉ bothFlag.policies ∧
    (∀ c ∈ aliasMode.children, ∀ x ∈ c.nodes, x.hash = bothFlag.hash → ∃ refs, .alias refs ∈ c.policies) ∧
    ¬ (∀ c ∈ aliasMode.children, ∃ refs, .alias refs ∈ c.policies) := by
  refine ⟨.inl rfl, .flag (.inl rfl), by simp [bothFlag, Node.policies], ?_, ?_⟩
  · simp only [aliasMode, Node.children, List.mem_cons, List.not_mem_nil, or_false]
    rintro c (rfl | rfl | rfl | rfl) x hx
    · have : x = aFlag := by simpa [aFlag, nodes_mk, nodesList] using hx
      rw [this]; intro h; exact absurd h (by decide +kernel)
    · have : x = bFlag := by simpa [bFlag, nodes_mk, nodesList] using hx
      rw [this]; intro h; exact absurd h (by decide +kernel)
    · intro _; exact ⟨_, by simp only [bothFlag, Node.policies]; repeat constructor⟩
    · intro _; exact ⟨_, by simp only [allFlag, Node.policies]; repeat constructor⟩
  · intro h
    obtain ⟨refs, hr⟩ := h aFlag (by simp [aliasMode, Node.children])
    simp [aFlag, Node.policies] at hr

/-! ## C77: modes that are switched off -/

/-- A disabled mode without a name. -/
def offMode : Node := mkMode 4 4 [.router, .runtimeEnable false] [plainForce]
def offRoot : Node := mkRoot 5 5 [offMode]

/-- C77 is false for a mode without a name: it handles the command line although it is switched
off. -/
theorem C77_anonymous_false :
    Accepted offRoot ∧ Disabled offMode ∧
    parseArgs .default offRoot [b "--force"] .fresh =
      (.ok (), ⟨[], [⟨4, [.one (.bool true)]⟩]⟩) := by
  refine ⟨by unfold Accepted; decide +kernel,
    ⟨.runtimeEnable false, by simp [offMode, mkMode, Node.policies, modePolicies], rfl⟩,
    by decide +kernel⟩

/-- C77, what happens otherwise: a mode without a name is never passed over, switched off or not. A command
line that the children of root before it decline is not offered to any other child; if the parse succeeds, it
is by calling the router of this mode. -/
theorem C77_anonymous_exact (cfg : Config) (root mode : Node) (before after : List Node)
    (args : List Bytes) (s s1 : St) (hroot : root.children = before ++ mode :: after)
    (hdec : Declined cfg root (args.map (Token.mk .none)) before s s1)
    (hk : mode.kind = .mode) (hn : mode.noneName = none) :
    (∀ s2, offerTo cfg root (args.map (Token.mk .none)) mode s1 ≠ (.ok none, s2)) ∧
    ∀ s', parseArgs cfg root args s = (.ok (), s') → ∃ values, RoutedWith mode s' values := by
  have hbody : offerTo cfg root (args.map (Token.mk .none)) mode =
      modeBody cfg mode [root] alwaysTrue (args.map (Token.mk .none)) := by
    rw [offerTo, if_pos (by simp [hk])]
    obtain ⟨k, u, h, v, p, cs⟩ := mode
    rw [preParseMode]
    simp only [Node.isAnonymous, hn, Option.isNone_none, if_true]
  refine ⟨fun s2 => by rw [hbody]; exact modeBody_some s2, fun s' h => ?_⟩
  match hm : offerTo cfg root (args.map (Token.mk .none)) mode s1 with
  | (.ok none, s2) => exact absurd (hbody ▸ hm) (modeBody_some s2)
  | (.ok (some (t, rest)), s2) =>
    obtain ⟨ht, rfl⟩ := modeBody_node (hbody ▸ hm)
    rw [C28_first_match cfg root args before after mode t s s1 s2 hroot hdec hm, runTarget,
      if_pos (by simp [ht, hk]), ht] at h
    obtain ⟨-, vals, hv, -⟩ := parseMode_args h
    exact ⟨vals, hv⟩
  | (.throw e, s2) | (.foreign, s2) | (.ub, s2) | (.diverge, s2) =>
    unfold parseArgs rootParse at h
    rw [hroot, M.bind_apply, rootLoop_declined hdec, rootLoop, M.bind_apply, hm] at h
    simp at h

/-- C77 for modes with a name: a mode that is switched off never gets a command line, wherever it
is. -/
theorem C77_named_partial (cfg : Config) (mode : Node) (parents : List Node) (args : List Token)
    (validator : Validator) (s s' : St) (r : Target × List Token)
    (hd : Disabled mode) (hn : mode.noneName.isSome) :
    preParseMode cfg parents args validator mode s ≠ (.ok (some r), s') :=
  C11_mode_partial cfg mode parents args validator s s' r hd hn

/-- A named mode that is switched off, and one that is not. -/
example :
    parseArgs .default (mkRoot 5 5 [mkMode 4 4 [.router, .noneName (b "run"), .runtimeEnable false]
      [plainForce]]) [b "run", b "--force"] .fresh =
      (.throw ⟨.unknown_argument, [⟨.none, b "run"⟩]⟩, .fresh) ∧
    parseArgs .default (mkRoot 5 5 [mkMode 4 4 [.router, .noneName (b "run"), .runtimeEnable true]
      [plainForce]]) [b "run", b "--force"] .fresh =
      (.ok (), ⟨[], [⟨4, [.one (.bool true)]⟩]⟩) := by
  decide +kernel

/-! ## C78: values reach the router of the mode they were given to -/

/-- A mode with an argument `--level` of its own and a nested mode that has one too. -/
def innerMode : Node := mkMode 10 10 [.router, .noneName (b "sub")] [plainLevel]
def outerMode : Node := mkMode 11 11 [.router, .noneName (b "run")] [innerMode, plainLevel]
def nestedRoot : Node := mkRoot 12 12 [outerMode]
/-- The same with a required argument. -/
def mustLevel : Node := mkArg 2 2 textType [.longName (b "level"), .required]
def mustRoot : Node := mkRoot 12 12 [mkMode 11 11 [.router, .noneName (b "run")]
  [mkMode 10 10 [.router, .noneName (b "sub")] [mustLevel], mustLevel]]

/-- C78 is false if a nested mode declared before the argument has an argument of the same type:
`run --level 3` calls the router with the default instead of `3`. If the argument is required, the
parse fails because it is missing, although it is there. The default validator accepts both
programs. -/
theorem C78_nested_false :
    Accepted nestedRoot ∧ Accepted mustRoot ∧
    parseArgs .default nestedRoot [b "run", b "--level", b "3"] .fresh =
      (.ok (), ⟨[], [⟨11, [.one (.str [])]⟩]⟩) ∧
    parseArgs .default mustRoot [b "run", b "--level", b "3"] .fresh =
      (.throw ⟨.missing_required_argument, [⟨.long, b "level"⟩]⟩, .fresh) := by
  refine ⟨by unfold Accepted; decide +kernel, by unfold Accepted; decide +kernel,
    by decide +kernel, by decide +kernel⟩

/-- C78, what holds: the use of an argument of child number `i`, none of which is found in a child
declared before it, reaches the router of the mode at the place of that child. -/
theorem C78_partial (mode : Node) (uses : List Leaf) (s s' : St) (i : Nat) (c : Node) (l : Leaf)
    (hhelp : ∀ l ∈ uses, l.node.kind ≠ .help)
    (h : parseMode mode uses s = (.ok (), s'))
    (hc : mode.children[i]? = some c) (hn : c.hasNoResult = false)
    (hsingle : ∀ n ∈ c.nodes, n.isMultiStage = false)
    (hl : l ∈ uses) (hown : l.node ∈ c.nodes) (hk : l.node.kind ≠ .mode)
    (hp : l.node.hasParse = true)
    (hfirst : ∀ (j : Nat) (d : Node), j < i → mode.children[j]? = some d → ∀ n ∈ d.nodes,
      n.hash ≠ l.node.hash) :
    ∃ args v, RoutedWith mode s' args ∧ args[position mode.children i]? = some v ∧
      UseValue l v := by
  obtain ⟨args, h1, -, h3⟩ := C20_router_arguments mode uses s s' hhelp h
  obtain ⟨v, h4, h5⟩ := h3 i c hc hn hsingle
  have hfor : IsFor mode.children l i := by
    refine ⟨⟨c, hc, l.node, hown, hk, hp, rfl⟩, ?_⟩
    rintro j d hj hd ⟨n, hn, -, -, he⟩
    exact hfirst j d hj hd n hn he
  refine ⟨args, v, h1, h4, ?_⟩
  rcases h5 with ⟨hno, -⟩ | ⟨l', ⟨before, after, rfl, g1, g2, g3⟩, hv⟩
  · exact absurd hfor (hno l hl)
  · rcases List.mem_append.1 hl with h6 | h6
    · exact absurd hfor (g2 l h6)
    · rcases List.mem_cons.1 h6 with rfl | h6
      · exact hv
      · exact absurd hfor (g3 l h6)

/-- C78, the other case. If an argument of the same type is found in a nested mode that is declared before
the argument (before any other child with one), its use is lost: whatever else is given, the same router is
called with the same values, or there is the same error, as if it had not been used. -/
theorem C78_nested_exact (mode : Node) (before after : List Leaf) (u : Leaf) (v : Value) (s : St)
    (i : Nat) (c : Node) (hu : HasUses u.node) (hg : Gives u (.ok v)) (hr : .router ∉ u.node.policies)
    (hc : mode.children[i]? = some c) (hn : .noResult ∈ c.policies)
    (hin : ∃ x ∈ c.nodes, x.kind ≠ .mode ∧ x.hasParse = true ∧ x.hash = u.node.hash)
    (hfirst : ∀ (j : Nat) (d : Node), j < i → mode.children[j]? = some d → ∀ n ∈ d.nodes,
      n.hash ≠ u.node.hash) :
    parseMode mode (before ++ u :: after) s = parseMode mode (before ++ after) s := by
  have hno : c.hasNoResult = true := by
    simp only [Node.hasNoResult, List.any_eq_true]
    exact ⟨_, hn, rfl⟩
  refine idle_use mode before after u v s hu hg hr fun k d hk hd => ?_
  obtain ⟨⟨d', hd', x, hx, -, -, he⟩, hlt⟩ := hk
  rw [hd] at hd'
  cases hd'
  rcases Nat.lt_trichotomy k i with h | h | h
  · exact absurd he (hfirst k d h hd x hx)
  · subst h
    rw [hc] at hd
    cases hd
    exact hno
  · exact absurd hin (hlt i c h hc)

/-- `run --level 3` of the program above is such a case. -/
example : outerMode.children[0]? = some innerMode ∧ .noResult ∈ innerMode.policies ∧
    (∃ x ∈ innerMode.nodes, x.kind ≠ .mode ∧ x.hasParse = true ∧ x.hash = plainLevel.hash) ∧
    HasUses plainLevel ∧ Gives ⟨plainLevel, [⟨.none, b "3"⟩]⟩ (.ok (.one (.str (b "3")))) ∧
    .router ∉ plainLevel.policies ∧
    parseMode outerMode [⟨plainLevel, [⟨.none, b "3"⟩]⟩] .fresh = parseMode outerMode [] .fresh := by
  have hu : HasUses plainLevel := .inr (.inr (by decide +kernel))
  refine ⟨rfl, by simp [innerMode, mkMode, Node.policies, modePolicies], ⟨plainLevel, ?_, by decide +kernel,
    by decide +kernel, rfl⟩, hu, (gives_iff hu _).2 (by rfl),
    by simp [plainLevel, mkArg, Node.policies], by decide +kernel⟩
  simp [innerMode, mkMode, nodes_mk, nodesList, plainLevel, mkArg]

/-- A use that meets the hypotheses: the nested mode is declared after the argument. -/
example : parseArgs .default (mkRoot 12 12 [mkMode 11 11 [.router, .noneName (b "run")]
    [plainLevel, innerMode]]) [b "run", b "--level", b "3"] .fresh =
      (.ok (), ⟨[], [⟨11, [.one (.str (b "3"))]⟩]⟩) := by
  decide +kernel

end ArgRouter.Props
