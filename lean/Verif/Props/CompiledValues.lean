import Verif.Props.CompiledCalls
import Verif.Examples.Programs

/-!
# C25 of every program that compiles

Every value a router is called with is within its bounds, but for those of one kind of group.
-/

namespace ArgRouter

open Spec

namespace Props

variable {cfg : Config} {root : Node}

/-- A mode that can be reached is in the tree. -/
theorem reached_mem {c mode : Node} (h : Reached c mode) : mode ∈ c.nodes := by
  induction h with
  | here _ _ => exact self_mem_nodes _
  | inside _ _ hc _ ih => exact child_mem_nodes hc _ ih

theorem reached_mode {c mode : Node} (h : Reached c mode) : mode.kind = .mode := by
  induction h with
  | here hk _ => exact hk
  | inside _ _ _ _ ih => exact ih

/-- A flag of a program that compiles has no policy that checks values. -/
theorem compiles_flag (hc : ∃ depth, compiles cfg depth defaultRules root = true) {n : Node}
    (hn : n ∈ root.nodes) (hk : n.kind = .flag) (v : Value) : InBounds n v ∧ Approved n v := by
  obtain ⟨p, hp⟩ := mem_nodes.1 hn
  have h := (((C102_compiles cfg root).1 hc).2.1 p n hp).2.1.cls
  have : ¬ Has n .validation := by
    cases h with
    | flag _ _ _ _ _ _ h => exact h
    | aliasGroup h => rw [hk] at h; cases h
    | oneOf h => rw [hk] at h; cases h
    | _ => simp_all
  exact ⟨fun lo hi less hm => absurd ⟨_, hm, .minMaxValue lo hi less⟩ this,
    fun t f hm => absurd ⟨_, hm, .validation t f⟩ this⟩

/-- Uses of a counting flag of a program that compiles are merged. -/
theorem compiles_counter (hc : ∃ depth, compiles cfg depth defaultRules root = true) {n : Node}
    (hn : n ∈ root.nodes) (hk : n.kind = .countingFlag) : n.isMultiStage = true := by
  obtain ⟨depth, hc⟩ := hc
  obtain ⟨p, hp⟩ := mem_nodes.1 hn
  have h := (nodeAsserts_parts ((compiles_iff_parts hc).2.2 p n hp)).1
  unfold classPolicies at h
  rw [hk] at h
  simp only [Bool.and_eq_true] at h
  exact h.1

/-- What a mode that runs passes for a child of which only one use counts: it is the fallback, which the
policies of the child accept, or the value of a use, which the policies of the argument accept. -/
theorem passed_kept {mode : Node} {uses : List Leaf} {s s' : St} {i : Nat} {c : Node}
    {args : List Value} {v : Value}
    (h : parseMode mode uses s = (.ok (), s')) (hargs : RoutedWith mode s' args)
    (hc : mode.children[i]? = some c) (hn : c.hasNoResult = false)
    (hsingle : ∀ n ∈ c.nodes, n.isMultiStage = false)
    (hv : args[position mode.children i]? = some v) :
    (Fallback c v ∧ InBounds c v ∧ Approved c v) ∨
      ∃ l ∈ uses, IsFor mode.children l i ∧ UseValue l v ∧ ChecksOut l.node v := by
  obtain ⟨hl, args', h1, h2, h3⟩ := parseMode_args h
  have : args' = args := by
    rw [RoutedWith] at hargs h1
    rw [hargs] at h1
    simpa using h1.symm
  subst this
  obtain ⟨g, w, g1, g2, -, g4⟩ := h3 i c hc hn
  rw [hv] at g4
  cases g4
  have hms : ∀ p ∈ own mode.children uses i, p.1.isMultiStage = false := by
    rintro ⟨n, w⟩ hp
    obtain ⟨l, -, hl2⟩ := List.mem_filterMap.1 hp
    obtain ⟨-, -, c', hc', hnm, -⟩ := ownOf_some hl2
    rw [hc] at hc'
    cases hc'
    exact hsingle n hnm
  rcases gather_single hms g1 with ⟨e1, rfl⟩ | ⟨n, w, e1, rfl⟩
  · left
    simp only [fillOf, hn, Bool.false_eq_true, if_false, Out.bind_eq_ok, Out.pure_eq,
      Out.ok.injEq, Option.some.injEq] at g2
    obtain ⟨w, g2, rfl⟩ := g2
    exact (fallbackOf_ok _ _).1 g2
  · right
    simp only [fillOf, hn, Bool.false_eq_true, if_false, Out.ok.injEq, Option.some.injEq] at g2
    subst g2
    have hmem : (n, w) ∈ own mode.children uses i := by rw [e1]; exact List.mem_cons_self
    obtain ⟨l, hlm, hl2⟩ := List.mem_filterMap.1 hmem
    obtain ⟨f1, f2, -⟩ := ownOf_some hl2
    exact ⟨l, hlm, f1, leafValue_spec f2⟩

/-- What a mode that runs passes for a child whose uses are merged, or one of whose children's are, is
accepted by the policies of the child. -/
theorem passed_merged {mode : Node} {uses : List Leaf} {s s' : St} {i : Nat} {c : Node}
    {args : List Value} {v : Value}
    (h : parseMode mode uses s = (.ok (), s')) (hargs : RoutedWith mode s' args)
    (hc : mode.children[i]? = some c) (hn : c.hasNoResult = false)
    (hm : c.isMultiStage = true ∨ ∃ x ∈ c.children, x.isMultiStage = true)
    (hv : args[position mode.children i]? = some v) : InBounds c v ∧ Approved c v := by
  obtain ⟨hl, args', h1, h2, h3⟩ := parseMode_args h
  have : args' = args := by
    rw [RoutedWith] at hargs h1
    rw [hargs] at h1
    simpa using h1.symm
  subst this
  obtain ⟨g, w, g1, g2, g3, g4⟩ := h3 i c hc hn
  rw [hv] at g4
  cases g4
  have : (c.isMultiStage || c.children.any Node.isMultiStage) = true := by
    rw [Bool.or_eq_true, List.any_eq_true]
    exact hm
  simp only [stagesOf, hn, this, Bool.not_false, Bool.and_true, if_true] at g3
  exact (inBounds_iff _ _).1 g3

/-- C25 of every program that compiles: a parse that returns has called one router, of a node of the
program, and what it was called with is within bounds and approved by the policies of the user.

* The router of an argument of the program itself gets one value, which its policies accept.
* The router of a mode gets, for a child that is an argument, a value that its policies accept, whether
  it was parsed, counted or is a fallback. Arguments are told apart by their type, so no other argument
  that can be selected in the mode may have the same one.
* For a group with an alternative whose uses are merged it gets a value that the policies of the group
  accept.
* For any other group it gets a fallback that the policies of the group accept, or a value that those of
  the alternative used accept. The policies of the group itself do not see the latter, which makes the
  claim false for such groups: `C25_group_false`. -/
theorem C25_compiled_partial (cfg : Config) (root : Node) (argv : List Bytes) (s s' : St)
    (hc : ∃ depth, compiles cfg depth defaultRules root = true)
    (h : parseArgs cfg root argv s = (.ok (), s')) :
    ∃ (n : Node) (vals : List Value), n ∈ root.nodes ∧ s'.calls = s.calls ++ [⟨n.uid, vals⟩] ∧
      (n.kind = .help ∨
       (n.kind ≠ .mode ∧ ∃ v, vals = [v] ∧ InBounds n v ∧ Approved n v) ∨
       (n.kind = .mode ∧ ∀ (i : Nat) (c : Node) (v : Value), n.children[i]? = some c →
          c.hasNoResult = false → vals[position n.children i]? = some v →
          (c.children = [] → (∀ x, Selectable n x → x.hash = c.hash → x = c) →
            InBounds c v ∧ Approved c v) ∧
          ((∃ x ∈ c.children, x.isMultiStage = true) → InBounds c v ∧ Approved c v) ∧
          ((∀ x ∈ c.nodes, x.isMultiStage = false) →
            (Fallback c v ∧ InBounds c v ∧ Approved c v) ∨
            ∃ x, Selectable n x ∧ Contains c x.hash ∧
              (x.kind ≠ .countingFlag → InBounds x v ∧ Approved x v)))) := by
  rcases program_ran (compiles_routers hc) (compiles_flat hc) h with
    ⟨calls, ⟨c, hcr, hck, x, hx, -, h2⟩, h3⟩ | ⟨c, hcr, mode, uses, s1, h1, h2, h3, ⟨call, h4⟩, h5⟩
  · have hxr : x ∈ root.nodes := child_mem_nodes hcr _ hx
    have hxk : x.kind ≠ .mode := compiles_flat hc c hcr hck x hx
    have htop := compiles_top hc c hcr x hx hck
    rcases h2 with rfl | ⟨hh, text, rfl⟩ | ⟨l, v, rfl, -, -, h6, rfl⟩
    · exfalso
      rcases C26_compiled cfg root argv s s' _ hc h with ⟨-, call, h7⟩ | ⟨h7, -⟩
      · rw [h3] at h7; simp at h7
      · exact h7 rfl
    · exact ⟨x, _, hxr, h3, .inl hh⟩
    · refine ⟨l.node, _, hxr, h3, ?_⟩
      rcases htop with hh | ⟨-, hcf⟩
      · exact .inl hh
      · refine .inr (.inl ⟨hxk, v, rfl, ?_⟩)
        by_cases hf : l.node.kind = .flag
        · exact compiles_flag hc hxr hf v
        · exact h6 hf hcf
  · have hmode : mode ∈ root.nodes := child_mem_nodes hcr _ (reached_mem h1)
    have hmk := reached_mode h1
    obtain ⟨vals, g1, -, -⟩ := router_arguments (fun l hl => (h5 l hl).2.1) h3
    have hcall : call = ⟨mode.uid, vals⟩ := by
      rw [RoutedWith, h4] at g1
      simpa using g1
    subst hcall
    refine ⟨mode, vals, hmode, h4, .inr (.inr ⟨hmk, ?_⟩)⟩
    intro i d v hd hn hv
    have hdr : d ∈ root.nodes :=
      nodes_trans _ _ hmode _ (child_mem_nodes (List.mem_of_getElem? hd) _ (self_mem_nodes _))
    refine ⟨?_, fun hm => passed_merged h3 g1 hd hn (.inr hm) hv, ?_⟩
    · intro hleaf hsame
      by_cases hf : d.kind = .flag
      · exact compiles_flag hc hdr hf v
      · exact C25_within_bounds_partial mode uses s1 s' i d vals v h3 g1 hd hn hleaf hf
          (compiles_counter hc hdr) (fun l hl => hsame _ (h5 l hl).1) hv
    · intro hsingle
      rcases passed_kept h3 g1 hd hn hsingle hv with e | ⟨l, hl, e1, -, e3⟩
      · exact .inl e
      · refine .inr ⟨l.node, (h5 l hl).1, ?_, ?_⟩
        · obtain ⟨⟨c', hc', hcon⟩, -⟩ := e1
          rw [hd] at hc'
          cases hc'
          exact hcon
        · intro hcf
          by_cases hf : l.node.kind = .flag
          · refine compiles_flag hc ?_ hf v
            rcases (h5 l hl).1 with ⟨⟨c', hc', -, hin⟩, -⟩ | ⟨a, refs, -, -, -, -, hin⟩
            · exact nodes_trans _ _ hmode _ (child_mem_nodes hc' _ hin)
            · exact nodes_trans _ _ hmode _ hin
          · exact e3 hf hcf

/-! ## A group whose bounds are not looked at -/

/-- `alias_group(arg<int>("level"), arg<int>("depth"), default_value{1}, min_max_value{0, 3})`. -/
def boundGroup (bounds : List Policy) : Node :=
  mkAliasGroup .default 70 70 (intType ⟨32, true⟩) (.defaultValue (.one (.int 1)) :: bounds)
    [mkArg 71 71 (intType ⟨32, true⟩) [.longName (b "level")],
     mkArg 72 72 (intType ⟨32, true⟩) [.longName (b "depth")]]
def boundRoot (bounds : List Policy) : Node :=
  mkRoot 74 74 [mkMode 73 73 [.router] [boundGroup bounds]]
def zeroToThree : Policy := .minMaxValue (some (.one (.int 0))) (some (.one (.int 3))) Examples.lessInt

/-- The same with a counting flag as one alternative: `examples/c++17/basic_cat`'s verbosity. -/
def countRoot : Node :=
  mkRoot 85 85 [mkMode 84 84 [.router] [mkAliasGroup .default 83 83 (intType ⟨32, true⟩)
    [.defaultValue (.one (.int 1)), zeroToThree]
    [mkCountingFlag .default 81 81 32 [.shortName (b "v")],
     mkArg 82 82 (intType ⟨32, true⟩) [.longName (b "verbose")]]]]

/-- C25 is false of an `alias_group` with bounds none of whose alternatives merges its uses: the bounds
are compared with the fallback only. The program compiles, and `--level 9` is routed although the
group's maximum is 3. A fallback of 9 is refused, and so is the value 9 if the alternative has the
bounds. -/
theorem C25_group_false :
    compiles .default 100 defaultRules (boundRoot [zeroToThree]) = true ∧
    parseArgs .default (boundRoot [zeroToThree]) [b "--level", b "9"] .fresh =
      (.ok (), ⟨[], [⟨73, [.one (.int 9)]⟩]⟩) ∧
    ¬ InBounds (boundGroup [zeroToThree]) (.one (.int 9)) := by
  refine ⟨by decide +kernel, by decide +kernel, ?_⟩
  intro h
  have := (h (some (.one (.int 0))) (some (.one (.int 3))) Examples.lessInt
    (by simp [boundGroup, mkAliasGroup, groupPolicies, Node.policies, zeroToThree])).2 _ rfl
  revert this
  decide

/-- Programs that meet the hypotheses of `C25_compiled_partial`. The bounds of a group are compared with
its fallback, those of an alternative with its own value, and those of a group with a counting flag with
whatever is routed. -/
example :
    compiles .default 100 defaultRules (boundRoot [zeroToThree]) = true ∧
    parseArgs .default (boundRoot [zeroToThree]) [] .fresh =
      (.ok (), ⟨[], [⟨73, [.one (.int 1)]⟩]⟩) ∧
    (parseArgs .default (boundRoot [.defaultValue (.one (.int 9)), zeroToThree]) [] .fresh).1 =
      .throw ⟨.maximum_value_exceeded, [⟨.none, b "Alias Group: --level,--depth"⟩]⟩ ∧
    compiles .default 100 defaultRules countRoot = true ∧
    parseArgs .default countRoot [b "-vvv"] .fresh = (.ok (), ⟨[], [⟨84, [.one (.int 3)]⟩]⟩) ∧
    (parseArgs .default countRoot [b "-v", b "-v", b "-v", b "-v"] .fresh).1 =
      .throw ⟨.maximum_value_exceeded, [⟨.none, b "Alias Group: -v,--verbose"⟩]⟩ ∧
    (parseArgs .default countRoot [b "--verbose", b "9"] .fresh).1 =
      .throw ⟨.maximum_value_exceeded, [⟨.none, b "Alias Group: -v,--verbose"⟩]⟩ := by
  decide +kernel

end Props

end ArgRouter
