import Verif.Props.Root

/-!
# C09 and C27 for every mode of a program

`C09_collapsed` and `C27_order` are about a program that is nothing but a mode without a name. Here the
mode is anywhere in the program and is reached by any number of names.
-/

namespace ArgRouter

open Utf8

namespace Spec

/-- How a command line gets from a child of the root to a mode: the child is that mode and has no name, or
these are the names that lead to it. -/
inductive Way (cfg : Config) : Node → List Token → Node → Prop
  | unnamed {m : Node} : m.kind = .mode → m.isAnonymous = true → Way cfg m [] m
  | names {m deep : Node} {names : List Token} : ModePath cfg m names deep → Way cfg m names deep

/-- The arguments after the names get to the mode: the children of the root before `m` decline the
command line, the names lead from `m` to the mode, and what follows is not the name of a mode in it. -/
structure Enters (cfg : Config) (root m : Node) (names rest : List Bytes) (mode : Node) (s s0 : St) :
    Prop where
  first : ∃ before after, root.children = before ++ m :: after ∧
    Declined cfg root ((names ++ rest).map (Token.mk .none)) before s s0
  way : Way cfg m (names.map (Token.mk .none)) mode
  here : NoSubMode cfg mode (rest.map (Token.mk .none))

end Spec

open Spec

namespace Props

theorem way_kind {cfg : Config} {m mode : Node} {names : List Token} (h : Way cfg m names mode) :
    m.kind = .mode ∧ mode.kind = .mode := by
  cases h with
  | unnamed hk _ => exact ⟨hk, hk⟩
  | names h =>
    constructor
    · cases h with
      | here hm _ => exact hm.kind
      | down hm => exact hm.kind
    · induction h with
      | here hm _ => exact hm.kind
      | down _ _ _ _ _ _ ih => exact ih

theorem modeBody_always (cfg : Config) (mode : Node) (parents : List Node) (args : List Token) :
    modeBody cfg mode parents alwaysTrue args =
      (modeLoop cfg mode parents (modeFuel mode args) ⟨mode, [], []⟩
        (List.replicate mode.children.length false) args >>= fun r => pure (some r)) := by
  unfold modeBody
  simp only [alwaysTrue, M.pure_bind, Bool.not_true, Bool.false_eq_true, if_false]

/-- What a command line that enters a mode does is a matter of the loop of that mode. -/
theorem enters_parse {cfg : Config} {root m mode : Node} {names : List Bytes}
    (hway : Way cfg m (names.map (Token.mk .none)) mode) :
    ∃ parents, ∀ (rest : List Bytes) (s s0 : St), Enters cfg root m names rest mode s s0 →
      parseArgs cfg root (names ++ rest) s =
        (modeLoop cfg mode parents (modeFuel mode (rest.map (Token.mk .none))) ⟨mode, [], []⟩
          (List.replicate mode.children.length false) (rest.map (Token.mk .none)) >>= fun r =>
            if !r.2.isEmpty then M.throw ⟨.unhandled_arguments, r.2⟩ else runTarget r.1) s0 := by
  have key : ∃ parents, ∀ rest : List Token, NoSubMode cfg mode rest →
      preParseMode cfg [root] (names.map (Token.mk .none) ++ rest) alwaysTrue m =
        modeBody cfg mode parents alwaysTrue rest := by
    generalize names.map (Token.mk .none) = ns at hway
    cases hway with
    | unnamed hk hanon =>
      refine ⟨[root], fun rest _ => ?_⟩
      obtain ⟨k, u, h, v, p, cs⟩ := m
      rw [List.nil_append]
      simp only [preParseMode]
      rw [if_pos hanon]
    | names hp => exact path_parents hp [root]
  obtain ⟨parents, hpar⟩ := key
  refine ⟨parents, fun rest s s0 h => ?_⟩
  obtain ⟨before, after, hroot, hdec⟩ := h.first
  unfold parseArgs rootParse
  rw [M.bind_apply, hroot, rootLoop_declined hdec, rootLoop, M.bind_apply, offerTo,
    if_pos (by simp [(way_kind hway).1]), List.map_append, hpar _ h.here, modeBody_always]
  simp only [M.bind_apply]
  generalize modeLoop cfg mode parents (modeFuel mode (rest.map (Token.mk .none))) ⟨mode, [], []⟩
      (List.replicate mode.children.length false) (rest.map (Token.mk .none)) s0 = r
  obtain ⟨o, s1⟩ := r
  cases o with
  | ok x =>
    obtain ⟨t, left⟩ := x
    cases left with
    | nil =>
      simp only [M.pure_apply, List.isEmpty_nil, Bool.not_true, Bool.false_eq_true, if_false, M.bind_apply]
      generalize runTarget t s1 = r
      obtain ⟨o, s2⟩ := r
      cases o <;> rfl
    | cons x xs => rfl
  | _ => rfl

/-- The fuel of a mode is enough for more. -/
theorem modeFuel_more {cfg : Config} {mode : Node} (hrep : RepeatableNamed mode) (parents : List Node)
    (args : List Token) (s : St) (k : Nat) :
    modeLoop cfg mode parents (modeFuel mode args + k) ⟨mode, [], []⟩
        (List.replicate mode.children.length false) args s =
      modeLoop cfg mode parents (modeFuel mode args) ⟨mode, [], []⟩
        (List.replicate mode.children.length false) args s := by
  have h := modeFuel_enough mode args
  rw [List.count_replicate_self] at h
  exact (C18_loop_bound cfg mode parents args hrep s _ h).2 k

/-- C09 for every mode of a program: however the mode is reached, two or more short flags collapsed into
one argument mean the same as these flags given separately (in short or in long form), whatever follows
on the command line and whatever complete arguments come before. -/
theorem C09_program (cfg : Config) (root m mode : Node) (names : List Bytes) (gs fs fs' : List Group)
    (before separate after : List Bytes) (one : Bytes) (s s0 : St)
    (hone : Enters cfg root m names (before ++ one :: after) mode s s0)
    (htwo : Enters cfg root m names (before ++ separate ++ after) mode s s0)
    (hmulti : RepeatableNamed mode)
    (hgs : ∀ g ∈ gs, g.Fits cfg mode.children)
    (hcol : Collapsed cfg mode.children ⟨.none, one⟩ fs)
    (hsep : ∀ f ∈ fs', f.Fits cfg mode.children ∧ f.values = [])
    (hflags : fs'.map (fun f => f.child) = fs.map fun f => f.child)
    (hrep : NoRepeats mode.children (gs ++ fs))
    (hbefore : before.map (Token.mk .none) = tokensOf gs)
    (hseparate : separate.map (Token.mk .none) = tokensOf fs')
    (hlen : (before ++ separate ++ after).length + 1 < 2 ^ 63) :
    parseArgs cfg root (names ++ (before ++ one :: after)) s =
      parseArgs cfg root (names ++ (before ++ separate ++ after)) s := by
  obtain ⟨parents, hp⟩ := enters_parse (root := root) hone.way
  rw [hp _ s s0 hone, hp _ s s0 htwo, M.bind_apply, M.bind_apply]
  have h2 := modeFuel_enough mode ((before ++ separate ++ after).map (Token.mk .none))
  rw [List.count_replicate_self] at h2
  rw [← modeFuel_more hmulti parents ((before ++ one :: after).map (Token.mk .none)) s0
      (modeFuel mode ((before ++ separate ++ after).map (Token.mk .none))),
    ← modeFuel_more hmulti parents ((before ++ separate ++ after).map (Token.mk .none)) s0
      (modeFuel mode ((before ++ one :: after).map (Token.mk .none))), Nat.add_comm,
    collapsed_loops parents s0 hgs hcol hsep hflags hrep hbefore hseparate hlen _
      (Nat.le_trans h2 (by omega))]

/-- C09 (repetitions) for every mode of a program: if one of the collapsed flags is a single-use one that
was given before, on the command line or in the same argument, then the parse fails with
`argument_has_already_been_set`. -/
theorem C09_repeated_program (cfg : Config) (root m mode : Node) (names : List Bytes)
    (gs fs1 fs2 : List Group) (f : Group) (c : Node) (before after : List Bytes) (one : Bytes) (s s0 : St)
    (henter : Enters cfg root m names (before ++ one :: after) mode s s0)
    (hmulti : RepeatableNamed mode)
    (hgs : ∀ g ∈ gs, g.Fits cfg mode.children)
    (hcol : Collapsed cfg mode.children ⟨.none, one⟩ (fs1 ++ f :: fs2))
    (hrep : NoRepeats mode.children (gs ++ fs1))
    (hc : mode.children[f.child]? = some c) (hms : c.isMultiStage = false)
    (hagain : ∃ x ∈ gs ++ fs1, x.child = f.child)
    (hbefore : before.map (Token.mk .none) = tokensOf gs)
    (hlen : (before ++ after).length + (fs1 ++ f :: fs2).length + 2 < 2 ^ 63) :
    ∃ t, parseArgs cfg root (names ++ (before ++ one :: after)) s =
      (.throw ⟨.argument_has_already_been_set, [t]⟩, s0) := by
  obtain ⟨parents, hp⟩ := enters_parse (root := root) henter.way
  obtain ⟨t, ht⟩ := collapsed_again parents s0 hgs hcol hrep hc hms hagain hbefore hlen
  refine ⟨t, ?_⟩
  rw [hp _ s s0 henter]
  refine M.bind_throw ?_
  rw [← modeFuel_more hmulti parents _ s0 (gs.length + fs1.length + 1), List.map_append, List.map_cons,
    hbefore]
  exact ht _ (by omega)

/-- C27 (meaning) for every mode of a program: on a command line made of groups the program behaves as
the mode does on the list of uses these groups are. -/
theorem C27_groups_program (cfg : Config) (root m mode : Node) (names args : List Bytes)
    (gs : List Group) (s s0 : St) (henter : Enters cfg root m names args mode s s0)
    (hfit : ∀ g ∈ gs, g.Fits cfg mode.children) (hrep : NoRepeats mode.children gs)
    (hlen : args.length < 2 ^ 63) (hargs : args.map (Token.mk .none) = tokensOf gs) :
    parseArgs cfg root (names ++ args) s =
      parseMode mode (gs.flatMap (Group.use mode.children)) s0 := by
  obtain ⟨parents, hp⟩ := enters_parse (root := root) henter.way
  have hlen' : (tokensOf gs).length < 2 ^ 63 := by rw [← hargs]; simpa using hlen
  rw [hp _ s s0 henter, hargs, M.bind_apply]
  have hfuel : ∃ f, modeFuel mode (tokensOf gs) = f + gs.length := by
    have := groups_bytes gs fun g hg => by
      obtain ⟨_, _, _, _, hne, _⟩ := hfit g hg; exact hne
    have h2 := modeFuel_enough mode (tokensOf gs)
    exact ⟨modeFuel mode (tokensOf gs) - gs.length, by omega⟩
  obtain ⟨f, hf⟩ := hfuel
  have := modeLoop_groups cfg mode parents gs ⟨mode, [], []⟩
    (List.replicate mode.children.length false) [] f s0 (by simp) hfit hrep (by
      intro x hx d hd hms
      obtain ⟨hi, -⟩ := List.getElem?_eq_some_iff.1 hd
      simp [hi]) (by simpa using hlen')
  rw [List.append_nil] at this
  rw [hf, this]
  have hk := (way_kind henter.way).2
  cases f <;> simp [modeLoop, runTarget, hk]

/-- Uses of a child that is not repeatable, or takes no values, are the same in any order. -/
theorem usesOf_any_order {cfg : Config} {children : List Node} (hdis : Distinct children)
    (hself : ∀ c ∈ children, Contains c c.hash) {gs gs' : List Group}
    (hfit : ∀ g ∈ gs, g.Fits cfg children) (hrep : NoRepeats children gs)
    (hcount : ∀ c ∈ children, c.isMultiStage = true → ∀ k, FixedCount cfg c k → k = 0)
    (hperm : gs.Perm gs') (i : Nat) :
    usesOf children (gs.flatMap (Group.use children)) i =
      usesOf children (gs'.flatMap (Group.use children)) i := by
  rw [usesOf_groups hdis hself, usesOf_groups hdis hself]
  have hp := hperm.filter fun g => g.child == i
  have hfit' : ∀ g ∈ gs.filter fun g => g.child == i, g.child = i ∧ g.Fits cfg children := by
    intro g hg
    obtain ⟨h1, h2⟩ := List.mem_filter.1 hg
    exact ⟨by simpa using h2, hfit g h1⟩
  have hrep' : NoRepeats children (gs.filter fun g => g.child == i) := hrep.filter _
  generalize (gs.filter fun g => g.child == i) = a at hp hfit' hrep'
  generalize (gs'.filter fun g => g.child == i) = b at hp
  cases hc : children[i]? with
  | none =>
    cases a with
    | nil => rw [hp.nil_eq]
    | cons g a =>
      obtain ⟨h1, c, h2, -⟩ := hfit' g List.mem_cons_self
      rw [h1, hc] at h2
      cases h2
  | some c =>
    cases hm : c.isMultiStage with
    | false =>
      match a, hrep' with
      | [], _ => rw [hp.nil_eq]
      | [g], _ => rw [List.perm_singleton.1 hp.symm]
      | g :: g2 :: a, hrep' =>
        exfalso
        have h1 := (hfit' g (by simp)).1
        have h2 := (hfit' g2 (by simp)).1
        have := (List.pairwise_cons.1 hrep').1 g2 (by simp) (h1.trans h2.symm) c (by rw [h1, hc])
        rw [hm] at this
        cases this
    | true =>
      have key : ∀ l : List Group, (∀ g ∈ l, g.child = i ∧ g.Fits cfg children) →
          l.flatMap (Group.use children) = List.replicate l.length ⟨c, []⟩ := by
        intro l hl
        induction l with
        | nil => rfl
        | cons g l ih =>
          rw [List.flatMap_cons, ih fun x hx => hl x (List.mem_cons_of_mem _ hx)]
          obtain ⟨h1, d, h2, h3, -⟩ := hl g List.mem_cons_self
          rw [h1, hc] at h2
          cases h2
          have h4 := hcount c (List.mem_of_getElem? hc) hm _ h3
          have h5 : g.values = [] := List.eq_nil_of_length_eq_zero h4
          simp [Group.use, h1, hc, h5, List.replicate_succ]
      rw [key a hfit', key b fun g hg => hfit' g (hp.mem_iff.2 hg), hp.length_eq]

/-- C27 for every mode of a program whose children are different arguments, of which those that are
repeatable take no values (counting flags): the same groups in any other order give the router the same
arguments. -/
theorem C27_program (cfg : Config) (root m mode : Node) (names : List Bytes) (gs gs' : List Group)
    (args args' : List Bytes) (s s0 s1 : St)
    (hone : Enters cfg root m names args mode s s0) (htwo : Enters cfg root m names args' mode s s0)
    (hdis : Distinct mode.children) (hself : ∀ c ∈ mode.children, Contains c c.hash)
    (hcount : ∀ c ∈ mode.children, c.isMultiStage = true → ∀ k, FixedCount cfg c k → k = 0)
    (hfit : ∀ g ∈ gs, g.Fits cfg mode.children) (hrep : NoRepeats mode.children gs)
    (hlen : args.length < 2 ^ 63) (hargs : args.map (Token.mk .none) = tokensOf gs)
    (hargs' : args'.map (Token.mk .none) = tokensOf gs')
    (hperm : gs.Perm gs')
    (h : parseArgs cfg root (names ++ args) s = (.ok (), s1)) :
    ∃ s2, parseArgs cfg root (names ++ args') s = (.ok (), s2) ∧
      ∀ values, RoutedWith mode s1 values → RoutedWith mode s2 values := by
  rw [C27_groups_program cfg root m mode names args gs s s0 hone hfit hrep hlen hargs] at h
  obtain ⟨s2, h1, h2⟩ := C20_order_irrelevant mode _ _ s0 s1 (uses_perm hperm)
    (usesOf_any_order hdis hself hfit hrep hcount hperm) h
  refine ⟨s2, ?_, h2⟩
  have hl : args'.length = args.length := by
    have e1 := congrArg List.length hargs
    have e2 := congrArg List.length hargs'
    simp only [List.length_map] at e1 e2
    rw [e1, e2]
    exact (hperm.flatMap_right Group.tokens).length_eq.symm
  rw [C27_groups_program cfg root m mode names args' gs' s s0 htwo
    (fun g hg => hfit g (hperm.mem_iff.2 hg)) ?_ (by omega) hargs']
  · exact h1
  · refine (List.Perm.pairwise_iff ?_ hperm).1 hrep
    intro x y hxy he c hc
    exact hxy he.symm c (by rw [← he]; exact hc)

/-- A child without a group is not given. -/
theorem notGiven_groups {children : List Node} (hdis : Distinct children)
    (hself : ∀ c ∈ children, Contains c c.hash) {gs : List Group} {i : Nat}
    (hnot : ∀ g ∈ gs, g.child ≠ i) : NotGiven children (gs.flatMap (Group.use children)) i := by
  have h := usesOf_groups hdis hself gs i
  rw [List.filter_eq_nil_iff.2 (by simpa using hnot)] at h
  intro l hl hf
  have : l ∈ usesOf children (gs.flatMap (Group.use children)) i := by
    unfold usesOf
    simp [List.mem_filter, hl, hf]
  rw [h] at this
  cases this

/-- Groups are uses of the children. -/
theorem use_child {children : List Node} {gs : List Group} {l : Leaf}
    (hl : l ∈ gs.flatMap (Group.use children)) : l.node ∈ children := by
  obtain ⟨g, -, h⟩ := List.mem_flatMap.1 hl
  unfold Group.use at h
  cases hc : children[g.child]? with
  | none => simp [hc] at h
  | some c =>
    simp only [hc, Option.map_some, Option.toList_some, List.mem_singleton] at h
    subst h
    exact List.mem_of_getElem? hc

/-- C21 for every mode of a program: a command line made of groups, none of which is for a child that is
required, does not succeed. -/
theorem C21_program (cfg : Config) (root m mode : Node) (names args : List Bytes) (gs : List Group)
    (s s0 s1 : St) (i : Nat) (c : Node) (henter : Enters cfg root m names args mode s s0)
    (hdis : Distinct mode.children) (hself : ∀ c ∈ mode.children, Contains c c.hash)
    (hhelp : ∀ c ∈ mode.children, c.kind ≠ .help)
    (hfit : ∀ g ∈ gs, g.Fits cfg mode.children) (hrep : NoRepeats mode.children gs)
    (hlen : args.length < 2 ^ 63) (hargs : args.map (Token.mk .none) = tokensOf gs)
    (hc : mode.children[i]? = some c) (hn : c.hasNoResult = false) (hreq : MustBeGiven c)
    (hnot : ∀ g ∈ gs, g.child ≠ i) :
    parseArgs cfg root (names ++ args) s ≠ (.ok (), s1) := by
  rw [C27_groups_program cfg root m mode names args gs s s0 henter hfit hrep hlen hargs]
  exact C21_required mode _ s0 s1 i c hc hn hreq (notGiven_groups hdis hself hnot)
    fun l hl => hhelp _ (use_child hl)

/-- C22 for every mode of a program: on a command line made of groups, the router receives for a child
that none of them is for its default if it has one, else a default-constructed value. -/
theorem C22_program (cfg : Config) (root m mode : Node) (names args : List Bytes) (gs : List Group)
    (s s0 s1 : St) (i : Nat) (c : Node) (values : List Value)
    (henter : Enters cfg root m names args mode s s0)
    (hdis : Distinct mode.children) (hself : ∀ c ∈ mode.children, Contains c c.hash)
    (hhelp : ∀ c ∈ mode.children, c.kind ≠ .help)
    (hfit : ∀ g ∈ gs, g.Fits cfg mode.children) (hrep : NoRepeats mode.children gs)
    (hlen : args.length < 2 ^ 63) (hargs : args.map (Token.mk .none) = tokensOf gs)
    (hc : mode.children[i]? = some c) (hn : c.hasNoResult = false)
    (hnot : ∀ g ∈ gs, g.child ≠ i)
    (h : parseArgs cfg root (names ++ args) s = (.ok (), s1)) (hvalues : RoutedWith mode s1 values) :
    (∀ d, defaults c = [d] → values[position mode.children i]? = some d) ∧
    (defaults c = [] → values[position mode.children i]? = some c.vt.zero) := by
  rw [C27_groups_program cfg root m mode names args gs s s0 henter hfit hrep hlen hargs] at h
  exact C22_fallback mode _ s0 s1 i c values (fun l hl => hhelp _ (use_child hl)) h hvalues hc hn
    (notGiven_groups hdis hself hnot)

/-- C24 for every mode of a program: on a command line made of groups, the value routed for a counting
flag that is given is the number of groups for it, modulo the range of its type. -/
theorem C24_program (cfg : Config) (root m mode : Node) (names args : List Bytes) (gs : List Group)
    (s s0 s1 : St) (i : Nat) (c : Node) (width : Nat) (values : List Value)
    (henter : Enters cfg root m names args mode s s0)
    (hdis : Distinct mode.children) (hself : ∀ c ∈ mode.children, Contains c c.hash)
    (hhelp : ∀ c ∈ mode.children, c.kind ≠ .help)
    (hfit : ∀ g ∈ gs, g.Fits cfg mode.children) (hrep : NoRepeats mode.children gs)
    (hlen : args.length < 2 ^ 63) (hargs : args.map (Token.mk .none) = tokensOf gs)
    (hc : mode.children[i]? = some c) (hn : c.hasNoResult = false) (hcount : IsCounter width c)
    (hused : ∃ g ∈ gs, g.child = i)
    (h : parseArgs cfg root (names ++ args) s = (.ok (), s1)) (hvalues : RoutedWith mode s1 values) :
    values[position mode.children i]? =
      some (.one (.int (((gs.countP fun g => g.child == i : Nat) : Int) % 2 ^ width))) := by
  rw [C27_groups_program cfg root m mode names args gs s s0 henter hfit hrep hlen hargs] at h
  have hl : (usesOf mode.children (gs.flatMap (Group.use mode.children)) i).length =
      gs.countP fun g => g.child == i := by
    rw [usesOf_groups hdis hself, List.countP_eq_length_filter]
    have : ∀ g ∈ gs.filter fun g => g.child == i, g.child = i := by
      intro g hg
      simpa using (List.mem_filter.1 hg).2
    generalize (gs.filter fun g => g.child == i) = a at this
    induction a with
    | nil => rfl
    | cons g a ih =>
      rw [List.flatMap_cons, List.length_append, ih fun x hx => this x (List.mem_cons_of_mem _ hx)]
      simp [Group.use, this g List.mem_cons_self, hc, Nat.add_comm]
  rw [← hl]
  refine C24_count_modulo mode _ s0 s1 i c width values (fun l hl => hhelp _ (use_child hl)) h hvalues
    hc hn hcount ?_
  rw [hl]
  obtain ⟨g, hg, he⟩ := hused
  exact List.countP_pos_iff.2 ⟨g, hg, by simp [he]⟩

/-! ## Concrete cases -/

def benchMode : Node :=
  mkMode 83 83 [.router, .noneName (b "bench")] [toolFlag, toolVerbose, toolNum, toolOut]
def runMode : Node := mkMode 82 82 [.router, .noneName (b "run")] [dropMode, toolFlag, benchMode]
def shopRoot : Node := mkRoot 81 81 [listMode, runMode]

theorem bench_way : Way .default runMode ([b "run", b "bench"].map (Token.mk .none)) benchMode := by
  refine .names (.down ⟨rfl, rfl, .refl _⟩ ((labelTest_iff _ _ _).1 (by decide +kernel))
    (before := [dropMode, toolFlag]) (after := []) rfl rfl ?_
    (.here ⟨rfl, rfl, .refl _⟩ ((labelTest_iff _ _ _).1 (by decide +kernel))))
  intro d hd hk
  simp only [List.mem_cons, List.not_mem_nil, or_false] at hd
  rcases hd with rfl | rfl
  · exact ⟨drop_named, fun h => absurd ((labelTest_iff _ _ _).2 h) (by decide +kernel)⟩
  · cases hk

/-- A mode in a mode, below the second child of the root, is entered whatever follows its names. -/
theorem bench_enters (rest : List Bytes) (s : St) :
    Enters .default shopRoot runMode [b "run", b "bench"] rest benchMode s s := by
  refine ⟨⟨[listMode], [], rfl, .cons ?_ (.nil _)⟩, bench_way, ?_⟩
  · show preParseMode _ _ _ _ _ _ = _
    rw [mode_declines list_named _ _ _ (by
      intro t ht
      cases ht
      exact fun h => absurd ((labelTest_iff _ _ _).2 h) (by decide +kernel))]
    rfl
  · intro t _ d hd hk
    replace hd : d ∈ [toolFlag, toolVerbose, toolNum, toolOut] := hd
    simp only [List.mem_cons, List.not_mem_nil, or_false] at hd
    rcases hd with rfl | rfl | rfl | rfl <;> cases hk

theorem bench_distinct : Distinct benchMode.children := by
  intro i j c d hc hd ⟨n, hn, h1, h2, h3⟩
  match i, j, hc, hd with
  | 0, 0, _, _ | 1, 1, _, _ | 2, 2, _, _ | 3, 3, _, _ => rfl
  | 0, 1, hc, hd | 0, 2, hc, hd | 0, 3, hc, hd | 1, 0, hc, hd | 1, 2, hc, hd | 1, 3, hc, hd
  | 2, 0, hc, hd | 2, 1, hc, hd | 2, 3, hc, hd | 3, 0, hc, hd | 3, 1, hc, hd | 3, 2, hc, hd =>
    cases hc; cases hd
    exact absurd (List.mem_singleton.1 hn ▸ h3) (by decide)

theorem bench_child {p : Node → Prop} (h0 : p toolFlag) (h1 : p toolVerbose) (h2 : p toolNum)
    (h3 : p toolOut) : ∀ c ∈ benchMode.children, p c := by
  intro c hc
  simp only [benchMode, mkMode, Node.children, List.mem_cons, List.not_mem_nil, or_false] at hc
  rcases hc with rfl | rfl | rfl | rfl <;> assumption

theorem bench_self : ∀ c ∈ benchMode.children, Contains c c.hash := by
  apply bench_child <;> exact ⟨_, List.mem_cons_self, by decide, by decide, rfl⟩

theorem bench_named : RepeatableNamed benchMode := by
  intro m hm hms
  replace hm : m ∈ [benchMode, toolFlag, toolVerbose, toolNum, toolOut] := hm
  simp only [List.mem_cons, List.not_mem_nil, or_false] at hm
  rcases hm with rfl | rfl | rfl | rfl | rfl <;> first | decide | cases hms

theorem vav_collapsed : Collapsed .default benchMode.children ⟨.none, b "-vav"⟩ [sV, sA, sV] := by
  refine ⟨⟨b "vav", .inr ⟨rfl, rfl, by decide⟩, by decide +kernel⟩, by decide, ?_, ?_, ?_⟩
  · intro f hf
    simp only [List.mem_cons, List.not_mem_nil, or_false] at hf
    rcases hf with rfl | rfl | rfl
    · exact ⟨sV_fits, rfl, rfl⟩
    · exact ⟨sA_fits, rfl, rfl⟩
    · exact ⟨sV_fits, rfl, rfl⟩
  · intro f hf c hc
    cases hf
    cases hc
    exact .swap _ _ _
  · intro f hf j d hj hd
    cases hf
    match j, hj with
    | 0, _ =>
      cases hd
      exact notFor_of_test (by decide +kernel)

/-- C09: collapsed flags of the inner mode, with an argument before and arbitrary text after. -/
example (after : List Bytes) (hlen : after.length < 1000) (s : St) :
    parseArgs .default shopRoot (b "run" :: b "bench" :: b "--num" :: b "5" :: b "-vav" :: after) s =
      parseArgs .default shopRoot
        (b "run" :: b "bench" :: b "--num" :: b "5" :: b "-v" :: b "-a" :: b "--verbose" :: after) s := by
  refine C09_program .default shopRoot runMode benchMode [b "run", b "bench"] [gNum] [sV, sA, sV]
    [gV, gAll, gVerbose] [b "--num", b "5"] [b "-v", b "-a", b "--verbose"] after (b "-vav") s s
    (bench_enters _ s) (bench_enters _ s) bench_named ?_ vav_collapsed ?_ rfl
    (noRepeats_of (by decide +kernel)) rfl rfl (by simp; omega)
  · intro g hg
    simp only [List.mem_cons, List.not_mem_nil, or_false] at hg
    subst hg
    exact gNum_fits
  · intro f hf
    simp only [List.mem_cons, List.not_mem_nil, or_false] at hf
    rcases hf with rfl | rfl | rfl
    · exact ⟨gV_fits, rfl⟩
    · exact ⟨gAll_fits, rfl⟩
    · exact ⟨gVerbose_fits, rfl⟩

/-- C09: the flag `a` in the collapsed argument was already given. -/
example (after : List Bytes) (hlen : after.length < 1000) (s : St) :
    ∃ t, parseArgs .default shopRoot (b "run" :: b "bench" :: b "-a" :: b "-vav" :: after) s =
      (.throw ⟨.argument_has_already_been_set, [t]⟩, s) := by
  refine C09_repeated_program .default shopRoot runMode benchMode [b "run", b "bench"] [gAll] [sV] [sV]
    sA toolFlag [b "-a"] after (b "-vav") s s (bench_enters _ s) bench_named ?_ vav_collapsed
    (noRepeats_of (by decide +kernel)) rfl rfl ⟨gAll, by simp, rfl⟩ rfl (by simp; omega)
  intro g hg
  simp only [List.mem_cons, List.not_mem_nil, or_false] at hg
  subst hg
  exact gAll_fits

/-- C27: the two forms of the repeatable flag change places, and the other arguments move. -/
example : ∃ s2, parseArgs .default shopRoot
      [b "run", b "bench", b "--out", b "7", b "--verbose", b "--num", b "5", b "-a", b "-v"] .fresh =
        (.ok (), s2) ∧
      ∀ values,
        RoutedWith benchMode ⟨[], [⟨83, [.one (.bool true), .one (.int 2), .one (.int 5),
          .one (.int 7)]⟩]⟩ values → RoutedWith benchMode s2 values := by
  have hp1 : List.Perm [gAll, gV, gNum, gVerbose, gOut] [gOut, gVerbose, gNum, gAll, gV] := by
    refine List.Perm.trans (List.perm_append_comm (l₁ := [gAll, gV, gNum, gVerbose])
      (l₂ := [gOut])) (.cons _ ?_)
    refine List.Perm.trans (List.perm_append_comm (l₁ := [gAll, gV, gNum]) (l₂ := [gVerbose])) ?_
    exact .cons _ (List.perm_append_comm (l₁ := [gAll, gV]) (l₂ := [gNum]))
  refine C27_program .default shopRoot runMode benchMode [b "run", b "bench"]
    [gAll, gV, gNum, gVerbose, gOut] [gOut, gVerbose, gNum, gAll, gV]
    [b "-a", b "-v", b "--num", b "5", b "--verbose", b "--out", b "7"]
    [b "--out", b "7", b "--verbose", b "--num", b "5", b "-a", b "-v"] .fresh .fresh _
    (bench_enters _ _) (bench_enters _ _) bench_distinct bench_self ?_ ?_ (noRepeats_of ?_) (by decide) rfl rfl hp1
    (by decide +kernel)
  · intro c hc hms k hk
    simp only [benchMode, mkMode, Node.children, List.mem_cons, List.not_mem_nil, or_false] at hc
    rcases hc with rfl | rfl | rfl | rfl
    · cases hms
    · rcases hk.matching with h | ⟨h, -⟩
      · exact absurd (show (2 : Nat) = 1 from h.length_eq) (by decide)
      · exact h
    · cases hms
    · cases hms
  · intro g hg
    simp only [List.mem_cons, List.not_mem_nil, or_false] at hg
    rcases hg with rfl | rfl | rfl | rfl | rfl
    · exact gAll_fits
    · exact gV_fits
    · exact gNum_fits
    · exact gVerbose_fits
    · exact gOut_fits
  · decide +kernel

/-- C21: the mode needs `--num`. -/
example (s s1 : St) : parseArgs .default shopRoot [b "run", b "bench", b "-v", b "--out", b "7"] s ≠
    (.ok (), s1) := by
  refine C21_program .default shopRoot runMode benchMode [b "run", b "bench"]
    [b "-v", b "--out", b "7"] [gV, gOut] s s s1 2 toolNum (bench_enters _ _) bench_distinct bench_self
    (bench_child (by decide) (by decide) (by decide) (by decide)) ?_ (noRepeats_of (by decide +kernel))
    (by decide) rfl rfl rfl (.inl (by simp [toolNum, mkArg, Node.policies])) (by decide)
  intro g hg
  simp only [List.mem_cons, List.not_mem_nil, or_false] at hg
  rcases hg with rfl | rfl
  · exact gV_fits
  · exact gOut_fits

/-- C22 and C24: `--out` has its default, and `-v` is counted in both forms. -/
example (s s1 : St) (values : List Value)
    (h : parseArgs .default shopRoot
      [b "run", b "bench", b "-v", b "--num", b "5", b "--verbose"] s = (.ok (), s1))
    (hv : RoutedWith benchMode s1 values) :
    values[3]? = some (.one (.int 9)) ∧ values[1]? = some (.one (.int 2)) := by
  have hfit : ∀ g ∈ [gV, gNum, gVerbose], g.Fits .default benchMode.children := by
    intro g hg
    simp only [List.mem_cons, List.not_mem_nil, or_false] at hg
    rcases hg with rfl | rfl | rfl
    · exact gV_fits
    · exact gNum_fits
    · exact gVerbose_fits
  constructor
  · exact (C22_program .default shopRoot runMode benchMode [b "run", b "bench"]
      [b "-v", b "--num", b "5", b "--verbose"] [gV, gNum, gVerbose] s s s1 3 toolOut values
      (bench_enters _ _) bench_distinct bench_self
      (bench_child (by decide) (by decide) (by decide) (by decide)) hfit
      (noRepeats_of (by decide +kernel)) (by decide) rfl rfl rfl (by decide) h hv).1 _ rfl
  · exact C24_program .default shopRoot runMode benchMode [b "run", b "bench"]
      [b "-v", b "--num", b "5", b "--verbose"] [gV, gNum, gVerbose] s s s1 1 toolVerbose 64 values
      (bench_enters _ _) bench_distinct bench_self
      (bench_child (by decide) (by decide) (by decide) (by decide)) hfit
      (noRepeats_of (by decide +kernel)) (by decide) rfl rfl rfl
      (isCounter_mk ..) ⟨gV, by simp, rfl⟩ h hv

example : parseArgs .default shopRoot [b "run", b "bench", b "-v", b "--num", b "5", b "--verbose"]
    .fresh = (.ok (), ⟨[], [⟨83, [.one (.bool false), .one (.int 2), .one (.int 5), .one (.int 9)]⟩]⟩) ∧
    parseArgs .default shopRoot [b "run", b "bench", b "-v", b "--out", b "7"] .fresh =
      (.throw ⟨.missing_required_argument, [⟨.long, b "num"⟩]⟩, .fresh) := by
  decide +kernel

/-- The parse of the first of them. -/
example : parseArgs .default shopRoot [b "run", b "bench", b "-a", b "-v", b "--num", b "5",
    b "--verbose", b "--out", b "7"] .fresh =
    (.ok (), ⟨[], [⟨83, [.one (.bool true), .one (.int 2), .one (.int 5), .one (.int 7)]⟩]⟩) := by
  decide +kernel

end Props

end ArgRouter
