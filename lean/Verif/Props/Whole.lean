import Verif.Lemmas.Whole
import Verif.Props.Reading

/-!
# C88: what a program does with a command line

C76 is about one mode. Here: a program with any number of arguments and modes, nested modes included.
The reading of a whole program says which child of the root responds to a command line, and what
comes of it; the library does just that with every command line.
-/

namespace ArgRouter

open Utf8

namespace Spec

/-- An argument directly below the root. -/
structure TopArgument (c : Node) : Prop where
  named : c.isNamed = true
  /-- not an alias, and not dependent -/
  alone : ∀ refs, Policy.alias refs ∉ c.policies ∧ Policy.dependent refs ∉ c.policies
  declared : Off c ∨ ∃ sh, Declared c sh

/-- A mode that is switched off at runtime. -/
structure OffMode (m : Node) : Prop where
  kind : m.kind = .mode
  named : m.isAnonymous = false
  disabled : Disabled m
  plain : (∀ s, Policy.valueSeparator s ∉ m.policies) ∧ Policy.shortFormExpander ∉ m.policies

/-- A mode with a name, in which all modes have names. -/
structure ModeTree (m : Node) : Prop where
  kind : m.kind = .mode
  modes : ∀ d ∈ m.nodes, d.kind = .mode → NamedMode d ∧ Ordinary d ∧ RepeatableNamed d

/-- A program made of the arguments and modes specified here. -/
def OrdinaryProgram (root : Node) : Prop :=
  ∀ c ∈ root.children, TopArgument c ∨ OffMode c ∨ ModeTree c ∨
    (c.kind = .mode ∧ c.isAnonymous = true ∧ Ordinary c ∧ RepeatableNamed c)

/-- The answer of a child of the root to a command line. -/
inductive Answer where
  /-- it is an argument, and used with these values -/
  | uses (l : Leaf)
  /-- it is or contains this mode, which makes this of its arguments, after which these alternatives
  are chosen -/
  | reads (mode : Node) (r : Result) (chosen : Choices)
  /-- it responds, but cannot accept this -/
  | fails (e : Exc)

/-- The child `c` of the root responds to the command line, where the alternatives `chosen` are
remembered from before. -/
inductive Responds (cfg : Config) (root : Node) (chosen : Choices) (c : Node) : List Token → Answer → Prop
  /-- an argument takes the whole command line -/
  | argument {t : Token} {rest : List Token} {l : Leaf} :
      Claims cfg root [] c t rest (.takes [l] []) → Responds cfg root chosen c (t :: rest) (.uses l)
  /-- an argument takes a part of it only -/
  | leftover {t : Token} {rest left : List Token} {uses : List Leaf} :
      Claims cfg root [] c t rest (.takes uses left) → left ≠ [] →
      Responds cfg root chosen c (t :: rest) (.fails ⟨.unhandled_arguments, left⟩)
  /-- an argument cannot be used like this -/
  | refused {t : Token} {rest : List Token} {e : Exc} :
      Claims cfg root [] c t rest (.refuses e) → Responds cfg root chosen c (t :: rest) (.fails e)
  /-- the command line begins with the name of the mode, and perhaps of modes in it -/
  | path {names rest : List Token} {mode : Node} {r : Result} {chosen' : Choices} :
      ModePath cfg c names mode → NoSubMode cfg mode rest → Reading cfg mode chosen [] [] rest r chosen' →
      Responds cfg root chosen c (names ++ rest) (.reads mode r chosen')
  /-- a mode without a name gets every command line -/
  | anonymous {args : List Token} {r : Result} {chosen' : Choices} :
      c.kind = .mode → c.isAnonymous = true → Reading cfg c chosen [] [] args r chosen' →
      Responds cfg root chosen c args (.reads c r chosen')

/-- What the program makes of a command line. -/
inductive Verdict where
  | answer (a : Answer)
  | noArguments
  | unknown (t : Token)

/-- The reading of a command line by a program: the first child that responds has it. -/
inductive ProgramReading (cfg : Config) (root : Node) (chosen : Choices) (args : List Token) : Verdict → Prop
  | child {before after : List Node} {c : Node} {a : Answer} :
      root.children = before ++ c :: after →
      (∀ d ∈ before, ∀ a, ¬ Responds cfg root chosen d args a) → Responds cfg root chosen c args a →
      ProgramReading cfg root chosen args (.answer a)
  /-- nobody responds, and there is no first argument or it is the empty string (see C29) -/
  | nothing : (∀ d ∈ root.children, ∀ a, ¬ Responds cfg root chosen d args a) →
      (∀ t ∈ args.head?, t.name = []) → ProgramReading cfg root chosen args .noArguments
  /-- nobody responds -/
  | unknown {t : Token} : (∀ d ∈ root.children, ∀ a, ¬ Responds cfg root chosen d args a) →
      args.head? = some t → t.name ≠ [] → ProgramReading cfg root chosen args (.unknown t)

end Spec

open Spec

namespace Props

/-- What the program does with an answer. -/
def answerOutcome (cfg : Config) : Answer → M Unit
  | .uses l => parseLeaf l >>= fun _ => pure ()
  | .reads mode r chosen => fun s => outcomeOf cfg mode r { s with sel := chosen }
  | .fails e => M.throw e

/-- What the program does with the verdict. -/
def verdictOutcome (cfg : Config) (root : Node) : Verdict → M Unit
  | .answer a => answerOutcome cfg a
  | .noArguments => M.throw ⟨.no_arguments_passed, []⟩
  | .unknown t => M.lift (unknownArgument cfg root t)

/-! ## Arguments -/

theorem topArgument_alone {c : Node} (h : TopArgument c) :
    ∀ p ∈ c.policies, p.looksAround = false := by
  intro p hp
  cases p with
  | alias r => exact absurd hp (h.alone r).1
  | dependent r => exact absurd hp (h.alone r).2
  | _ => rfl

theorem topArgument_shape {c : Node} (h : TopArgument c) {sh : Shape} (hd : Declared c sh) :
    sh.aliasOf = none ∧ sh.needs = none := by
  have hin : ∀ p ∈ sh.policies, p ∈ c.policies := fun p hp =>
    (List.mem_filter.1 (hd.policies.mem_iff.2 hp)).1
  constructor
  · cases ha : sh.aliasOf with
    | none => rfl
    | some r => exact absurd (hin (.alias r) (by simp [Shape.policies, ha])) (h.alone r).1
  · cases ha : sh.needs with
    | none => rfl
    | some r => exact absurd (hin (.dependent r) (by simp [Shape.policies, ha])) (h.alone r).2

theorem topArgument_leaf {c : Node} (h : TopArgument c) :
    c.kind ≠ .mode ∧ c.kind ≠ .aliasGroup ∧ c.kind ≠ .oneOf := by
  rcases h.declared with h | ⟨sh, h⟩
  · exact h.leaf
  · exact h.leaf

theorem offerTo_leaf {cfg : Config} {root c : Node} {args : List Token}
    (h : c.kind ≠ .mode ∧ c.kind ≠ .aliasGroup ∧ c.kind ≠ .oneOf) :
    offerTo cfg root args c = leafPreParse cfg c [root] args none alwaysTrue := by
  unfold offerTo
  rw [if_neg (by simp [h.1]), preParse_leaf _ _ _ _ _ _ (by simp [Node.isGroup, h])]

/-- A mode to put an argument in. -/
def holder : Node := mkMode 0 0 [.router] []

theorem runPhases_subs {cfg : Config} {n : Node} {ps : List Node} {pr : Option Target}
    (l : List Policy) (h : ∀ p ∈ l, p.looksAround = false) {m m' : PreResult} {a a' : Adapter}
    {subs subs' : List Leaf}
    (hr : runPhases cfg n ps pr l m a subs = .ok (m', a', subs')) : subs' = subs := by
  induction l generalizing m a subs with
  | nil => cases hr; rfl
  | cons p l ih =>
    have ih := @ih fun q hq => h q (List.mem_cons_of_mem _ hq)
    unfold runPhases at hr
    split at hr
    · split at hr
      · cases hr; rfl
      · cases hr; rfl
      · simp only [Out.bind_eq_ok] at hr
        obtain ⟨⟨m1, a1, s1⟩, h1, h2⟩ := hr
        rw [ih h2]
        have hp := h p List.mem_cons_self
        cases p <;> simp only [Policy.phase, Out.bind_eq_ok, Out.pure_eq, Out.ok.injEq,
          Prod.mk.injEq] at h1 <;> first
          | (obtain ⟨-, -, h⟩ := h1; exact h.symm)
          | (obtain ⟨x, -, -, -, h⟩ := h1; exact h.symm)
          | simp [Policy.looksAround] at hp
    · exact ih hr

/-- The target an argument of the root makes. -/
theorem leaf_target {cfg : Config} {c : Node} (h : ∀ p ∈ c.policies, p.looksAround = false)
    {ps : List Node} {args left : List Token} {pr : Option Target} {tgt : Target}
    (hr : leafPreParse cfg c ps args pr alwaysTrue = pure (some (tgt, left))) :
    tgt.node = c ∧ tgt.subs = [] := by
  have h1 := congrFun hr .fresh
  unfold leafPreParse at h1
  cases hp : runPhases cfg c ps pr (sortPolicies c.policies) (.ok .validNode) ⟨[], args⟩ [] with
  | ok r =>
    obtain ⟨m, a, subs⟩ := r
    have hs := runPhases_subs _ (fun p hp => h p (mem_sortPolicies.1 hp)) hp
    subst hs
    rw [hp, M.lift_ok_bind] at h1
    simp only at h1
    cases hcl : checkLabel cfg c m a with
    | none => rw [hcl] at h1; cases h1
    | some a' =>
      simp only [hcl, alwaysTrue, M.pure_bind, Bool.not_true, Bool.false_eq_true, if_false] at h1
      cases m with
      | error e => cases h1
      | ok x =>
        simp only [M.pure_apply, Prod.mk.injEq, Out.ok.injEq, Option.some.injEq] at h1
        obtain ⟨⟨rfl, -⟩, -⟩ := h1
        exact ⟨rfl, rfl⟩
  | throw e => rw [hp] at h1; cases h1
  | foreign => rw [hp] at h1; cases h1
  | ub => rw [hp] at h1; cases h1
  | diverge => rw [hp] at h1; cases h1

theorem argument_declines {cfg : Config} {root c : Node} {chosen : Choices} (h : TopArgument c) {args : List Token}
    (hw : weight args < 2 ^ 63)
    (hread : Policy.shortFormExpander ∈ c.policies → ∀ t ∈ args, Readable cfg t)
    (hno : ∀ a, ¬ Responds cfg root chosen c args a) : offerTo cfg root args c = pure none := by
  rw [offerTo_leaf (topArgument_leaf h)]
  have halone := topArgument_alone h
  cases args with
  | nil => exact leaf_empty halone h.named _
  | cons t rest =>
    rcases h.declared with hoff | ⟨sh, hd⟩
    · exact off_none hoff fun hx => hread hx t (by simp)
    · obtain ⟨ha, hn⟩ := topArgument_shape h hd
      rw [leafPreParse_alone halone (ps' := [holder]) (pr' := some ⟨holder, [], []⟩)]
      refine no_claim hd rfl hw (fun he => hread ?_ t (by simp)) fun cl hcl => ?_
      · exact (List.mem_filter.1 (hd.policies.mem_iff.2 (by simp [Shape.policies, he]))).1
      · have hcl : Claims cfg root [] c t rest cl := ⟨sh, hd, claims_alone ha hn hcl⟩
        cases cl with
        | refuses e => exact hno _ (.refused hcl)
        | takes uses left =>
          by_cases hl : left = []
          · subst hl
            obtain ⟨sh', hd', hcl'⟩ := hcl
            obtain ⟨ha', hn'⟩ := topArgument_shape h hd'
            cases hcl' with
            | @takes follows vs _ hl hv hdd =>
              have hcl'' := ClaimsAs.takes hl hv hdd
              simp only [Shape.uses, ha'] at hcl''
              exact hno _ (.argument ⟨sh', hd', hcl''⟩)
          · exact hno _ (.leftover hcl hl)

theorem argument_claims {cfg : Config} {root c : Node} (h : TopArgument c) {t : Token}
    {rest : List Token} (hw : weight (t :: rest) < 2 ^ 63) {cl : Claim}
    (hcl : Claims cfg root [] c t rest cl) :
    match cl with
    | .refuses e => offerTo cfg root (t :: rest) c = M.throw e
    | .takes uses left => ∃ vs, uses = [⟨c, vs⟩] ∧
        offerTo cfg root (t :: rest) c = pure (some (⟨c, vs, []⟩, left)) := by
  rw [offerTo_leaf (topArgument_leaf h)]
  have halone := topArgument_alone h
  obtain ⟨sh, hd, hcl⟩ := hcl
  obtain ⟨ha, hn⟩ := topArgument_shape h hd
  have := claim_answers (parents := []) (v := alwaysTrue) hd (mode := holder) (sofar := []) rfl
    (by rw [ha]; exact fun _ h => nomatch h) hw (claims_alone ha hn hcl)
  rw [leafPreParse_alone halone (ps' := [holder]) (pr' := some ⟨holder, [], []⟩)]
  cases cl with
  | refuses e => simpa [Answers, guarded, alwaysTrue, M.pure_bind] using this
  | takes uses left =>
    obtain ⟨tgt, h1, h2⟩ := this
    simp only [guarded, alwaysTrue, M.pure_bind, if_true] at h2
    obtain ⟨h3, h4⟩ := leaf_target halone h2
    obtain ⟨nd, tk, sb⟩ := tgt
    simp only at h3 h4
    subst h3 h4
    exact ⟨tk, h1.symm, h2⟩

/-! ## Modes -/

theorem mode_runs {cfg : Config} {root c : Node} {args : List Token} {mode : Node}
    {parents : List Node} {rest : List Token} {r : Result} {chosen : Choices} (s : St) (hk : mode.kind = .mode)
    (hoffer : offerTo cfg root args c = modeBody cfg mode parents alwaysTrue rest)
    (ho : Ordinary mode) (hrep : RepeatableNamed mode)
    (hr : Reading cfg mode s.sel [] [] rest r chosen)
    (hw : weight rest < 2 ^ 63) (hread : Expanding mode → ∀ t ∈ rest, Readable cfg t)
    (cs : List Node) :
    rootLoop cfg root args (c :: cs) s =
      (outcomeOf cfg mode r >>= fun _ => pure true) { s with sel := chosen } := by
  have hloop := modeLoop_reads (parents := parents) ho hr (modeFuel mode rest) _ s
    rfl (Tracks.start mode) hw hread (mode_ends hrep _ _)
  have h1 : modeBody cfg mode parents alwaysTrue rest s =
      (readOutcome cfg mode r >>= fun r => pure (some r)) { s with sel := chosen } := by
    unfold modeBody
    simp only [alwaysTrue, M.pure_bind, Bool.not_true, Bool.false_eq_true, if_false]
    rw [M.bind_apply, hloop, M.bind_apply]
  rw [rootLoop, M.bind_apply, hoffer, h1]
  cases r with
  | accepts uses =>
    simp only [readOutcome, outcomeOf, M.pure_apply, List.isEmpty_nil, Bool.not_true,
      Bool.false_eq_true, if_false, runTarget, hk, beq_self_eq_true, if_true, M.bind_apply]
  | fails e => rfl
  | unknown t =>
    simp only [readOutcome, outcomeOf, unknownArgument, M.lift, M.bind_apply]
    cases closest cfg mode t with
    | ok found => cases found <;> rfl
    | _ => rfl

theorem path_mem {cfg : Config} {m deep : Node} {names : List Token}
    (h : ModePath cfg m names deep) : deep ∈ m.nodes ∧ deep.kind = .mode ∧ m.kind = .mode := by
  induction h with
  | @here m t hm _ => exact ⟨self_mem_nodes m, hm.kind, hm.kind⟩
  | @down m c deep t u ts before after hm hl hc hck hbef hp ih =>
    exact ⟨child_mem_nodes (by rw [hc]; simp) _ ih.1, ih.2.1, hm.kind⟩

mutual
theorem path_exists {cfg : Config} : ∀ (m : Node) (t : Token) (rest : List Token),
    ModeTree m → IsLabel cfg m t →
    ∃ names rest' deep, t :: rest = names ++ rest' ∧ (∃ ts, names = t :: ts) ∧
      ModePath cfg m names deep ∧ NoSubMode cfg deep rest'
  | .mk k u h v p cs, t, [], ht, hl =>
    ⟨[t], [], _, rfl, ⟨[], rfl⟩, .here (ht.modes _ (self_mem_nodes _) ht.kind).1 hl,
      fun x hx => nomatch hx⟩
  | .mk k u h v p cs, t, x :: rest, ht, hl => by
    have hm := (ht.modes _ (self_mem_nodes _) ht.kind).1
    have hsub : ∀ d ∈ cs, d.kind = .mode → ModeTree d := fun d hd hk =>
      ⟨hk, fun e he hek => ht.modes e (child_mem_nodes (n := .mk k u h v p cs) hd _ he) hek⟩
    rcases path_list cs x rest hsub with hno | ⟨before, c, after, names, rest', deep, h1, h2, h3, h4, ⟨ts, h5⟩, h6, h7⟩
    · refine ⟨[t], x :: rest, _, rfl, ⟨[], rfl⟩, .here hm hl, ?_⟩
      intro y hy d hd hdk
      simp only [List.head?_cons, Option.mem_def, Option.some.injEq] at hy
      subst hy
      exact ⟨((hsub d hd hdk).modes d (self_mem_nodes d) hdk).1, hno d hd hdk⟩
    · subst h5
      refine ⟨t :: x :: ts, rest', deep, by rw [h4]; rfl, ⟨_, rfl⟩,
        .down hm hl h1 h2 (fun d hd hdk => ⟨?_, h3 d hd hdk⟩) h6, h7⟩
      have hd' : d ∈ cs := by rw [h1]; exact List.mem_append_left _ hd
      exact ((hsub d hd' hdk).modes d (self_mem_nodes d) hdk).1
theorem path_list {cfg : Config} : ∀ (cs : List Node) (x : Token) (rest : List Token),
    (∀ d ∈ cs, d.kind = .mode → ModeTree d) →
    (∀ d ∈ cs, d.kind = .mode → ¬ IsLabel cfg d x) ∨
    ∃ before c after names rest' deep, cs = before ++ c :: after ∧ c.kind = .mode ∧
      (∀ d ∈ before, d.kind = .mode → ¬ IsLabel cfg d x) ∧ x :: rest = names ++ rest' ∧
      (∃ ts, names = x :: ts) ∧ ModePath cfg c names deep ∧ NoSubMode cfg deep rest'
  | [], _, _, _ => .inl fun _ h => nomatch h
  | c :: cs, x, rest, hsub => by
    by_cases hc : c.kind = .mode ∧ IsLabel cfg c x
    · obtain ⟨names, rest', deep, h1, h2, h3, h4⟩ :=
        path_exists c x rest (hsub c (by simp) hc.1) hc.2
      exact .inr ⟨[], c, cs, names, rest', deep, rfl, hc.1, (fun _ h => nomatch h), h1, h2, h3, h4⟩
    · rcases path_list cs x rest fun d hd => hsub d (List.mem_cons_of_mem _ hd) with
        h | ⟨before, d, after, names, rest', deep, h1, h2, h3, h4, h5, h6, h7⟩
      · refine .inl fun d hd hk => ?_
        rcases List.mem_cons.1 hd with rfl | hd
        · exact fun hl => hc ⟨hk, hl⟩
        · exact h d hd hk
      · refine .inr ⟨c :: before, d, after, names, rest', deep, by rw [h1]; rfl, h2, ?_, h4, h5, h6,
          h7⟩
        intro e he hk
        rcases List.mem_cons.1 he with rfl | he
        · exact fun hl => hc ⟨hk, hl⟩
        · exact h3 e he hk
end

mutual
theorem leaves_nodes : ∀ (n c : Node), c ∈ leaves n → c ∈ n.nodes
  | .mk k u h v p cs, c, hc => by
    rw [leaves] at hc
    split at hc
    · obtain ⟨d, hd, hcd⟩ := leavesList_nodes cs c hc
      exact child_mem_nodes (n := .mk k u h v p cs) hd _ hcd
    · rw [List.mem_singleton.1 hc]; exact self_mem_nodes _
theorem leavesList_nodes : ∀ (ns : List Node) (c : Node), c ∈ leavesList ns → ∃ d ∈ ns, c ∈ d.nodes
  | [], _, hc => nomatch hc
  | n :: ns, c, hc => by
    rw [leavesList] at hc
    rcases List.mem_append.1 hc with h | h
    · exact ⟨n, by simp, leaves_nodes n c h⟩
    · obtain ⟨d, hd, h⟩ := leavesList_nodes ns c h
      exact ⟨d, List.mem_cons_of_mem _ hd, h⟩
end

theorem argumentsFrom_nodes {cs : List Node} {i : Nat} {a : Nat × Node}
    (h : a ∈ argumentsFrom i cs) : ∃ d ∈ cs, a.2 ∈ d.nodes := by
  induction cs generalizing i with
  | nil => cases h
  | cons c cs ih =>
    rw [argumentsFrom] at h
    rcases List.mem_append.1 h with h | h
    · split at h
      · cases h
      · obtain ⟨x, hx, rfl⟩ := List.mem_map.1 h
        refine ⟨c, by simp, ?_⟩
        rw [members] at hx
        split at hx
        · exact child_mem_nodes hx _ (self_mem_nodes x)
        · exact leaves_nodes c x hx
    · obtain ⟨d, hd, h⟩ := ih h
      exact ⟨d, List.mem_cons_of_mem _ hd, h⟩

theorem arguments_nodes {mode : Node} {a : Nat × Node} (h : a ∈ arguments mode) :
    a.2 ∈ mode.nodes := by
  obtain ⟨d, hd, h⟩ := argumentsFrom_nodes h
  exact child_mem_nodes hd _ h

theorem offMode_declines {cfg : Config} {root m : Node} (h : OffMode m) (args : List Token) :
    offerTo cfg root args m = pure none := by
  unfold offerTo
  rw [if_pos (by simp [h.kind])]
  have hl := disabled_none (cfg := cfg) (parents := [root]) (args := args) (processed := none)
    (v := alwaysTrue) h.disabled h.plain.1 (by
      rw [List.pairwise_iff_forall_sublist]
      rintro p q hpq ⟨rfl, -⟩
      exact h.plain.2 (hpq.subset (by simp)))
    fun hx => absurd hx h.plain.2
  have hn := h.named
  obtain ⟨k, u, hh, v, p, cs⟩ := m
  simp only [preParseMode]
  rw [if_neg (by simp [hn]), hl, M.pure_bind]

/-! ## Programs -/

section
variable {cfg : Config} {root : Node} {chosen : Choices}

/-- The tokens are readable where that matters. -/
def ReadsWell (cfg : Config) (root : Node) (args : List Token) : Prop :=
  (∃ n ∈ root.nodes, Policy.shortFormExpander ∈ n.policies) → ∀ t ∈ args, Readable cfg t

theorem readsWell_mode {args : List Token} (h : ReadsWell cfg root args) {mode : Node}
    (hm : mode ∈ root.nodes) {rest : List Token} (hrest : ∀ t ∈ rest, t ∈ args) :
    Expanding mode → ∀ t ∈ rest, Readable cfg t := by
  rintro ⟨a, ha, hx⟩ t ht
  exact h ⟨a.2, nodes_trans root mode hm _ (arguments_nodes ha), hx⟩ t (hrest t ht)

theorem reading_of {mode : Node} (ho : Ordinary mode) (hrep : RepeatableNamed mode)
    {rest : List Token} (hw : weight rest < 2 ^ 63)
    (hread : Expanding mode → ∀ t ∈ rest, Readable cfg t) :
    ∃ r chosen', Reading cfg mode chosen [] [] rest r chosen' :=
  reading_exists (parents := []) ho (modeFuel mode rest) [] [] rest _ ⟨chosen, []⟩
    (Tracks.start mode) hw hread (mode_ends hrep rest _)

/-- A child that does not respond declines. -/
theorem child_declines (hprog : OrdinaryProgram root) {c : Node} (hc : c ∈ root.children)
    {args : List Token} (hw : weight args < 2 ^ 63) (hread : ReadsWell cfg root args)
    (hno : ∀ a, ¬ Responds cfg root chosen c args a) : offerTo cfg root args c = pure none := by
  have hmem : c ∈ root.nodes := child_mem_nodes hc _ (self_mem_nodes c)
  rcases hprog c hc with h | h | h | ⟨hk, hanon, ho, hrep⟩
  · exact argument_declines h hw (fun hx => hread ⟨c, hmem, hx⟩) hno
  · exact offMode_declines h args
  · unfold offerTo
    rw [if_pos (by simp [h.kind])]
    refine mode_declines (h.modes c (self_mem_nodes c) h.kind).1 _ _ _ ?_
    intro t ht hl
    cases args with
    | nil => cases ht
    | cons t' rest =>
      simp only [List.head?_cons, Option.mem_def, Option.some.injEq] at ht
      subst ht
      obtain ⟨names, rest', deep, h1, -, h2, h3⟩ := path_exists c _ rest h hl
      obtain ⟨hd1, hd2, -⟩ := path_mem h2
      obtain ⟨-, ho, hrep⟩ := h.modes deep hd1 hd2
      rw [h1] at hw hread hno
      rw [weight_append] at hw
      obtain ⟨r, chosen', hr⟩ := reading_of (chosen := chosen) ho hrep (rest := rest') (by omega)
        (readsWell_mode hread (nodes_trans root c hmem _ hd1)
          fun t ht => List.mem_append_right _ ht)
      exact hno _ (.path h2 h3 hr)
  · obtain ⟨r, chosen', hr⟩ := reading_of (chosen := chosen) ho hrep hw (readsWell_mode hread hmem fun t ht => ht)
    exact absurd (.anonymous hk hanon hr) (hno _)

/-- A child that responds does so. -/
theorem child_responds (hprog : OrdinaryProgram root) {c : Node} (hc : c ∈ root.children)
    {args : List Token} (hw : weight args < 2 ^ 63) (hread : ReadsWell cfg root args) {a : Answer}
    (s : St) (h : Responds cfg root s.sel c args a) (cs : List Node) :
    rootLoop cfg root args (c :: cs) s = (answerOutcome cfg a >>= fun _ => pure true) s := by
  have hmem : c ∈ root.nodes := child_mem_nodes hc _ (self_mem_nodes c)
  have hclaim : ∀ {t rest cl}, Claims cfg root [] c t rest cl → TopArgument c := by
    rintro t rest cl ⟨sh, hd, -⟩
    rcases hprog c hc with h | h | h | ⟨hk, -⟩
    · exact h
    · exact absurd h.kind hd.leaf.1
    · exact absurd h.kind hd.leaf.1
    · exact absurd hk hd.leaf.1
  cases h with
  | @argument t rest l hcl =>
    have htop := hclaim hcl
    obtain ⟨vs, h1, h2⟩ := argument_claims htop hw hcl
    obtain rfl : l = ⟨c, vs⟩ := by simpa using h1
    rw [rootLoop, h2, M.pure_bind]
    simp only [List.isEmpty_nil, Bool.not_true, Bool.false_eq_true, if_false, runTarget]
    rw [if_neg (by simp [(topArgument_leaf htop).1])]
    rfl
  | @leftover t rest left uses hcl hl =>
    obtain ⟨vs, h1, h2⟩ := argument_claims (hclaim hcl) hw hcl
    rw [rootLoop, h2, M.pure_bind]
    simp only [answerOutcome]
    rw [if_pos (by simp [hl])]
    rfl
  | @refused t rest e hcl =>
    have h2 := argument_claims (hclaim hcl) hw hcl
    simp only at h2
    rw [rootLoop, h2]
    rfl
  | @path names rest mode r chosen' hpath hsub hr =>
    obtain ⟨h1, h2, h3⟩ := path_mem hpath
    have htree : ModeTree c := by
      have hnm : NamedMode c := by
        cases hpath with
        | here hm _ => exact hm
        | down hm _ _ _ _ _ => exact hm
      rcases hprog c hc with h | h | h | ⟨-, hanon, -⟩
      · exact absurd h3 (topArgument_leaf h).1
      · obtain ⟨p, hp, hdp⟩ := h.disabled
        have hpm : p.matters = true := by
          cases p <;> simp [Policy.disables, Policy.matters] at hdp ⊢ <;> exact hdp
        have := hnm.matching.mem_iff.1 (List.mem_filter.2 ⟨hp, hpm⟩)
        cases this
      · exact h
      · rw [hnm.named] at hanon; cases hanon
    obtain ⟨-, ho, hrep⟩ := htree.modes mode h1 h2
    obtain ⟨parents', hp⟩ := C32_path cfg c mode _ _ hpath hsub [root]
    rw [weight_append] at hw
    refine mode_runs (parents := parents') s h2 ?_ ho hrep hr (by omega) (readsWell_mode hread
      (nodes_trans root c hmem _ h1) fun t ht => List.mem_append_right _ ht) cs
    unfold offerTo
    rw [if_pos (by simp [h3])]
    exact hp
  | @anonymous _ r chosen' hk hanon hr =>
    have hc' : Ordinary c ∧ RepeatableNamed c := by
      rcases hprog c hc with h | h | h | ⟨-, -, h⟩
      · exact absurd hk (topArgument_leaf h).1
      · rw [h.named] at hanon; cases hanon
      · have := (h.modes c (self_mem_nodes c) hk).1.named
        rw [this] at hanon; cases hanon
      · exact h
    refine mode_runs (parents := [root]) s hk ?_ hc'.1 hc'.2 hr hw
      (readsWell_mode hread hmem fun t ht => ht) cs
    unfold offerTo
    rw [if_pos (by simp [hk])]
    obtain ⟨k, u, hh, v, p, xs⟩ := c
    simp only [preParseMode]
    rw [if_pos hanon]

theorem program_reads (hprog : OrdinaryProgram root) {args : List Token}
    (hw : weight args < 2 ^ 63) (hread : ReadsWell cfg root args) {v : Verdict}
    (s : St) (hv : ProgramReading cfg root s.sel args v) :
    rootParse cfg root args s = verdictOutcome cfg root v s := by
  have hdec : ∀ l, (∀ d ∈ l, d ∈ root.children ∧ ∀ a, ¬ Responds cfg root s.sel d args a) →
      Declined cfg root args l s s := by
    intro l hl
    induction l with
    | nil => exact .nil _
    | cons c l ih =>
      refine .cons ?_ (ih fun d hd => hl d (List.mem_cons_of_mem _ hd))
      obtain ⟨h1, h2⟩ := hl c (by simp)
      rw [child_declines hprog h1 hw hread h2]
      rfl
  cases hv with
  | @child before after c a hroot hbef hresp =>
    have hin : ∀ x ∈ before ++ c :: after, x ∈ root.children := fun x hx => hroot ▸ hx
    have hd := hdec before fun d hd => ⟨hin d (List.mem_append_left _ hd), hbef d hd⟩
    unfold rootParse
    rw [M.bind_apply, hroot, rootLoop_declined hd,
      child_responds hprog (hin c (by simp)) hw hread s hresp, M.bind_apply]
    simp only [verdictOutcome]
    match answerOutcome cfg a s with
    | (.ok (), s2) => rfl
    | (.throw e, s2) => rfl
    | (.foreign, s2) => rfl
    | (.ub, s2) => rfl
    | (.diverge, s2) => rfl
  | nothing hno hhd =>
    rw [rootParse_declined (hdec _ fun d hd => ⟨hd, hno d hd⟩)]
    rw [if_pos]
    · rfl
    · cases args with
      | nil => rfl
      | cons t rest => exact hhd t rfl
  | @unknown t hno hhd hne =>
    rw [rootParse_declined (hdec _ fun d hd => ⟨hd, hno d hd⟩)]
    cases args with
    | nil => cases hhd
    | cons t' rest =>
      simp only [List.head?_cons, Option.some.injEq] at hhd
      subst hhd
      rw [List.headD_cons, if_neg hne]
      rfl

end

/-- C88: every command line has a reading. -/
theorem C88_total (cfg : Config) (root : Node) (chosen : Choices) (args : List Token) :
    ∃ v, ProgramReading cfg root chosen args v := by
  by_cases h : ∃ c ∈ root.children, ∃ a, Responds cfg root chosen c args a
  · obtain ⟨before, c, after, h1, h2, a, h3⟩ := first_of_exists h
    exact ⟨_, .child h1 (fun d hd a ha => h2 d hd ⟨a, ha⟩) h3⟩
  · have hno : ∀ d ∈ root.children, ∀ a, ¬ Responds cfg root chosen d args a :=
      fun d hd a ha => h ⟨d, hd, a, ha⟩
    cases args with
    | nil => exact ⟨_, .nothing hno (fun t ht => nomatch ht)⟩
    | cons t rest =>
      by_cases ht : t.name = []
      · refine ⟨_, .nothing hno fun t' ht' => ?_⟩
        simp only [List.head?_cons, Option.mem_def, Option.some.injEq] at ht'
        exact ht' ▸ ht
      · exact ⟨_, .unknown hno rfl ht⟩

/-- C88: a program does with every command line what its reading says. The reading starts with the
alternatives the `one_of` objects remember from before (none in a fresh program, see C15). -/
theorem C88_program (cfg : Config) (root : Node) (argv : List Bytes) (v : Verdict) (s : St)
    (hprog : OrdinaryProgram root)
    (htext : (∃ n ∈ root.nodes, Policy.shortFormExpander ∈ n.policies) →
      ∀ x ∈ argv, Readable cfg ⟨.none, x⟩)
    (hlen : (argv.map List.length).sum + argv.length < 2 ^ 63)
    (hv : ProgramReading cfg root s.sel (argv.map (Token.mk .none)) v) :
    parseArgs cfg root argv s = verdictOutcome cfg root v s := by
  refine program_reads hprog (Nat.lt_of_le_of_lt (weight_raw argv) hlen) ?_ s hv
  intro he t ht
  obtain ⟨x, hx, rfl⟩ := List.mem_map.1 ht
  exact htext he x hx

end Props

end ArgRouter
