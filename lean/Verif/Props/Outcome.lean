import Verif.Lemmas.Outcome
import Verif.Spec.Does
import Verif.Props.Accepted
import Verif.Props.CompiledCalls

/-!
# C106: what is done with the arguments of a command line

C76, C88 and C92 say how a command line is read. Here: what comes of it, down to the values the
router is called with or the error that is reported.
-/

namespace ArgRouter

open Spec Utf8

namespace Props

/-- C106: for every mode and every list of uses of flags and arguments that take values, there is
exactly one thing to do according to the specification: call the router of the mode once with one
list of values, or fail with one error. -/
theorem C106_total (mode : Node) (uses : List Leaf) (hu : ∀ l ∈ uses, HasUses l.node) :
    ∃ o, ∀ o', ModeDoes mode uses o' ↔ o' = o :=
  ⟨modeOf mode uses, fun o' => by rw [modeDoes_iff hu, eq_comm]⟩

/-- C106: ... and that is what the mode does. -/
theorem C106_mode (mode : Node) (uses : List Leaf) (o : Out (List Value)) (s : St)
    (hu : ∀ l ∈ uses, HasUses l.node) (hr : ∀ l ∈ uses, .router ∉ l.node.policies)
    (h : ModeDoes mode uses o) : parseMode mode uses s = ended (called mode o) s := by
  rw [parseMode_modeOf mode uses s hu fun l hl => by
    rw [Bool.eq_false_iff, ne_eq, hasRouter_iff]; exact hr l hl]
  rw [(modeDoes_iff hu o).1 h]

theorem shows_iff (n : Node) (ts : List Token) (o : Out Bytes) :
    Shows n ts o ↔ helpOutput n ts = o := by
  constructor
  · intro h
    unfold helpOutput
    cases h with
    | @text before after f h1 h2 =>
      rw [findSome_first (x := f) h1 (fun y hy => ?_) rfl]
      cases y <;> first | rfl | exact absurd hy (h2 _)
    | nothing h =>
      rw [List.findSome?_eq_none_iff.2 fun y hy => ?_]
      cases y <;> first | rfl | exact absurd hy (h _)
  · rintro rfl
    unfold helpOutput
    split
    · rename_i f hf
      rw [List.findSome?_eq_some_iff] at hf
      obtain ⟨l1, p, l2, hl, hp', hb⟩ := hf
      cases p <;> simp at hp'
      subst hp'
      exact .text hl fun g hg => by have := hb _ hg; simp at this
    · rename_i hf
      refine .nothing ?_
      intro f hmem
      rw [List.findSome?_eq_none_iff] at hf
      exact absurd (hf _ hmem) (by simp)

/-- What a use does, as code. -/
def argumentOf (l : Leaf) : Out (List Call) :=
  if l.node.kind = .help then do
    let text ← helpOutput l.node l.tokens
    return [⟨l.node.uid, [.one (.str text)]⟩]
  else do
    let v ← valueOf l
    return if l.node.kind ≠ .countingFlag ∧ l.node.hasRouter then [⟨l.node.uid, [v]⟩] else []

theorem runnable_cases {n : Node} (h : Runnable n = true) : n.kind = .help ∨ HasUses n := by
  unfold HasUses TakesValues
  unfold Runnable at h
  cases hk : n.kind <;> simp_all

theorem hasUses_not_help {n : Node} (h : HasUses n) : n.kind ≠ .help := by
  intro hk
  rcases h with h | h | h
  · rw [hk] at h; cases h
  · rw [hk] at h; cases h
  · simp [TakesValues, hk] at h

theorem argumentDoes_iff {l : Leaf} (hl : Runnable l.node = true) (o : Out (List Call)) :
    ArgumentDoes l o ↔ argumentOf l = o := by
  unfold argumentOf
  rcases runnable_cases hl with hk | hu
  · rw [if_pos hk]
    have hno : ¬ HasUses l.node := fun h => hasUses_not_help h hk
    have hg : ∀ o, ¬ Gives l o := by
      intro o h
      cases h with
      | flag h => exact hno (h.elim .inl fun h => .inr (.inl h))
      | value h => exact hno (.inr (.inr h))
      | unreadable h => exact hno (.inr (.inr h))
      | refused h => exact hno (.inr (.inr h))
    constructor
    · intro h
      cases h with
      | help _ h => rw [(shows_iff _ _ _).1 h]; rfl
      | helpFails _ h h' => rw [(shows_iff _ _ _).1 h]; exact sameFailure_bind h' _
      | fails h => exact absurd h (hg _)
      | calls h => exact absurd h (hg _)
      | silent h => exact absurd h (hg _)
    · rintro rfl
      by_cases hok : ∃ x, helpOutput l.node l.tokens = .ok x
      · obtain ⟨x, hx⟩ := hok
        rw [hx]
        exact .help hk ((shows_iff _ _ _).2 hx)
      · exact .helpFails hk ((shows_iff _ _ _).2 rfl) (bind_sameFailure (fun a h => hok ⟨a, h⟩) _)
  · have hk := hasUses_not_help hu
    rw [if_neg hk]
    constructor
    · intro h
      cases h with
      | help h => exact absurd h hk
      | helpFails h => exact absurd h hk
      | fails h h' => rw [(gives_iff hu _).1 h]; exact sameFailure_bind h' _
      | calls h h1 h2 =>
        rw [(gives_iff hu _).1 h, Out.ok_bind, if_pos ⟨h1, (hasRouter_iff _).2 h2⟩]
        rfl
      | silent h h1 =>
        rw [(gives_iff hu _).1 h, Out.ok_bind, if_neg]
        · rfl
        · rintro ⟨h2, h3⟩
          exact h1.elim h2 fun h => h ((hasRouter_iff _).1 h3)
    · rintro rfl
      by_cases hok : ∃ x, valueOf l = .ok x
      · obtain ⟨x, hx⟩ := hok
        have := (gives_iff hu _).2 hx
        rw [hx, Out.ok_bind]
        split
        · rename_i h; exact .calls this h.1 ((hasRouter_iff _).1 h.2)
        · rename_i h
          refine .silent this ?_
          by_cases h1 : l.node.kind = .countingFlag
          · exact .inl h1
          · exact .inr fun h2 => h ⟨h1, (hasRouter_iff _).2 h2⟩
      · exact .fails ((gives_iff hu _).2 rfl) (bind_sameFailure (fun a h => hok ⟨a, h⟩) _)

theorem parseLeaf_argumentOf {l : Leaf} (hl : Runnable l.node = true) (s : St) :
    (parseLeaf l >>= fun _ => pure () : M Unit) s = ended (argumentOf l) s := by
  rw [M.bind_apply, parseLeaf_apply]
  unfold argumentOf
  rcases runnable_cases hl with hk | hu
  · rw [if_pos hk]
    simp only [leafValue, leafCalls, hk]
    cases helpOutput l.node l.tokens <;> rfl
  · rw [if_neg (hasUses_not_help hu), leafValue_valueOf hu]
    cases valueOf l with
    | ok v =>
      simp only [Out.ok_bind, M.pure_apply, Out.pure_eq, ended, Prod.mk.injEq, true_and]
      have : leafCalls l (some v) =
          if l.node.kind ≠ .countingFlag ∧ l.node.hasRouter then [⟨l.node.uid, [v]⟩] else [] := by
        unfold leafCalls
        rcases hu with h | h | h
        · simp [h]
        · simp [h]
        · cases hk : l.node.kind <;> simp [TakesValues, hk] at h <;> simp
      rw [this]
      rfl
    | _ => rfl

/-- C106 (a single argument): what an argument directly below the root does. -/
theorem C106_argument (l : Leaf) (s : St) (hl : Runnable l.node = true) :
    (∃ o, ∀ o', ArgumentDoes l o' ↔ o' = o) ∧
    ∀ o, ArgumentDoes l o → runTarget ⟨l.node, l.tokens, []⟩ s = ended o s := by
  refine ⟨⟨argumentOf l, fun o' => by rw [argumentDoes_iff hl, eq_comm]⟩, fun o h => ?_⟩
  rw [← (argumentDoes_iff hl o).1 h, ← parseLeaf_argumentOf hl]
  unfold runTarget
  rw [if_neg]
  unfold Runnable at hl
  cases hk : l.node.kind <;> simp_all

theorem closestLoop_fails {x : Bytes} {cs : List (List Token)} {best : List Token} {score : Nat}
    (h : ∀ found, closestLoop x cs best score ≠ .ok found) :
    ∃ c ∈ cs, ∀ d, levenshtein x (headName c) ≠ .ok d := by
  induction cs generalizing best score with
  | nil => exact absurd rfl (h best)
  | cons c cs ih =>
    rw [closestLoop] at h
    by_cases hd : ∃ d, levenshtein x (headName c) = .ok d
    · obtain ⟨d, hd⟩ := hd
      unfold headName at hd
      rw [hd] at h
      simp only [Out.ok_bind] at h
      split at h
      · obtain ⟨c', h1, h2⟩ := ih h
        exact ⟨c', List.mem_cons_of_mem _ h1, h2⟩
      · obtain ⟨c', h1, h2⟩ := ih h
        exact ⟨c', List.mem_cons_of_mem _ h1, h2⟩
    · exact ⟨c, List.mem_cons_self, fun d h => hd ⟨d, h⟩⟩

theorem unknown_suggests (cfg : Config) (start : Node) (t : Token) (s : St) :
    ∃ o, Suggests cfg start t o ∧ M.lift (unknownArgument cfg start t : Out Unit) s = ended o s := by
  have hbad : (∀ found, closest cfg start t ≠ .ok found) → ∀ o : Out (List Call),
      (∀ e, o ≠ .throw e) → (∀ calls, o ≠ .ok calls) → Suggests cfg start t o := by
    intro h o h1 h2
    obtain ⟨c, hc, h3⟩ := closestLoop_fails h
    obtain ⟨n, ps, name, hs, rfl⟩ := mem_candidates.1 hc
    refine .malformed (bareName cfg t) hs (fun d hd => ?_) h1 h2
    obtain ⟨a, b, ha, hb, -⟩ := hd
    obtain ⟨d', hd', -⟩ := C31_edit_distance _ _ a b ha hb
    exact h3 d' hd'
  cases hc : closest cfg start t with
  | ok found =>
    cases found with
    | nil =>
      refine ⟨_, .unknown (bareName cfg t) fun n ps name hs => ?_, ?_⟩
      · obtain ⟨h1, h2⟩ := closestLoop_spec _ _ _ _ _ hc
        have hm := mem_candidates.2 ⟨n, ps, name, hs, rfl⟩
        obtain ⟨e, he⟩ := h1 _ hm
        rcases h2 with ⟨-, h2⟩ | ⟨pre, post, d, hs2, -⟩
        · exact ⟨e, lev_distance he, h2 _ hm e he⟩
        · have : [] ∈ candidates start := by rw [hs2]; simp
          obtain ⟨_, _, _, _, he⟩ := mem_candidates.1 this
          cases he
      · unfold unknownArgument
        rw [hc]
        rfl
    | cons y ys =>
      have he : (unknownArgument cfg start t : Out Unit) =
          .throw ⟨.unknown_argument_with_suggestion, t :: (y :: ys).reverse⟩ := by
        unfold unknownArgument
        rw [hc]
        rfl
      obtain ⟨n, ps, name, x, d, h1, h2, h3, h4, h5⟩ := C30_closest cfg start t _ he
      refine ⟨_, .closest h3 h1 h4 h5, ?_⟩
      rw [he, h2]
      rfl
  | throw e => exact absurd hc (closest_ne_throw _ _ _ e)
  | foreign =>
    refine ⟨.foreign, hbad (by rw [hc]; simp) _ (by simp) (by simp), ?_⟩
    unfold unknownArgument
    rw [hc]
    rfl
  | ub =>
    refine ⟨.ub, hbad (by rw [hc]; simp) _ (by simp) (by simp), ?_⟩
    unfold unknownArgument
    rw [hc]
    rfl
  | diverge =>
    refine ⟨.diverge, hbad (by rw [hc]; simp) _ (by simp) (by simp), ?_⟩
    unfold unknownArgument
    rw [hc]
    rfl

section

variable {cfg : Config} {root : Node}

/-- An argument with a name in a program that compiles can be run. -/
theorem compiles_named (hc : ∃ depth, compiles cfg depth defaultRules root = true) {n : Node}
    (hn : n ∈ root.nodes) (hr : n.nameRefs ≠ []) : Runnable n = true := by
  obtain ⟨d, hd⟩ := hc
  obtain ⟨p, hp⟩ := mem_nodes.1 hn
  obtain ⟨-, h2, -⟩ := nodeAsserts_parts ((compiles_iff_parts hd).2.2 p n hp)
  have hl := nameRefs_label hr
  unfold Node.hasLabel at hl
  cases hk : n.kind <;> simp_all [Runnable, classAsserts, basicOneOfAsserts, Node.isNamed]

theorem leaf_runnable {n : Node} (h : n.kind ≠ .mode ∧ n.kind ≠ .aliasGroup ∧ n.kind ≠ .oneOf)
    (hr : n.kind ≠ .root) : Runnable n = true := by
  unfold Runnable
  cases hk : n.kind <;> simp_all

/-- No node of a child of a node is a root. -/
theorem compiles_below (hc : ∃ depth, compiles cfg depth defaultRules root = true) {m c x : Node}
    (hm : m ∈ root.nodes) (hcm : c ∈ m.children) (hx : x ∈ c.nodes) : x.kind ≠ .root := by
  intro hk
  obtain ⟨p, hp⟩ := mem_nodes.1 hm
  obtain ⟨i, hi⟩ := List.mem_iff_getElem?.1 hcm
  obtain ⟨q, hq⟩ := mem_nodes.1 hx
  have : nodeAt root (p ++ i :: q) = some x := by
    rw [nodeAt_append, hp]
    simp only [Option.bind_some, nodeAt, hi]
    exact hq
  have := root_on_top hc this hk
  simp at this

/-- The uses in the reading of a mode are uses of arguments that have no router. -/
theorem reading_uses (hc : ∃ depth, compiles cfg depth defaultRules root = true) {mode : Node}
    (hm : mode ∈ root.nodes) (hk : mode.kind = .mode) {chosen chosen' : Choices}
    {sofar : List Leaf} {used : List Nat} {args : List Token} {r : Result}
    (h : Reading cfg mode chosen sofar used args r chosen')
    (hs : ∀ l ∈ sofar, HasUses l.node ∧ .router ∉ l.node.policies) (uses : List Leaf)
    (hr : r = .accepts uses) : ∀ l ∈ uses, HasUses l.node ∧ .router ∉ l.node.policies := by
  induction h with
  | done => cases hr; exact hs
  | @take chosen chosen' sofar uses' used t rest left a r hf hkk ha hcl hrd ih =>
    refine ih ?_ hr
    intro l hl
    rcases List.mem_append.1 hl with hl | hl
    · exact hs l hl
    · have key : ∀ x ∈ mode.nodes, Runnable x = true → HasUses x ∧ .router ∉ x.policies := by
        intro x hx hrun
        have hxk : x.kind ≠ .mode := by
          intro h; simp [Runnable, h] at hrun
        obtain ⟨h1, h2⟩ := (compiles_routers hc).2 mode hm hk x hx hxk
        refine ⟨(runnable_cases hrun).resolve_left h2, fun h3 => ?_⟩
        rw [(hasRouter_iff x).2 h3] at h1
        cases h1
      obtain ⟨sh, hd, hcl⟩ := hcl
      have ham : a ∈ arguments mode := by
        obtain ⟨before, after, h1, -⟩ := hf
        rw [h1]; simp
      cases hcl with
      | takes =>
        unfold Shape.uses at hl
        split at hl
        · simp only [List.mem_singleton] at hl
          subst hl
          obtain ⟨d, hd1, hd2⟩ := argumentsFrom_nodes ham
          exact key _ (arguments_nodes ham)
            (leaf_runnable hd.leaf (compiles_below hc hm hd1 hd2))
        · obtain ⟨x, hx, rfl⟩ := List.mem_map.1 hl
          obtain ⟨hx1, hx2⟩ := List.mem_filter.1 hx
          refine key x hx1 (compiles_named hc (nodes_trans _ _ hm _ hx1) ?_)
          intro h0
          rw [h0] at hx2
          simp at hx2
  | _ => cases hr

/-- What the specification says about a reading, and what the program does with it. -/
theorem verdict_does (hc : compiles cfg depth defaultRules root = true)
    (hu : Conventional root) {args : List Token} {s : St} {v : Spec.Verdict}
    (hv : ProgramReading cfg root s.sel args v) :
    (∃ o, VerdictDoes cfg root v o ∧
      verdictOutcome cfg root v s = ended o { s with sel := v.choices s.sel }) ∧
    ∀ o, v.known → VerdictDoes cfg root v o →
      verdictOutcome cfg root v s = ended o { s with sel := v.choices s.sel } := by
  have hcc : ∃ depth, compiles cfg depth defaultRules root = true := ⟨_, hc⟩
  have ho := C92_ordinary_partial hc hu
  cases hv with
  | @child before after c a hroot hb hr =>
    have hcr : c ∈ root.children := by rw [hroot]; simp
    have hcn : c ∈ root.nodes := child_mem_nodes hcr _ (self_mem_nodes c)
    have hmode : ∀ (mode : Node) (rest : List Token) (r : Result) (chosen : Choices),
        mode ∈ root.nodes → mode.kind = .mode → Reading cfg mode s.sel [] [] rest r chosen →
        (∃ o, VerdictDoes cfg root (.answer (.reads mode r chosen)) o ∧
          verdictOutcome cfg root (.answer (.reads mode r chosen)) s =
            ended o { s with sel := chosen }) ∧
        ∀ o, (Spec.Verdict.answer (.reads mode r chosen)).known →
          VerdictDoes cfg root (.answer (.reads mode r chosen)) o →
          verdictOutcome cfg root (.answer (.reads mode r chosen)) s =
            ended o { s with sel := chosen } := by
      intro mode rest r chosen hm hk hrd
      cases r with
      | accepts uses =>
        have huses := reading_uses hcc hm hk hrd (fun l hl => nomatch hl) uses rfl
        have h1 : ∀ o, ModeDoes mode uses o → parseMode mode uses { s with sel := chosen } =
            ended (called mode o) { s with sel := chosen } := fun o h =>
          C106_mode mode uses o _ (fun l hl => (huses l hl).1) (fun l hl => (huses l hl).2) h
        obtain ⟨o, h2⟩ := C106_total mode uses fun l hl => (huses l hl).1
        refine ⟨⟨_, .mode ((h2 o).2 rfl), h1 o ((h2 o).2 rfl)⟩, ?_⟩
        intro o' _ h3
        cases h3 with
        | mode h => exact h1 _ h
      | fails e =>
        refine ⟨⟨_, .modeFails, rfl⟩, ?_⟩
        intro o' _ h3
        cases h3 with
        | modeFails => rfl
      | unknown t =>
        obtain ⟨o, h1, h2⟩ := unknown_suggests cfg mode t { s with sel := chosen }
        exact ⟨⟨o, .modeUnknown h1, h2⟩, fun o' h => absurd h id⟩
    have hfail : ∀ e : Exc, (∃ o, VerdictDoes cfg root (.answer (.fails e)) o ∧
          verdictOutcome cfg root (.answer (.fails e)) s = ended o s) ∧
        ∀ o, (Spec.Verdict.answer (.fails e)).known → VerdictDoes cfg root (.answer (.fails e)) o →
          verdictOutcome cfg root (.answer (.fails e)) s = ended o s := by
      intro e
      refine ⟨⟨_, .fails, rfl⟩, ?_⟩
      intro o' _ h3
      cases h3 with
      | fails => rfl
    cases hr with
    | @argument t rest l hcl =>
      have hrun : Runnable l.node = true := by
        obtain ⟨sh, hd, hcl⟩ := hcl
        have hc1 : Runnable c = true := leaf_runnable hd.leaf
          (compiles_below hcc (self_mem_nodes root) hcr (self_mem_nodes c))
        have htop : TopArgument c := by
          rcases ho c hcr with h | h | h | h
          · exact h
          · exact absurd h.kind hd.leaf.1
          · exact absurd h.kind hd.leaf.1
          · exact absurd h.1 hd.leaf.1
        have hal := (topArgument_shape htop hd).1
        have huse : ∃ vs, [l] = sh.uses root c vs := by
          generalize hcl' : Claim.takes [l] [] = cl at hcl
          cases hcl with
          | takes => simp only [Claim.takes.injEq] at hcl'; exact ⟨_, hcl'.1⟩
          | _ => cases hcl'
        obtain ⟨vs, hvs⟩ := huse
        simp only [Shape.uses, hal, List.cons.injEq, and_true] at hvs
        rw [hvs]
        exact hc1
      obtain ⟨o, h2⟩ := (C106_argument l s hrun).1
      have h1 : ∀ o, ArgumentDoes l o → verdictOutcome cfg root (.answer (.uses l)) s = ended o s := by
        intro o h
        rw [← (argumentDoes_iff hrun o).1 h]
        exact parseLeaf_argumentOf hrun s
      refine ⟨⟨o, .argument ((h2 o).2 rfl), h1 o ((h2 o).2 rfl)⟩, ?_⟩
      intro o' _ h3
      cases h3 with
      | argument h => exact h1 _ h
    | leftover => exact hfail _
    | refused => exact hfail _
    | @path names rest mode r chosen' hp hns hrd =>
      obtain ⟨h1, h2, -⟩ := path_mem hp
      exact hmode mode rest r chosen' (nodes_trans _ _ hcn _ h1) h2 hrd
    | @anonymous args r chosen' hk ha hrd => exact hmode c _ r chosen' hcn hk hrd
  | nothing h1 h2 =>
    refine ⟨⟨_, .nothing, rfl⟩, ?_⟩
    intro o' _ h3
    cases h3 with
    | nothing => rfl
  | @unknown t h1 h2 h3 =>
    obtain ⟨o, h1, h2⟩ := unknown_suggests cfg root t s
    exact ⟨⟨o, .unknown h1, h2⟩, fun o' h => absurd h id⟩

/-- C92, what holds, with C106: a program that compiles and keeps to the conventions (see C92)
does with a command line what the specification says about the reading of the command line: it calls these
routers with these values, or reports this error, and remembers these alternatives of `one_of`. -/
theorem C92_does_partial (hc : compiles cfg depth defaultRules root = true)
    (hu : Conventional root) (argv : List Bytes) (s : St)
    (htext : ∀ x ∈ argv, Readable cfg ⟨.none, x⟩)
    (hlen : (argv.map List.length).sum + argv.length < 2 ^ 63) :
    ∃ v o, ProgramReading cfg root s.sel (argv.map (Token.mk .none)) v ∧
      VerdictDoes cfg root v o ∧
      parseArgs cfg root argv s = ended o { s with sel := v.choices s.sel } := by
  obtain ⟨v, h1, h2⟩ := C92_program_partial hc hu argv s htext hlen
  have hv := (h1 v).2 rfl
  obtain ⟨o, h3, h4⟩ := (verdict_does hc hu hv).1
  exact ⟨v, o, hv, h3, by rw [h2, h4]⟩

/-- C92, what holds, with C106: what the specification says is the only thing that can happen. (If an
argument is unknown, the specification leaves open which of several equally close names is suggested;
see C30.) -/
theorem C92_only_partial (hc : compiles cfg depth defaultRules root = true)
    (hu : Conventional root) (argv : List Bytes) (s : St)
    (htext : ∀ x ∈ argv, Readable cfg ⟨.none, x⟩)
    (hlen : (argv.map List.length).sum + argv.length < 2 ^ 63) (v : Spec.Verdict) (o : Out (List Call))
    (hv : ProgramReading cfg root s.sel (argv.map (Token.mk .none)) v) (hk : v.known)
    (hdoes : VerdictDoes cfg root v o) :
    parseArgs cfg root argv s = ended o { s with sel := v.choices s.sel } := by
  obtain ⟨v', h1, h2⟩ := C92_program_partial hc hu argv s htext hlen
  obtain rfl := (h1 v).1 hv
  rw [h2]
  exact (verdict_does hc hu hv).2 o hk hdoes

end

/-! ## Examples -/

theorem toolUses_hasUses : ∀ l ∈ toolUses, HasUses l.node ∧ .router ∉ l.node.policies := by
  intro l hl
  simp only [toolUses, List.mem_cons, List.not_mem_nil, or_false] at hl
  have h : ∀ n : Node, n.hasRouter = false → .router ∉ n.policies := fun n h1 h2 => by
    rw [(hasRouter_iff n).2 h2] at h1
    cases h1
  rcases hl with rfl | rfl | rfl
  · exact ⟨.inr (.inl rfl), h _ (by decide)⟩
  · exact ⟨.inr (.inr rfl), h _ (by decide)⟩
  · exact ⟨.inr (.inl rfl), h _ (by decide)⟩

/-- The hypotheses of the C106 theorems are met: what the specification says about `-v --num 5 -v`
(the flag is not given, the counting flag twice, the bounded argument has a value within its bounds
and the last one its default). -/
example : ModeDoes toolMode toolUses
    (.ok [.one (.bool false), .one (.int 2), .one (.int 5), .one (.int 9)]) :=
  (modeDoes_iff (fun l hl => (toolUses_hasUses l hl).1) _).2 (by decide +kernel)

/-- ... and what it says about `--num 8` and about `--out 3`: the value is too large; the required
argument is missing. -/
example : ModeDoes toolMode [⟨toolNum, [⟨.none, b "8"⟩]⟩]
      (.throw ⟨.maximum_value_exceeded, [⟨.long, b "num"⟩]⟩) ∧
    ModeDoes toolMode [⟨toolOut, [⟨.none, b "3"⟩]⟩]
      (.throw ⟨.missing_required_argument, [⟨.long, b "num"⟩]⟩) := by
  constructor
  · refine (modeDoes_iff (fun l hl => ?_) _).2 (by decide +kernel)
    simp only [List.mem_cons, List.not_mem_nil, or_false] at hl
    subst hl
    exact .inr (.inr rfl)
  · refine (modeDoes_iff (fun l hl => ?_) _).2 (by decide +kernel)
    simp only [List.mem_cons, List.not_mem_nil, or_false] at hl
    subst hl
    exact .inr (.inr rfl)

/-- The hypotheses of the whole program theorems are met. -/
example : compiles .default 100 defaultRules toolRoot = true ∧ Conventional toolRoot :=
  ⟨by decide +kernel, conventional_of_test (by decide +kernel)⟩

/-- C92, C106: what such a program does with `--num 8`, from the specification alone. -/
example (o : Out (List Call)) (v : Spec.Verdict)
    (hv : ProgramReading .default toolRoot [] [⟨.none, b "--num"⟩, ⟨.none, b "8"⟩] v)
    (hk : v.known) (ho : VerdictDoes .default toolRoot v o) :
    o = .throw ⟨.maximum_value_exceeded, [⟨.long, b "num"⟩]⟩ := by
  have hread : ∀ x ∈ [b "--num", b "8"], Readable .default ⟨.none, x⟩ := by
    intro x hx y hy
    rcases hy with ⟨h, -⟩ | ⟨-, h1, h2⟩
    · cases h
    · simp only [List.mem_cons, List.not_mem_nil, or_false] at hx
      rcases hx with rfl | rfl
      · exact absurd (by decide) h2
      · have h3 := congrArg (fun l : Bytes => l.head?) h1
        have h4 : (Config.default.shortPrefix ++ y).head? = some 45 := rfl
        simp only [h4] at h3
        exact absurd h3 (by decide)
  have h := C92_only_partial (cfg := .default) (depth := 100) (root := toolRoot)
    (by decide +kernel) (conventional_of_test (by decide +kernel)) [b "--num", b "8"] .fresh hread
    (by decide) v o hv hk ho
  have h2 : parseArgs .default toolRoot [b "--num", b "8"] .fresh =
    (.throw ⟨.maximum_value_exceeded, [⟨.long, b "num"⟩]⟩, .fresh) := by decide +kernel
  rw [h2] at h
  cases o <;> simp [ended] at h
  rw [h.1]

end Props

end ArgRouter
