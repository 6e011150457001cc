import Verif.Props.Order

/-!
# C28, C29, C32: the root, unknown arguments and nested modes
-/

namespace ArgRouter

open Utf8

namespace Spec

/-- The children are offered the command line one after the other, and each declines it. -/
inductive Declined (cfg : Config) (root : Node) (args : List Token) : List Node → St → St → Prop
  | nil (s : St) : Declined cfg root args [] s s
  | cons {c : Node} {cs : List Node} {s s1 s2 : St} :
      offerTo cfg root args c s = (.ok none, s1) → Declined cfg root args cs s1 s2 →
      Declined cfg root args (c :: cs) s s2

/-- A mode with a name, and with nothing but the name (and possibly a runtime switch that is on) to
decide whether it matches. -/
structure NamedMode (m : Node) : Prop where
  kind : m.kind = .mode
  named : m.isAnonymous = false
  matching : MatchPolicies m []

/-- The names lead from the mode `m` down to the mode `deep`: the first is the name of `m`, the next
the name of a child mode of `m` (and of no child mode before it), and so on. -/
inductive ModePath (cfg : Config) : Node → List Token → Node → Prop
  | here {m : Node} {t : Token} : NamedMode m → IsLabel cfg m t → ModePath cfg m [t] m
  | down {m c deep : Node} {t u : Token} {ts : List Token} {before after : List Node} :
      NamedMode m → IsLabel cfg m t → m.children = before ++ c :: after → c.kind = .mode →
      (∀ d ∈ before, d.kind = .mode → NamedMode d ∧ ¬ IsLabel cfg d u) →
      ModePath cfg c (u :: ts) deep → ModePath cfg m (t :: u :: ts) deep

/-- No child mode of the mode answers to the first of these arguments. -/
def NoSubMode (cfg : Config) (m : Node) (rest : List Token) : Prop :=
  ∀ t ∈ rest.head?, ∀ d ∈ m.children, d.kind = .mode → NamedMode d ∧ ¬ IsLabel cfg d t

end Spec

open Spec

namespace Props

/-! ## C28 -/

theorem declined_quiet {cfg : Config} {root : Node} {args : List Token} {cs : List Node}
    {s s' : St} (h : Declined cfg root args cs s s') : s'.calls = s.calls := by
  induction h with
  | nil s => rfl
  | @cons c cs s s1 s2 h1 _ ih =>
    have := quiet_offerTo cfg root args c s
    rw [h1] at this
    exact ih.trans this

theorem rootLoop_declined {cfg : Config} {root : Node} {args : List Token} {cs : List Node}
    {s s' : St} (h : Declined cfg root args cs s s') (ds : List Node) :
    rootLoop cfg root args (cs ++ ds) s = rootLoop cfg root args ds s' := by
  induction h with
  | nil s => rfl
  | cons h1 _ ih =>
    rw [List.cons_append, rootLoop, M.bind_apply, h1]
    exact ih

/-- C28: the command line goes to the first child that matches it, and to no other: if the children
before `c` decline it, and `c` matches and uses up all arguments, the parse does what `c` does,
whatever children come after `c`. -/
theorem C28_first_match (cfg : Config) (root : Node) (args : List Bytes) (before after : List Node)
    (c : Node) (t : Target) (s s1 s2 : St)
    (hroot : root.children = before ++ c :: after)
    (hdec : Declined cfg root (args.map (Token.mk .none)) before s s1)
    (hmatch : offerTo cfg root (args.map (Token.mk .none)) c s1 = (.ok (some (t, [])), s2)) :
    parseArgs cfg root args s = runTarget t s2 := by
  unfold parseArgs rootParse
  rw [hroot, M.bind_apply, rootLoop_declined hdec, rootLoop, M.bind_apply, hmatch]
  simp only [List.isEmpty_nil, Bool.not_true, Bool.false_eq_true, if_false, M.bind_apply]
  match runTarget t s2 with
  | (.ok (), s3) => rfl
  | (.throw e, s3) => rfl
  | (.foreign, s3) => rfl
  | (.ub, s3) => rfl
  | (.diverge, s3) => rfl

/-- C28: if the first child that matches leaves arguments over, the parse fails with
`unhandled_arguments` for exactly these, and no router is called. -/
theorem C28_leftovers (cfg : Config) (root : Node) (args : List Bytes) (before after : List Node)
    (c : Node) (t : Target) (x : Token) (xs : List Token) (s s1 s2 : St)
    (hroot : root.children = before ++ c :: after)
    (hdec : Declined cfg root (args.map (Token.mk .none)) before s s1)
    (hmatch : offerTo cfg root (args.map (Token.mk .none)) c s1 = (.ok (some (t, x :: xs)), s2)) :
    parseArgs cfg root args s = (.throw ⟨.unhandled_arguments, x :: xs⟩, s2) ∧
      s2.calls = s.calls := by
  constructor
  · unfold parseArgs rootParse
    rw [hroot, M.bind_apply, rootLoop_declined hdec, rootLoop, M.bind_apply, hmatch]
    rfl
  · have h1 := quiet_offerTo cfg root (args.map (Token.mk .none)) c s1
    rw [hmatch] at h1
    exact h1.trans (declined_quiet hdec)

theorem rootLoop_true {cfg : Config} {root : Node} {args : List Token} {s s' : St} (cs : List Node)
    (h : rootLoop cfg root args cs s = (.ok true, s')) :
    ∃ before c after t s1 s2, cs = before ++ c :: after ∧ Declined cfg root args before s s1 ∧
      offerTo cfg root args c s1 = (.ok (some (t, [])), s2) ∧ runTarget t s2 = (.ok (), s') := by
  induction cs generalizing s with
  | nil => simp [rootLoop] at h
  | cons c cs ih =>
    rw [rootLoop, M.bind_apply] at h
    match hx : offerTo cfg root args c s with
    | (.ok none, s1) =>
      rw [hx] at h
      obtain ⟨before, d, after, t, s2, s3, rfl, h1, h2⟩ := ih h
      exact ⟨c :: before, d, after, t, s2, s3, rfl, .cons hx h1, h2⟩
    | (.ok (some (t, [])), s1) =>
      rw [hx] at h
      simp only [List.isEmpty_nil, Bool.not_true, Bool.false_eq_true, if_false, M.bind_eq_ok,
        M.pure_apply, Prod.mk.injEq] at h
      obtain ⟨⟨⟩, s2, h1, -, rfl⟩ := h
      exact ⟨[], c, cs, t, s, s1, rfl, .nil _, hx, h1⟩
    | (.ok (some (t, x :: xs)), s1) => rw [hx] at h; simp at h
    | (.throw e, s1) => rw [hx] at h; simp at h
    | (.foreign, s1) => rw [hx] at h; simp at h
    | (.ub, s1) => rw [hx] at h; simp at h
    | (.diverge, s1) => rw [hx] at h; simp at h

/-- C28 (converse): a parse that succeeds was the work of one child, which was the first to match
and used up all arguments. -/
theorem C28_success (cfg : Config) (root : Node) (args : List Bytes) (s s' : St)
    (h : parseArgs cfg root args s = (.ok (), s')) :
    ∃ before c after t s1 s2, root.children = before ++ c :: after ∧
      Declined cfg root (args.map (Token.mk .none)) before s s1 ∧
      offerTo cfg root (args.map (Token.mk .none)) c s1 = (.ok (some (t, [])), s2) ∧
      runTarget t s2 = (.ok (), s') := by
  unfold parseArgs rootParse at h
  simp only [M.bind_eq_ok] at h
  obtain ⟨ok, s1, h1, h2⟩ := h
  cases ok with
  | true =>
    simp only [if_true, M.pure_apply, Prod.mk.injEq, true_and] at h2
    subst h2
    exact rootLoop_true _ h1
  | false =>
    simp only [Bool.false_eq_true, if_false] at h2
    split at h2
    · simp at h2
    · simp only [M.lift_apply, Prod.mk.injEq] at h2
      exact absurd h2.1 (unknownArgument_ne_ok _ _ _ _)

/-! ## C29 -/

/-- What is reported for an unknown argument: its token first, and after it, if there is one, the
suggestion. -/
theorem unknown_cases {α : Type} (cfg : Config) (n : Node) (t : Token) :
    (unknownArgument cfg n t : Out α) = .throw ⟨.unknown_argument, [t]⟩ ∨
    (∃ x xs, (unknownArgument cfg n t : Out α) =
      .throw ⟨.unknown_argument_with_suggestion, t :: x :: xs⟩) ∨
    ∀ found, closest cfg n t ≠ .ok found := by
  unfold unknownArgument
  cases hc : closest cfg n t with
  | ok found =>
    cases hf : found with
    | nil => left; rfl
    | cons y ys =>
      right; left
      cases hr : (y :: ys).reverse with
      | nil => simp at hr
      | cons x xs => exact ⟨x, xs, by simp only [Out.ok_bind]; rw [hr]; rfl⟩
  | _ => right; right; intro found; exact fun h => by cases h

theorem rootParse_declined {cfg : Config} {root : Node} {args : List Token} {s s' : St}
    (h : Declined cfg root args root.children s s') :
    rootParse cfg root args s =
      if (args.headD ⟨.none, []⟩).name = [] then (.throw ⟨.no_arguments_passed, []⟩, s')
      else (unknownArgument cfg root (args.headD ⟨.none, []⟩), s') := by
  have h1 := rootLoop_declined h []
  rw [List.append_nil] at h1
  unfold rootParse
  rw [M.bind_apply, h1]
  simp only [rootLoop, M.pure_apply, Bool.false_eq_true, if_false, List.isEmpty_iff]
  split <;> rfl

/-- C29 (no arguments): if no child accepts the empty command line, the parse fails with
`no_arguments_passed`, and no router is called. -/
theorem C29_no_arguments (cfg : Config) (root : Node) (s s' : St)
    (h : Declined cfg root [] root.children s s') :
    parseArgs cfg root [] s = (.throw ⟨.no_arguments_passed, []⟩, s') ∧ s'.calls = s.calls :=
  ⟨(rootParse_declined h).trans rfl, declined_quiet h⟩

/-- C29 (unknown argument), for a first argument that is not the empty string: if no child accepts
the command line, the parse fails with `unknown_argument` for the first argument, or with
`unknown_argument_with_suggestion` for the first argument and the suggestion, and no router is
called. (Unless the search for a suggestion trips over the text: C41.) -/
theorem C29_unknown_partial (cfg : Config) (root : Node) (a : Bytes) (args : List Bytes) (s s' : St)
    (ha : a ≠ []) (h : Declined cfg root ((a :: args).map (Token.mk .none)) root.children s s')
    (found : List Token) (hf : closest cfg root ⟨.none, a⟩ = .ok found) :
    s'.calls = s.calls ∧
    (parseArgs cfg root (a :: args) s = (.throw ⟨.unknown_argument, [⟨.none, a⟩]⟩, s') ∨
    ∃ x xs, parseArgs cfg root (a :: args) s =
      (.throw ⟨.unknown_argument_with_suggestion, ⟨.none, a⟩ :: x :: xs⟩, s')) := by
  refine ⟨declined_quiet h, ?_⟩
  have h1 := rootParse_declined h
  rw [List.map_cons, List.headD_cons, if_neg ha, ← List.map_cons] at h1
  unfold parseArgs
  rw [h1]
  rcases unknown_cases (α := Unit) cfg root ⟨.none, a⟩ with hu | ⟨x, xs, hu⟩ | hu
  · left; rw [hu]
  · right; exact ⟨x, xs, by rw [hu]⟩
  · exact absurd hf (hu found)

/-- C29, what happens if the first argument is the empty string: whatever follows it, the error is the one for
an empty command line. -/
theorem C29_empty_first (cfg : Config) (root : Node) (args : List Bytes) (s s' : St)
    (h : Declined cfg root (([] :: args).map (Token.mk .none)) root.children s s') :
    parseArgs cfg root ([] :: args) s = (.throw ⟨.no_arguments_passed, []⟩, s') ∧ s'.calls = s.calls :=
  ⟨(rootParse_declined h).trans rfl, declined_quiet h⟩

/-- C29 is false when the first argument is the empty string: it is reported as if there were no
arguments. -/
theorem C29_false : parseArgs .default (mkRoot 61 61 [mkMode 62 62 [.router, .noneName (b "go")] []])
    [[], b "x"] .fresh = (.throw ⟨.no_arguments_passed, []⟩, .fresh) := by decide +kernel

/-- A mode that is done with some groups and comes to an argument that is not for any child. -/
theorem modeLoop_unknown (cfg : Config) (mode : Node) (parents : List Node) (gs : List Group)
    (x : Token) (rest : List Token) (fuel : Nat) (s : St)
    (hgs : ∀ g ∈ gs, g.Fits cfg mode.children) (hrep : NoRepeats mode.children gs)
    (hx : ∀ c ∈ mode.children, (∃ k, FixedCount cfg c k) ∧ NotFor cfg c x)
    (hlen : (tokensOf gs).length + rest.length + 1 < 2 ^ 63) :
    modeLoop cfg mode parents (fuel + 1 + gs.length) ⟨mode, [], []⟩
        (List.replicate mode.children.length false) (tokensOf gs ++ x :: rest) s =
      (if ∀ i, i < mode.children.length → ∃ g ∈ gs, g.child = i then
        .throw ⟨.unhandled_arguments, x :: rest⟩
      else unknownArgument cfg mode x, s) := by
  rw [modeLoop_groups cfg mode parents gs _ _ _ _ s (by simp) hgs hrep
    (by intro y hy d hd hms
        obtain ⟨hi, -⟩ := List.getElem?_eq_some_iff.1 hd
        simp [hi]) (by rw [List.length_cons]; omega)]
  rw [modeLoop, M.bind_apply]
  have hstep := modeStep_skip (cfg := cfg) (parents := mode :: parents)
    (target := ⟨mode, [], gs.flatMap (Group.use mode.children)⟩)
    (matched := markAll (List.replicate mode.children.length false) gs) (front := x) (rest := rest)
    mode.children [] 0 hx
  rw [List.append_nil, modeStep] at hstep
  simp only [List.nil_append]
  rw [hstep]
  simp only [M.pure_apply]
  have hiff : ((markAll (List.replicate mode.children.length false) gs).all id = true) ↔
      ∀ i, i < mode.children.length → ∃ g ∈ gs, g.child = i := by
    rw [List.all_eq_true]
    constructor
    · intro h i hi
      have hl : i < (markAll (List.replicate mode.children.length false) gs).length := by
        rw [markAll_length]; simpa using hi
      have := h _ (List.getElem_mem hl)
      have h2 := (markAll_get gs (List.replicate mode.children.length false) i (by simpa using hi)).1
        (by rw [List.getElem?_eq_getElem hl]; exact this)
      rcases h2 with h2 | h2
      · simp [hi] at h2
      · exact h2
    · intro h y hy
      obtain ⟨i, hi, rfl⟩ := List.mem_iff_getElem.1 hy
      have hl : i < mode.children.length := by rw [markAll_length] at hi; simpa using hi
      have := (markAll_get gs (List.replicate mode.children.length false) i (by simpa using hl)).2
        (.inr (h i hl))
      rw [List.getElem?_eq_getElem hi] at this
      exact this
  by_cases hall : ∀ i, i < mode.children.length → ∃ g ∈ gs, g.child = i
  · rw [if_pos hall, if_pos (hiff.2 hall)]; rfl
  · rw [if_neg hall, if_neg fun h => hall (hiff.1 h)]; rfl

/-- C29 (inside a mode): an argument that is not for any child of the mode, after some complete
arguments. If all children have been given, it and everything after it is reported as
`unhandled_arguments`; otherwise it is reported as unknown. -/
theorem C29_in_mode (cfg : Config) (root mode : Node) (gs : List Group) (before after : List Bytes)
    (x : Bytes) (s : St)
    (hroot : root.children = [mode]) (hkind : mode.kind = .mode) (hanon : mode.isAnonymous = true)
    (hmulti : RepeatableNamed mode)
    (hgs : ∀ g ∈ gs, g.Fits cfg mode.children) (hrep : NoRepeats mode.children gs)
    (hx : ∀ c ∈ mode.children, (∃ k, FixedCount cfg c k) ∧ NotFor cfg c ⟨.none, x⟩)
    (hbefore : before.map (Token.mk .none) = tokensOf gs)
    (hlen : (before ++ after).length + 1 < 2 ^ 63) :
    parseArgs cfg root (before ++ x :: after) s =
      (if ∀ i, i < mode.children.length → ∃ g ∈ gs, g.child = i then
        .throw ⟨.unhandled_arguments, (x :: after).map (Token.mk .none)⟩
      else unknownArgument cfg mode ⟨.none, x⟩, s) := by
  unfold parseArgs
  rw [rootParse_anonymous _ _ _ _ hroot hkind hanon, M.bind_apply]
  rw [List.map_append, List.map_cons, hbefore]
  generalize hF : modeFuel mode (tokensOf gs ++ ⟨.none, x⟩ :: after.map (Token.mk .none)) = F
  have hb := (C18_loop_bound cfg mode [root]
    (tokensOf gs ++ ⟨.none, x⟩ :: after.map (Token.mk .none)) hmulti s F (by
      rw [← hF]
      have := modeFuel_enough mode (tokensOf gs ++ ⟨.none, x⟩ :: after.map (Token.mk .none))
      rwa [List.count_replicate_self] at this)).2 (1 + gs.length)
  simp only at hb
  have hl : (tokensOf gs).length = before.length := by rw [← hbefore]; simp
  rw [← hb, ← Nat.add_assoc, modeLoop_unknown cfg mode [root] gs _ _ F s hgs hrep hx
    (by simp only [List.length_append] at hlen; rw [List.length_map]; omega)]
  by_cases hall : ∀ i, i < mode.children.length → ∃ g ∈ gs, g.child = i
  · rw [if_pos hall, if_pos hall]
  · rw [if_neg hall, if_neg hall]
    unfold unknownArgument
    cases closest cfg mode ⟨.none, x⟩ with
    | ok found => cases found <;> rfl
    | _ => rfl

/-! ## C32 -/

theorem namedMode_isNamed {m : Node} (h : NamedMode m) : m.isNamed = true := by
  have := h.named
  simp only [Node.isAnonymous, Option.isNone_eq_false_iff] at this
  simp [Node.isNamed, this]

theorem namedMode_phases {m : Node} (h : NamedMode m) : m.phases = [] := by
  rw [h.matching.phases (by simp)]; rfl

theorem mode_label {cfg : Config} {m : Node} (h : NamedMode m) (parents : List Node) (t : Token)
    (rest : List Token) (validator : Validator) (hl : IsLabel cfg m t) :
    leafPreParse cfg m parents (t :: rest) none validator =
      guarded validator m (pure (some (⟨m, [], []⟩, rest))) := by
  rw [leafPreParse_eq, namedMode_phases h]
  simp only [runPhases]
  rw [M.lift_ok_bind]
  have ht : labelTest cfg m t = true := (labelTest_iff _ _ _).2 hl
  have hcl : checkLabel cfg m (.ok .validNode) ⟨[], t :: rest⟩ = some
      ⟨[if t.pre == .none then m.getToken cfg t.name else t], rest⟩ := by
    rw [checkLabel_named (namedMode_isNamed h) (by simp) (by simp)]
    simp [tokenSeq, ht]
  simp only
  rw [leafTail_some hcl]
  simp [namedMode_isNamed h]

theorem mode_no_label {cfg : Config} {m : Node} (h : NamedMode m) (parents : List Node)
    (args : List Token) (validator : Validator) (hl : ∀ t ∈ args.head?, ¬ IsLabel cfg m t) :
    leafPreParse cfg m parents args none validator = pure none := by
  rw [leafPreParse_eq, namedMode_phases h]
  simp only [runPhases]
  rw [M.lift_ok_bind]
  simp only
  refine leafTail_none ?_
  rw [checkLabel_named (namedMode_isNamed h) (by simp) (by simp)]
  cases args with
  | nil => rfl
  | cons t rest =>
    have : labelTest cfg m t = false := by
      rw [← Bool.not_eq_true, labelTest_iff]; exact hl t rfl
    simp [tokenSeq, this]

theorem mode_declines {cfg : Config} {m : Node} (h : NamedMode m) (parents : List Node)
    (args : List Token) (validator : Validator) (hl : ∀ t ∈ args.head?, ¬ IsLabel cfg m t) :
    preParseMode cfg parents args validator m = pure none := by
  obtain ⟨k, u, hh, v, p, cs⟩ := m
  simp only [preParseMode]
  rw [if_neg (by simp [h.named]), mode_no_label h _ _ _ hl, M.pure_bind]

theorem childModes_skip {cfg : Config} {parents : List Node} {args : List Token}
    {validator : Validator} (cs ds : List Node)
    (h : ∀ t ∈ args.head?, ∀ d ∈ cs, d.kind = .mode → NamedMode d ∧ ¬ IsLabel cfg d t)
    (hne : args ≠ []) :
    preParseChildModes cfg parents args validator (cs ++ ds) =
      preParseChildModes cfg parents args validator ds := by
  induction cs with
  | nil => rfl
  | cons c cs ih =>
    obtain ⟨k, u, hh, v, p, xs⟩ := c
    rw [List.cons_append]
    simp only [preParseChildModes]
    have ih := ih fun t ht d hd => h t ht d (List.mem_cons_of_mem _ hd)
    by_cases hk : k = .mode
    · have hk' : (k == .mode) = true := by simp [hk]
      rw [if_pos hk']
      obtain ⟨t, ht⟩ : ∃ t, args.head? = some t := by
        cases args with
        | nil => exact absurd rfl hne
        | cons t _ => exact ⟨t, rfl⟩
      have h1 := h t ht _ List.mem_cons_self hk
      rw [mode_declines h1.1 _ _ _ fun t' ht' => by
        rw [Option.mem_def, ht] at ht'; cases ht'; exact h1.2, M.pure_bind, ih]
    · have hk' : (k == .mode) = false := by simp [hk]
      rw [hk', if_neg (by simp), ih]

theorem modeBody_some {cfg : Config} {m : Node} {parents : List Node} {args : List Token} {s : St} :
    ∀ s1, modeBody cfg m parents alwaysTrue args s ≠ (.ok none, s1) := by
  intro s1 h
  unfold modeBody at h
  simp only [alwaysTrue, M.pure_bind, Bool.not_true, Bool.false_eq_true, if_false, M.bind_eq_ok,
    M.pure_apply, Prod.mk.injEq, Out.ok.injEq, reduceCtorEq, false_and, and_false, exists_false] at h

/-- The same for all arguments that may follow. -/
theorem path_parents {cfg : Config} {m deep : Node} {names : List Token}
    (hpath : ModePath cfg m names deep) :
    ∀ parents, ∃ parents', ∀ rest, NoSubMode cfg deep rest →
      preParseMode cfg parents (names ++ rest) alwaysTrue m =
        modeBody cfg deep parents' alwaysTrue rest := by
  induction hpath with
  | @here m t hm hl =>
    intro parents
    refine ⟨parents, fun rest hrest => ?_⟩
    have hlab := mode_label hm parents t rest alwaysTrue hl
    obtain ⟨k, u, hh, v, p, cs⟩ := m
    rw [List.singleton_append]
    simp only [preParseMode]
    rw [if_neg (by simp [hm.named]), hlab]
    simp only [guarded, alwaysTrue, M.pure_bind, if_true]
    cases rest with
    | nil => simp
    | cons x xs =>
      simp only [List.isEmpty_cons, Bool.false_eq_true, if_false]
      have := childModes_skip (cfg := cfg) (parents := .mk k u hh v p cs :: parents)
        (validator := alwaysTrue) cs [] hrest (by simp : x :: xs ≠ [])
      rw [List.append_nil] at this
      rw [this]
      simp only [preParseChildModes, M.pure_bind]
  | @down m c deep t u ts before after hm hl hc hck hbef hp ih =>
    intro parents
    obtain ⟨parents', hih⟩ := ih (m :: parents)
    refine ⟨parents', fun rest hrest => ?_⟩
    have hih := hih rest hrest
    have hlab := mode_label hm parents t (u :: ts ++ rest) alwaysTrue hl
    obtain ⟨k, u', hh, v, p, cs⟩ := m
    simp only [Node.children] at hc
    subst hc
    rw [List.cons_append]
    simp only [preParseMode]
    rw [if_neg (by simp [hm.named]), hlab]
    simp only [guarded, alwaysTrue, M.pure_bind, Bool.false_eq_true, if_false,
      if_true, List.cons_append, List.isEmpty_cons]
    rw [childModes_skip (cfg := cfg) before (c :: after) (by
      intro x hx d hd hdk
      simp only [List.head?_cons, Option.mem_def, Option.some.injEq] at hx
      subst hx
      exact hbef d hd hdk) (by simp)]
    obtain ⟨ck, cu, ch, cv, cp, ccs⟩ := c
    simp only [Node.kind] at hck
    subst hck
    simp only [preParseChildModes, beq_self_eq_true, if_true]
    rw [List.cons_append] at hih
    rw [hih]
    funext s
    simp only [M.bind_apply]
    match hx : modeBody cfg deep parents' alwaysTrue rest s with
    | (.ok none, s1) => exact absurd hx (modeBody_some s1)
    | (.ok (some r), s1) => rfl
    | (.throw e, s1) => rfl
    | (.foreign, s1) => rfl
    | (.ub, s1) => rfl
    | (.diverge, s1) => rfl

/-- C32: names that lead down to a nested mode, and arguments whose first is not the name of a mode
nested in that one: the nested mode handles them. -/
theorem C32_path (cfg : Config) (m deep : Node) (names rest : List Token)
    (hpath : ModePath cfg m names deep) (hrest : NoSubMode cfg deep rest) :
    ∀ parents, ∃ parents', preParseMode cfg parents (names ++ rest) alwaysTrue m =
      modeBody cfg deep parents' alwaysTrue rest := fun parents =>
  (path_parents hpath parents).imp fun _ h => h rest hrest

theorem modeBody_node {cfg : Config} {m : Node} {parents : List Node} {args : List Token} {s s' : St}
    {t : Target} {rest : List Token}
    (h : modeBody cfg m parents alwaysTrue args s = (.ok (some (t, rest)), s')) :
    t.node = m ∧ rest = [] := by
  unfold modeBody at h
  simp only [alwaysTrue, M.pure_bind, Bool.not_true, Bool.false_eq_true, if_false, M.bind_eq_ok,
    M.pure_apply, Prod.mk.injEq, Out.ok.injEq, Option.some.injEq] at h
  obtain ⟨r, s1, h1, rfl, -⟩ := h
  obtain ⟨h2, h3, -⟩ := modeLoop_spec _ _ _ _ _ _ _ _ _ _ _ h1
  exact ⟨h3, h2⟩

/-- C32 for the whole program: a parse of a command line that starts with the names of nested modes
succeeds only by calling the router of the deepest of them. -/
theorem C32_routed (cfg : Config) (root m deep : Node) (before after : List Node)
    (names rest : List Bytes) (s s1 s' : St)
    (hroot : root.children = before ++ m :: after)
    (hdec : Declined cfg root ((names ++ rest).map (Token.mk .none)) before s s1)
    (hpath : ModePath cfg m (names.map (Token.mk .none)) deep)
    (hrest : NoSubMode cfg deep (rest.map (Token.mk .none)))
    (h : parseArgs cfg root (names ++ rest) s = (.ok (), s')) :
    ∃ values, RoutedWith deep s' values := by
  have hmk : m.kind = .mode := by
    generalize names.map (Token.mk .none) = ns at hpath
    cases hpath with
    | here hm _ => exact hm.kind
    | down hm _ _ _ _ _ => exact hm.kind
  have hdk : deep.kind = .mode := by
    clear h hdec hroot hmk hrest
    generalize names.map (Token.mk .none) = ns at hpath
    induction hpath with
    | here hm _ => exact hm.kind
    | down _ _ _ _ _ _ ih => exact ih
  obtain ⟨ps, hp⟩ := C32_path cfg m deep _ _ hpath hrest [root]
  unfold parseArgs rootParse at h
  simp only [M.bind_eq_ok] at h
  obtain ⟨ok, s2, h1, h2⟩ := h
  rw [hroot, rootLoop_declined hdec, rootLoop, offerTo, if_pos (by simp [hmk]), List.map_append, hp,
    M.bind_apply] at h1
  match hx : modeBody cfg deep ps alwaysTrue (rest.map (Token.mk .none)) s1 with
  | (.ok none, s3) => exact absurd hx (modeBody_some s3)
  | (.ok (some (t, l)), s3) =>
    obtain ⟨rfl, rfl⟩ := modeBody_node hx
    rw [hx] at h1
    simp only [List.isEmpty_nil, Bool.not_true, Bool.false_eq_true, if_false, M.bind_eq_ok,
      M.pure_apply, Prod.mk.injEq, Out.ok.injEq] at h1
    obtain ⟨⟨⟩, s4, h4, rfl, rfl⟩ := h1
    simp only [if_true, M.pure_apply, Prod.mk.injEq, true_and] at h2
    subst h2
    unfold runTarget at h4
    rw [if_pos (by simp [hdk])] at h4
    obtain ⟨-, args, h5, -⟩ := parseMode_args h4
    exact ⟨args, h5⟩
  | (.throw e, s3) => rw [hx] at h1; simp at h1
  | (.foreign, s3) => rw [hx] at h1; simp at h1
  | (.ub, s3) => rw [hx] at h1; simp at h1
  | (.diverge, s3) => rw [hx] at h1; simp at h1

/-! ## Concrete cases -/

def addMode : Node := mkMode 73 73 [.router, .noneName (b "add")] [toolFlag, toolOut]
def dropMode : Node := mkMode 74 74 [.router, .noneName (b "drop")] [toolFlag]
def remoteMode : Node := mkMode 72 72 [.router, .noneName (b "remote")] [dropMode, toolFlag, addMode]
def listMode : Node := mkMode 75 75 [.router, .noneName (b "list")] [toolFlag]
def gitRoot : Node := mkRoot 71 71 [listMode, remoteMode]

theorem add_named : NamedMode addMode := ⟨rfl, rfl, .refl _⟩
theorem drop_named : NamedMode dropMode := ⟨rfl, rfl, .refl _⟩
theorem remote_named : NamedMode remoteMode := ⟨rfl, rfl, .refl _⟩
theorem list_named : NamedMode listMode := ⟨rfl, rfl, .refl _⟩

/-- C32: a path through nested modes. -/
theorem add_path : ModePath .default remoteMode ([b "remote", b "add"].map (Token.mk .none)) addMode := by
  refine .down remote_named ((labelTest_iff _ _ _).1 (by decide +kernel))
    (before := [dropMode, toolFlag]) (after := []) rfl rfl ?_
    (.here add_named ((labelTest_iff _ _ _).1 (by decide +kernel)))
  intro d hd hk
  simp only [List.mem_cons, List.not_mem_nil, or_false] at hd
  rcases hd with rfl | rfl
  · exact ⟨drop_named, fun h => absurd ((labelTest_iff _ _ _).2 h) (by decide +kernel)⟩
  · cases hk

/-- C28, C32: the first child declines this command line, and the second handles it. -/
example : Declined .default gitRoot ([b "remote", b "add", b "--out", b "5"].map (Token.mk .none))
    [listMode] .fresh .fresh :=
  .cons (by
    show preParseMode _ _ _ _ _ _ = _
    rw [mode_declines list_named _ _ _ (by
      intro t ht
      cases ht
      exact fun h => absurd ((labelTest_iff _ _ _).2 h) (by decide +kernel))]
    rfl) (.nil _)

example : parseArgs .default gitRoot [b "remote", b "add", b "--out", b "5"] .fresh =
    (.ok (), ⟨[], [⟨73, [.one (.bool false), .one (.int 5)]⟩]⟩) := by decide +kernel

example : NoSubMode .default addMode ([b "--out", b "5"].map (Token.mk .none)) := by
  intro t _ d hd hk
  replace hd : d ∈ [toolFlag, toolOut] := hd
  simp only [List.mem_cons, List.not_mem_nil, or_false] at hd
  rcases hd with rfl | rfl <;> cases hk

/-- C29: an argument nobody knows, with and without a suggestion. -/
example : parseArgs .default gitRoot [b "remove", b "add"] .fresh =
    (.throw ⟨.unknown_argument_with_suggestion, [⟨.none, b "remove"⟩, ⟨.none, b "remote"⟩]⟩,
      .fresh) := by decide +kernel

example : Declined .default gitRoot [] gitRoot.children .fresh .fresh := by
  refine .cons (s1 := .fresh) ?_ (.cons (s1 := .fresh) ?_ (.nil _))
  · show preParseMode _ _ _ _ _ _ = _
    rw [mode_declines list_named _ _ _ (by intro t ht; cases ht)]
    rfl
  · show preParseMode _ _ _ _ _ _ = _
    rw [mode_declines remote_named _ _ _ (by intro t ht; cases ht)]
    rfl

/-- C28: a flag directly below the root leaves the second argument over. -/
example : parseArgs .default (mkRoot 76 76 [mkFlag .default 77 77 [.longName (b "x"), .router]])
    [b "--x", b "y"] .fresh = (.throw ⟨.unhandled_arguments, [⟨.none, b "y"⟩]⟩, .fresh) := by
  decide +kernel

/-- C29 in a mode: all children given, and not. -/
example : parseArgs .default (mkRoot 78 78 [mkMode 79 79 [.router] [toolFlag]]) [b "-a", b "y", b "z"]
      .fresh = (.throw ⟨.unhandled_arguments, [⟨.none, b "y"⟩, ⟨.none, b "z"⟩]⟩, .fresh) ∧
    parseArgs .default toolRoot [b "-a", b "y", b "z"] .fresh =
      (.throw ⟨.unknown_argument_with_suggestion, [⟨.none, b "y"⟩, ⟨.short, b "a"⟩]⟩, .fresh) := by
  decide +kernel

example : ∀ c ∈ toolMode.children, (∃ k, FixedCount .default c k) ∧ NotFor .default c ⟨.none, b "y"⟩ := by
  intro c hc
  replace hc : c ∈ [toolFlag, toolVerbose, toolNum, toolOut] := hc
  simp only [List.mem_cons, List.not_mem_nil, or_false] at hc
  rcases hc with rfl | rfl | rfl | rfl
  · exact ⟨⟨_, toolFlag_fixed⟩, notFor_of_test (by decide +kernel)⟩
  · exact ⟨⟨_, toolVerbose_fixed⟩, notFor_of_test (by decide +kernel)⟩
  · exact ⟨⟨_, toolNum_fixed⟩, notFor_of_test (by decide +kernel)⟩
  · exact ⟨⟨_, toolOut_fixed⟩, notFor_of_test (by decide +kernel)⟩

end Props

end ArgRouter
