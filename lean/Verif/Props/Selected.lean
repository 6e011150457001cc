import Verif.Props.Calls
import Verif.Props.Enable
import Verif.Props.Linked
import Verif.Lemmas.Blame
import Verif.Spec.Selected

/-!
# C11, C20, C21 and C77 for whole programs: what a command line can select
-/

namespace ArgRouter

open Spec

namespace Props

/-! ## Where the uses come from -/

theorem phase_sub_named {cfg : Config} {n : Node} {parents : List Node}
    {processed : Option Target} {p : Policy} {a a' : Adapter} {subs subs' : List Leaf}
    {r : PreResult} (h : p.phase cfg n parents processed a subs = .ok (r, a', subs')) :
    ∀ l ∈ subs', l ∈ subs ∨ ∃ refs, p = .alias refs ∧ NamedIn refs l.node := by
  by_cases hp : ∃ refs, p = .alias refs
  · obtain ⟨refs, rfl⟩ := hp
    simp only [Policy.phase, aliasPhase] at h
    split at h
    · rename_i count _ mode _ hmode
      split at h
      · simp only [Out.ok.injEq, Prod.mk.injEq] at h
        obtain ⟨-, -, rfl⟩ := h
        exact fun l hl => .inl hl
      · simp only [Out.bind_eq_ok] at h
        obtain ⟨label, -, h⟩ := h
        generalize (if label.pre == .none then n.getToken cfg label.name else label) = tt at h
        split at h
        · simp only [Out.pure_eq, Out.ok.injEq, Prod.mk.injEq] at h
          obtain ⟨-, -, rfl⟩ := h
          exact fun l hl => .inl hl
        · simp only [Out.pure_eq, Out.ok.injEq, Prod.mk.injEq] at h
          obtain ⟨-, -, rfl⟩ := h
          intro l hl
          rcases List.mem_append.1 hl with hl | hl
          · exact .inl hl
          · simp only [List.mem_map, List.mem_filter] at hl
            obtain ⟨x, ⟨-, hx⟩, rfl⟩ := hl
            refine .inr ⟨refs, rfl, ?_⟩
            obtain ⟨y, hy, hy2⟩ := List.any_eq_true.1 hx
            exact ⟨y, hy, by simpa using hy2⟩
    · cases h
  · have := phase_no_alias (fun refs hr => hp ⟨refs, hr⟩) h
    intro l hl
    rw [this] at hl
    exact .inl hl

theorem runPhases_sub_named {cfg : Config} {n : Node} {parents : List Node}
    {processed : Option Target} (ps : List Policy)
    {m r : PreResult} {a a' : Adapter} {subs subs' : List Leaf}
    (h : runPhases cfg n parents processed ps m a subs = .ok (r, a', subs')) :
    ∀ l ∈ subs', l ∈ subs ∨ ∃ refs, .alias refs ∈ ps ∧ NamedIn refs l.node := by
  induction ps generalizing m a subs with
  | nil =>
    simp only [runPhases, Out.ok.injEq, Prod.mk.injEq] at h
    obtain ⟨-, -, rfl⟩ := h
    exact fun l hl => .inl hl
  | cons p ps ih =>
    have later : ∀ {x : Node}, (∃ refs, .alias refs ∈ ps ∧ NamedIn refs x) →
        ∃ refs, .alias refs ∈ p :: ps ∧ NamedIn refs x :=
      fun ⟨refs, h1, h2⟩ => ⟨refs, List.mem_cons_of_mem _ h1, h2⟩
    have step : ∀ {m1 m2 a1 s1}, p.phase cfg n parents processed a subs = .ok (m1, a1, s1) →
        runPhases cfg n parents processed ps m2 a1 s1 = .ok (r, a', subs') →
        ∀ l ∈ subs', l ∈ subs ∨ ∃ refs, .alias refs ∈ p :: ps ∧ NamedIn refs l.node := by
      intro m1 m2 a1 s1 h1 h2 l hl
      rcases ih h2 l hl with h3 | h3
      · rcases phase_sub_named h1 l h3 with h4 | ⟨refs, rfl, h4⟩
        · exact .inl h4
        · exact .inr ⟨refs, List.mem_cons_self, h4⟩
      · exact .inr (later h3)
    simp only [runPhases] at h
    split at h
    · match m with
      | .error e =>
        simp only [Out.ok.injEq, Prod.mk.injEq] at h
        obtain ⟨-, -, rfl⟩ := h
        exact fun l hl => .inl hl
      | .ok .skipNode =>
        simp only [Out.ok.injEq, Prod.mk.injEq] at h
        obtain ⟨-, -, rfl⟩ := h
        exact fun l hl => .inl hl
      | .ok .validNode =>
        simp only [Out.bind_eq_ok, Prod.exists] at h
        obtain ⟨m1, a1, s1, h1, h2⟩ := h
        exact step h1 h2
      | .ok .skipNodeButUseSubTargets =>
        simp only [Out.bind_eq_ok, Prod.exists] at h
        obtain ⟨m1, a1, s1, h1, h2⟩ := h
        exact step h1 h2
    · intro l hl
      rcases ih h l hl with h3 | h3
      · exact .inl h3
      · exact .inr (later h3)

theorem leaf_sub_named {cfg : Config} {n : Node} {parents : List Node} {args : List Token}
    {processed : Option Target} {validator : Validator} {s s' : St} {r : Target × List Token}
    (h : leafPreParse cfg n parents args processed validator s = (.ok (some r), s')) :
    ∀ l ∈ r.1.subs, ∃ refs, .alias refs ∈ n.policies ∧ NamedIn refs l.node := by
  simp only [leafPreParse, M.bind_eq_ok, M.lift_apply, Prod.exists, Prod.mk.injEq] at h
  obtain ⟨m, a, subs, s1, ⟨h1, rfl⟩, h2⟩ := h
  have hsubs := runPhases_sub_named _ h1
  cases hc : checkLabel cfg n m a with
  | none => rw [hc] at h2; simp at h2
  | some a' =>
    rw [hc] at h2
    simp only [M.bind_eq_ok] at h2
    obtain ⟨ok, s2, h3', h3⟩ := h2
    cases ok
    · simp at h3
    · cases m with
      | error e => simp at h3
      | ok act =>
        simp only [Bool.not_true, Bool.false_eq_true, if_false, M.pure_apply, Prod.mk.injEq,
          Out.ok.injEq, Option.some.injEq] at h3
        obtain ⟨rfl, rfl⟩ := h3
        intro l hl
        rcases hsubs l hl with h4 | ⟨refs, h4, h5⟩
        · cases h4
        · exact ⟨refs, mem_sortPolicies.1 h4, h5⟩

/-- The uses a mode recognises are of arguments that can be selected in it. -/
theorem modeLoop_selectable (cfg : Config) (mode : Node) (parents : List Node) (fuel : Nat)
    (hro : mode.hasRouter = true) :
    ∀ (target : Target) (matched : List Bool) (args rest : List Token) (t : Target) (s s' : St),
      modeLoop cfg mode parents fuel target matched args s = (.ok (t, rest), s') →
      ∀ l ∈ t.subs, l ∈ target.subs ∨ Selectable mode l.node := by
  induction fuel with
  | zero =>
    intro target matched args rest t s s' h
    cases args with
    | nil =>
      simp only [modeLoop, M.pure_apply, Prod.mk.injEq, Out.ok.injEq] at h
      obtain ⟨⟨rfl, rfl⟩, -⟩ := h
      exact fun l hl => .inl hl
    | cons x xs => simp [modeLoop] at h
  | succ fuel ih =>
    intro target matched args rest t s s' h
    cases args with
    | nil =>
      simp only [modeLoop, M.pure_apply, Prod.mk.injEq, Out.ok.injEq] at h
      obtain ⟨⟨rfl, rfl⟩, -⟩ := h
      exact fun l hl => .inl hl
    | cons front more =>
      rw [modeLoop, M.bind_eq_ok] at h
      obtain ⟨o, s1, h1, h2⟩ := h
      cases o with
      | none =>
        simp only at h2
        split at h2
        · simp [M.throw] at h2
        · simp only [M.lift_apply, Prod.mk.injEq] at h2
          exact absurd h2.1 (unknownArgument_ne_ok _ _ _ _)
      | some x =>
        obtain ⟨i, t1, args'⟩ := x
        intro l hl
        rcases ih _ _ _ _ _ _ _ h2 l hl with h5 | h5
        · rcases List.mem_append.1 h5 with h6 | h6
          · exact .inl h6
          · right
            obtain ⟨k, c, s2, hi, hc, hk, hm⟩ := modeStep_index _ _ h1
            have hen := preParse_enabled _ _ _ _ _ _ _ _ _ hm
            obtain ⟨m, hmem, hg, ⟨v, s2, s3, hlf⟩, s4, s5, hv⟩ := match_leaf _ _ _ _ hm
            have hcm := List.mem_of_getElem? hc
            have hmm := child_mem_nodes hcm m hmem
            have hn := (leafPreParse_node hlf).1
            simp only at hn
            rw [hn] at hen
            unfold flattenMatch at h6
            split at h6
            · simp only [List.mem_singleton] at h6
              subst h6
              rw [hn]
              exact .inl ⟨⟨c, hcm, hk, hmem⟩, hen⟩
            · obtain ⟨m', h7, h8⟩ := leaf_sub_nodes hlf l h6
              obtain ⟨refs, h9, h10⟩ := leaf_sub_named hlf l h6
              refine .inr ⟨m, refs, ⟨c, hcm, hk, hmem⟩, hen, h9, h10, ?_⟩
              rw [nearestModeLike, List.find?_cons] at h7
              split at h7
              · cases h7
                exact nodes_trans _ _ hmm _ h8
              · rw [List.find?_cons, hro] at h7
                cases h7
                exact h8
        · exact .inr h5

theorem modeBody_selectable {cfg : Config} {mode : Node} {parents : List Node}
    {args rest : List Token} {validator : Validator} {t : Target} {s s' : St}
    (h : modeBody cfg mode parents validator args s = (.ok (some (t, rest)), s')) :
    t.node = mode ∧ (mode.hasRouter = true → ∀ l ∈ t.subs, Selectable mode l.node) := by
  refine ⟨(modeBody_spec h).2.1, fun hro => ?_⟩
  rw [modeBody, M.bind_eq_ok] at h
  obtain ⟨ok, s1, -, h2⟩ := h
  split at h2
  · simp at h2
  · simp only [M.bind_eq_ok, M.pure_apply, Prod.mk.injEq, Out.ok.injEq, Option.some.injEq] at h2
    obtain ⟨⟨t', r'⟩, s2, h3, h4, rfl⟩ := h2
    cases h4
    intro l hl
    rcases modeLoop_selectable _ _ _ _ hro _ _ _ _ _ _ _ h3 l hl with h | h
    · cases h
    · exact h

mutual
theorem preParseMode_reached (cfg : Config) (validator : Validator) :
    ∀ (n : Node) (parents : List Node) (args rest : List Token) (t : Target) (s s' : St),
    n.kind = .mode → preParseMode cfg parents args validator n s = (.ok (some (t, rest)), s') →
    Reached n t.node ∧ (t.node.hasRouter = true → ∀ l ∈ t.subs, Selectable t.node l.node)
  | .mk k u h v p cs, parents, args, rest, t, s, s', hk, hm => by
    have hoff : ¬ NamedButOff (.mk k u h v p cs) := fun ho =>
      C11_mode_partial _ _ _ _ _ _ _ _ ho.1 ho.2 hm
    have body : ∀ {args s}, modeBody cfg (.mk k u h v p cs) parents validator args s =
        (.ok (some (t, rest)), s') → Reached (.mk k u h v p cs) t.node ∧
          (t.node.hasRouter = true → ∀ l ∈ t.subs, Selectable t.node l.node) := by
      intro args s h1
      obtain ⟨e1, e2⟩ := modeBody_selectable h1
      rw [e1]
      exact ⟨.here hk hoff, e2⟩
    rw [preParseMode] at hm
    split at hm
    · exact body hm
    · rw [M.bind_eq_ok] at hm
      obtain ⟨o, s1, -, h2⟩ := hm
      cases o with
      | none => simp at h2
      | some x =>
        obtain ⟨t1, args'⟩ := x
        simp only at h2
        split at h2
        · exact body h2
        · rw [M.bind_eq_ok] at h2
          obtain ⟨o, s2, h3, h4⟩ := h2
          cases o with
          | none => exact body h4
          | some y =>
            simp only [M.pure_apply, Prod.mk.injEq, Out.ok.injEq, Option.some.injEq] at h4
            obtain ⟨rfl, rfl⟩ := h4
            obtain ⟨⟨c, hc, hr⟩, e4⟩ := preParseChildModes_reached cfg validator cs _ _ _ _ _ _ h3
            exact ⟨.inside hk hoff hc hr, e4⟩
theorem preParseChildModes_reached (cfg : Config) (validator : Validator) :
    ∀ (ns : List Node) (parents : List Node) (args rest : List Token) (t : Target) (s s' : St),
    preParseChildModes cfg parents args validator ns s = (.ok (some (t, rest)), s') →
    (∃ c ∈ ns, Reached c t.node) ∧
      (t.node.hasRouter = true → ∀ l ∈ t.subs, Selectable t.node l.node)
  | [], _, _, _, _, _, _, h => by simp [preParseChildModes] at h
  | .mk k u hh v p cs :: ns, parents, args, rest, t, s, s', h => by
    have later : ∀ {s1}, preParseChildModes cfg parents args validator ns s1 =
        (.ok (some (t, rest)), s') → (∃ c ∈ .mk k u hh v p cs :: ns, Reached c t.node) ∧
          (t.node.hasRouter = true → ∀ l ∈ t.subs, Selectable t.node l.node) := by
      intro s1 h1
      obtain ⟨⟨c, hc, e2⟩, e4⟩ := preParseChildModes_reached cfg validator ns _ _ _ _ _ _ h1
      exact ⟨⟨c, List.mem_cons_of_mem _ hc, e2⟩, e4⟩
    rw [preParseChildModes] at h
    split at h
    · rename_i hk
      have hk : k = .mode := by simpa using hk
      rw [M.bind_eq_ok] at h
      obtain ⟨o, s1, h1, h2⟩ := h
      cases o with
      | none => exact later h2
      | some y =>
        simp only [M.pure_apply, Prod.mk.injEq, Out.ok.injEq, Option.some.injEq] at h2
        obtain ⟨rfl, rfl⟩ := h2
        obtain ⟨e1, e2⟩ := preParseMode_reached cfg validator (.mk k u hh v p cs) _ _ _ _ _ _ hk h1
        exact ⟨⟨_, List.mem_cons_self, e1⟩, e2⟩
    · exact later h
end

/-! ## Whole programs -/

/-- A parse that succeeds ran one child of root, found in a state with the calls made so far. -/
theorem parse_ran {cfg : Config} {root : Node} {argv : List Bytes} {s s' : St}
    (h : parseArgs cfg root argv s = (.ok (), s')) :
    ∃ c ∈ root.children, ∃ t s0 s1, s1.calls = s.calls ∧
      offerTo cfg root (argv.map (Token.mk .none)) c s0 = (.ok (some (t, [])), s1) ∧
      runTarget t s1 = (.ok (), s') := by
  unfold parseArgs rootParse at h
  rw [M.bind_eq_ok] at h
  obtain ⟨done, s2, h1, h2⟩ := h
  have main : ∀ (cs : List Node) (s : St), rootLoop cfg root (argv.map (Token.mk .none)) cs s =
      (.ok true, s2) → ∃ c ∈ cs, ∃ t s0 s1, s1.calls = s.calls ∧
      offerTo cfg root (argv.map (Token.mk .none)) c s0 = (.ok (some (t, [])), s1) ∧
      runTarget t s1 = (.ok (), s2) := by
    intro cs
    induction cs with
    | nil => intro s h; simp [rootLoop] at h
    | cons c cs ih =>
      intro s h
      rw [rootLoop, M.bind_eq_ok] at h
      obtain ⟨o, s3, h3, h4⟩ := h
      have hq := quiet_offerTo cfg root (argv.map (Token.mk .none)) c s
      rw [h3] at hq
      simp only at hq
      cases o with
      | none =>
        obtain ⟨d, hd, t, s0, s1, e1, e2⟩ := ih s3 h4
        exact ⟨d, List.mem_cons_of_mem _ hd, t, s0, s1, e1.trans hq, e2⟩
      | some x =>
        obtain ⟨t, rest⟩ := x
        simp only at h4
        split at h4
        · simp [M.throw] at h4
        · rename_i hrest
          have hrest : rest = [] := by simpa using hrest
          subst hrest
          rw [M.bind_eq_ok] at h4
          obtain ⟨u, s4, h5, h6⟩ := h4
          simp only [M.pure_apply, Prod.mk.injEq] at h6
          obtain ⟨-, rfl⟩ := h6
          exact ⟨c, List.mem_cons_self, t, s, s3, hq, h3, h5⟩
  cases done
  · simp only [Bool.false_eq_true, if_false] at h2
    split at h2
    · simp [M.throw] at h2
    · simp only [M.lift_apply, Prod.mk.injEq] at h2
      exact absurd h2.1 (unknownArgument_ne_ok _ _ _ _)
  · simp only [if_true, M.pure_apply, Prod.mk.injEq] at h2
    obtain ⟨-, rfl⟩ := h2
    exact main root.children s h1

/-- A parse that succeeds either ran an argument of the program itself that is not switched off, or
a mode that was reached, with uses of arguments that can be selected in it. -/
theorem program_ran {cfg : Config} {root : Node} {argv : List Bytes} {s s' : St}
    (hr : RoutersOnTop root)
    (hflat : ∀ c ∈ root.children, c.kind ≠ .mode → ∀ x ∈ c.nodes, x.kind ≠ .mode)
    (h : parseArgs cfg root argv s = (.ok (), s')) :
    (∃ calls, HandledOnTop root argv calls ∧ s'.calls = s.calls ++ calls) ∨
    ∃ c ∈ root.children, ∃ mode uses s1, Reached c mode ∧ s1.calls = s.calls ∧
      parseMode mode uses s1 = (.ok (), s') ∧
      (∃ call, s'.calls = s.calls ++ [call]) ∧
      ∀ l ∈ uses, Selectable mode l.node ∧ l.node.kind ≠ .help ∧ ∀ t ∈ l.tokens, Typed argv t := by
  obtain ⟨c, hc, t, s0, s1, hcalls, hoff, hrun⟩ := parse_ran h
  have hty : ∀ x ∈ argv.map (Token.mk .none), Typed argv x := by
    intro x hx
    obtain ⟨a, ha, rfl⟩ := List.mem_map.1 hx
    exact ⟨a, ha, List.infix_refl _⟩
  have hgood : GoodFind root argv (some (t, [])) := by
    have hroot := self_mem_nodes root
    have hcn := child_mem_nodes hc _ (self_mem_nodes _)
    have htrue : GoodValidator root argv alwaysTrue := fun _ => FaultsM.pure trivial
    have : FaultsM (Blames root argv) (GoodFind root argv)
        (offerTo cfg root (argv.map (Token.mk .none)) c) := by
      unfold offerTo
      split
      · exact preParseMode_faults htrue c _ _ hcn (by simp [hroot]) hty
      · exact preParse_faults (by simp [hroot]) hty c _ hcn htrue
    have := this s0
    rw [hoff] at this
    exact this.2 _ rfl
  obtain ⟨hgt, hgood, -⟩ := hgood _ _ rfl
  by_cases hk : c.kind = .mode
  · right
    obtain ⟨htk, hsil⟩ := subs_silent hr hc hk hoff
    unfold offerTo at hoff
    rw [if_pos (by simp [hk])] at hoff
    obtain ⟨e1, e2⟩ := preParseMode_reached _ _ _ _ _ _ _ _ _ hk hoff
    unfold runTarget at hrun
    rw [if_pos (by simp [htk])] at hrun
    have hro : t.node.hasRouter = true := ((parseMode_iff _ _ _ _).1 hrun).1
    refine ⟨c, hc, t.node, t.subs, s1, e1, hcalls, hrun, ?_, ?_⟩
    · rcases oneCall_parseMode t.node t.subs hsil s1 with ⟨a, s2, call, e3, e4⟩ | ⟨e3, -⟩
      · rw [hrun] at e3
        simp only [Prod.mk.injEq] at e3
        obtain ⟨-, rfl⟩ := e3
        exact ⟨call, by rw [e4, hcalls]⟩
      · rw [hrun] at e3
        exact absurd rfl (e3 ())
    · intro l hl
      refine ⟨e2 hro l hl, ?_, (hgood l hl).2⟩
      intro hh
      exact (hsil l hl (by rw [hh]; simp)).2 hh
  · left
    unfold offerTo at hoff
    rw [if_neg (by simp [hk])] at hoff
    have hen := preParse_enabled _ _ _ _ _ _ _ _ _ hoff
    obtain ⟨m, hm, -, ⟨v, s2, s3, hlf⟩, -⟩ := match_leaf _ _ _ _ hoff
    have hn : t.node = m := (leafPreParse_node hlf).1
    simp only at hen
    have hmk : t.node.kind ≠ .mode := by rw [hn]; exact hflat c hc hk m hm
    unfold runTarget at hrun
    rw [if_neg (by simp [hmk]), M.bind_eq_ok] at hrun
    obtain ⟨o, s4, h1, h2⟩ := hrun
    simp only [M.pure_apply, Prod.mk.injEq] at h2
    obtain ⟨-, rfl⟩ := h2
    rw [parseLeaf_apply] at h1
    cases hv : leafValue ⟨t.node, t.tokens⟩ with
    | ok v =>
      rw [hv] at h1
      simp only [Prod.mk.injEq] at h1
      obtain ⟨-, rfl⟩ := h1
      refine ⟨leafCalls ⟨t.node, t.tokens⟩ v, ⟨c, hc, hk, t.node, by rw [hn]; exact hm, hen, ?_⟩,
        by simp [hcalls]⟩
      have hsome : t.node.kind ≠ .help → ∃ w, v = some w := by
        intro hh
        cases v with
        | some w => exact ⟨w, rfl⟩
        | none => exact absurd (leafValue_none hv) hh
      by_cases hh : t.node.kind = .help
      · simp only [leafCalls, hh]
        split
        · rename_i text _
          exact .inr (.inl ⟨trivial, text, rfl⟩)
        · exact .inl rfl
      · obtain ⟨w, rfl⟩ := hsome hh
        have hu := leafValue_spec hv
        have : leafCalls ⟨t.node, t.tokens⟩ (some w) = [] ∨
            leafCalls ⟨t.node, t.tokens⟩ (some w) = [⟨t.node.uid, [w]⟩] := by
          simp only [leafCalls]
          split
          · simp
          · rename_i h3; exact absurd h3 hh
          · split <;> simp
        rcases this with h3 | h3
        · exact .inl h3
        · exact .inr (.inr ⟨_, w, rfl, hgt.2, hu.1, hu.2, h3⟩)
    | throw e => rw [hv] at h1; cases h1
    | foreign => rw [hv] at h1; cases h1
    | ub => rw [hv] at h1; cases h1
    | diverge => rw [hv] at h1; cases h1

/-- C20 and C21 for whole programs: if a program accepts a command line, then an argument of the program
itself handled it, or it reached a mode whose router was called, once, with a value for each child that
has one, in the order of declaration. Unless the child's uses are merged, the value is its fallback or
comes from the command line, and it comes from the command line if the child must be given. -/
theorem C20_program (cfg : Config) (root : Node) (argv : List Bytes) (s s' : St)
    (hr : RoutersOnTop root)
    (hflat : ∀ c ∈ root.children, c.kind ≠ .mode → ∀ x ∈ c.nodes, x.kind ≠ .mode)
    (h : parseArgs cfg root argv s = (.ok (), s')) :
    (∃ calls, HandledOnTop root argv calls ∧ s'.calls = s.calls ++ calls) ∨
    ∃ c ∈ root.children, ∃ mode vals, Reached c mode ∧
      s'.calls = s.calls ++ [⟨mode.uid, vals⟩] ∧ vals.length = parameters mode.children ∧
      ∀ (i : Nat) (c : Node), mode.children[i]? = some c → c.hasNoResult = false →
        (∀ n ∈ c.nodes, n.isMultiStage = false) →
        ∃ v, vals[position mode.children i]? = some v ∧ Sourced argv mode i c v ∧
          (MustBeGiven c → ¬ Fallback c v) := by
  rcases program_ran hr hflat h with h1 | ⟨c, hc, mode, uses, s1, h1, h2, h3, ⟨call, h4⟩, h5⟩
  · exact .inl h1
  · right
    obtain ⟨vals, g1, g2, g3⟩ := router_arguments (fun l hl => (h5 l hl).2.1) h3
    have hcall : call = ⟨mode.uid, vals⟩ := by
      rw [RoutedWith, h4] at g1
      simpa using g1
    subst hcall
    refine ⟨c, hc, mode, vals, h1, h4, g2, ?_⟩
    intro i d hd hn hs
    obtain ⟨v, e1, e2⟩ := g3 i d hd hn hs
    refine ⟨v, e1, ?_, fun hm hf => hf.1 hm⟩
    rcases e2 with ⟨-, e2⟩ | ⟨l, ⟨before, after, rfl, e3, -, -⟩, e4⟩
    · exact .inl e2
    · have := h5 l (by simp)
      exact .inr ⟨l, e3, this.1, this.2.2, e4⟩

/-- C11 for whole programs: the router of a mode gets the fallback of a child all of whose arguments
are switched off, whatever the command line, unless an alias stands for one of them. Arguments are told
apart by their type, so arguments of the same type elsewhere in the mode must be switched off too. The
same goes for arguments of the program itself: see `HandledOnTop` in `C20_program`. -/
theorem C11_program_partial (cfg : Config) (root : Node) (argv : List Bytes) (s s' : St)
    (hr : RoutersOnTop root)
    (hflat : ∀ c ∈ root.children, c.kind ≠ .mode → ∀ x ∈ c.nodes, x.kind ≠ .mode)
    (h : parseArgs cfg root argv s = (.ok (), s')) :
    (∃ calls, HandledOnTop root argv calls ∧ s'.calls = s.calls ++ calls) ∨
    ∃ c ∈ root.children, ∃ mode vals, Reached c mode ∧
      s'.calls = s.calls ++ [⟨mode.uid, vals⟩] ∧
      ∀ (i : Nat) (c : Node), mode.children[i]? = some c → c.hasNoResult = false →
        (∀ x ∈ mode.nodes, Contains c x.hash → Disabled x ∧
          ∀ a refs, ArgumentOf mode a → .alias refs ∈ a.policies → ¬ NamedIn refs x) →
        ∃ v, vals[position mode.children i]? = some v ∧ Fallback c v := by
  rcases program_ran hr hflat h with h1 | ⟨c, hc, mode, uses, s1, h1, h2, h3, ⟨call, h4⟩, h5⟩
  · exact .inl h1
  · right
    obtain ⟨hl, vals, g1, -, g3⟩ := parseMode_args h3
    have hcall : call = ⟨mode.uid, vals⟩ := by
      rw [RoutedWith, h4] at g1
      simpa using g1
    subst hcall
    refine ⟨c, hc, mode, vals, h1, h4, ?_⟩
    intro i d hd hn hoff
    obtain ⟨g, v, e1, e2, -, e4⟩ := g3 i d hd hn
    have hnot : NotGiven mode.children uses i := by
      intro l hlm hfor
      obtain ⟨⟨d', hd', hcon⟩, -⟩ := hfor
      rw [hd] at hd'
      cases hd'
      have hsel := (h5 l hlm).1
      have hmem : l.node ∈ mode.nodes := by
        rcases hsel with ⟨⟨x, hx, -, hx2⟩, -⟩ | ⟨a, refs, -, -, -, -, hx⟩
        · exact child_mem_nodes hx _ hx2
        · exact hx
      obtain ⟨o1, o2⟩ := hoff _ hmem hcon
      rcases hsel with ⟨-, hx⟩ | ⟨a, refs, hx1, -, hx2, hx3, -⟩
      · exact hx o1
      · exact o2 a refs hx1 hx2 hx3
    rw [(own_nil_iff hl (fun l hl => (h5 l hl).2.1) hd hn).2 hnot] at e1
    simp only [gather, Option.some.injEq] at e1
    subst e1
    simp only [fillOf, hn, Bool.false_eq_true, if_false, Out.bind_eq_ok, Out.pure_eq,
      Out.ok.injEq, Option.some.injEq] at e2
    obtain ⟨w, e2, rfl⟩ := e2
    exact ⟨w, e4, ((fallbackOf_ok _ _).1 e2).1⟩

/-- C77 for whole programs: the router of a mode that has a name and is switched off is never called,
if nothing else in the program is the same node. -/
theorem C77_program_partial (cfg : Config) (root : Node) (argv : List Bytes) (s s' : St)
    (hr : RoutersOnTop root)
    (hflat : ∀ c ∈ root.children, c.kind ≠ .mode → ∀ x ∈ c.nodes, x.kind ≠ .mode)
    (m : Node) (hid : ∀ x ∈ root.nodes, x.uid = m.uid → x = m) (hk : m.kind = .mode)
    (hoff : Disabled m) (hname : m.noneName.isSome = true)
    (h : parseArgs cfg root argv s = (.ok (), s')) :
    ∀ vals, s'.calls ≠ s.calls ++ [⟨m.uid, vals⟩] := by
  intro vals hcall
  rcases program_ran hr hflat h with ⟨calls, ⟨c, hc, hck, x, hx, -, h2⟩, h3⟩ |
    ⟨c, hc, mode, uses, s1, h1, h2, h3, ⟨call, h4⟩, h5⟩
  · have hxu : ∀ vals', calls = [⟨x.uid, vals'⟩] → False := by
      intro vals' he
      rw [h3, he] at hcall
      have hu : x.uid = m.uid := by simpa using congrArg (fun l => l.getLast?.map Call.node) hcall
      have := hid x (child_mem_nodes hc _ hx) hu
      subst this
      exact hflat c hc hck x hx hk
    rcases h2 with rfl | ⟨-, text, h2⟩ | ⟨l, v, -, -, -, -, h2⟩
    · rw [h3] at hcall; simp at hcall
    · exact hxu _ h2
    · exact hxu _ h2
  · obtain ⟨-, vals', g1, -, -⟩ := parseMode_args h3
    have hu : mode.uid = m.uid := by
      rw [RoutedWith, hcall] at g1
      simp at g1
      exact g1.1.symm
    have reach : ∀ {a n : Node}, Reached a n → ¬ NamedButOff n ∧ n ∈ a.nodes := by
      intro a n hr
      induction hr with
      | here _ h => exact ⟨h, self_mem_nodes _⟩
      | inside _ _ hc _ ih => exact ⟨ih.1, child_mem_nodes hc _ ih.2⟩
    obtain ⟨r1, r2⟩ := reach h1
    have := hid mode (child_mem_nodes hc _ r2) hu
    subst this
    exact r1 ⟨hoff, hname⟩

/-! ## An example -/

/-- An argument that is switched off and has a default. -/
def offLevel : Node := mkArg 61 61 textType
  [.longName (b "level"), .defaultValue (.one (.str (b "low"))), .runtimeEnable false]
/-- A mode with it and a flag. -/
def pickMode : Node := mkMode 62 62 [.router, .noneName (b "run")] [offLevel, plainForce]
/-- A mode that is switched off. -/
def idleMode : Node := mkMode 63 63 [.router, .noneName (b "idle"), .runtimeEnable false] [plainForce]
/-- A flag with a router. -/
def versionFlag : Node := mkFlag .default 64 64 [.longName (b "version"), .router]
def pickRoot : Node := mkRoot 65 65 [versionFlag, pickMode, idleMode]

/-- It is a program that the claims are about. -/
theorem pick_ok : RoutersOnTop pickRoot ∧
    (∀ c ∈ pickRoot.children, c.kind ≠ .mode → ∀ x ∈ c.nodes, x.kind ≠ .mode) ∧
    (∀ x ∈ pickRoot.nodes, x.uid = idleMode.uid → x = idleMode) ∧
    Disabled idleMode ∧ idleMode.noneName.isSome = true ∧
    (∀ x ∈ pickMode.nodes, Contains offLevel x.hash → Disabled x ∧
      ∀ a refs, ArgumentOf pickMode a → .alias refs ∈ a.policies → ¬ NamedIn refs x) := by
  have hnodes : ∀ x, x ∈ pickRoot.nodes ↔ x = pickRoot ∨ x = versionFlag ∨ x = pickMode ∨
      x = offLevel ∨ x = plainForce ∨ x = idleMode := by
    intro x
    simp only [pickRoot, pickMode, idleMode, versionFlag, plainForce, offLevel, mkRoot, mkMode, mkFlag,
      mkArg, nodes_mk, nodesList, List.flatMap_cons, List.flatMap_nil, List.append_nil, List.mem_cons,
      List.mem_append, List.not_mem_nil, or_false]
    constructor
    · rintro (h | h | (h | h | h) | h | h) <;> simp [h]
    · rintro (h | h | h | h | h | h) <;> simp [h]
  have hpick : ∀ x, x ∈ pickMode.nodes ↔ x = pickMode ∨ x = offLevel ∨ x = plainForce := by
    intro x
    simp only [pickMode, plainForce, offLevel, mkMode, mkFlag,
      mkArg, nodes_mk, nodesList, List.flatMap_cons, List.flatMap_nil, List.append_nil, List.mem_cons,
      List.mem_append, List.not_mem_nil, or_false]
  have hidle : ∀ x, x ∈ idleMode.nodes ↔ x = idleMode ∨ x = plainForce := by
    intro x
    simp only [idleMode, plainForce, mkMode, mkFlag,
      nodes_mk, nodesList, List.flatMap_cons, List.flatMap_nil, List.append_nil, List.mem_cons,
      List.not_mem_nil, or_false]
  refine ⟨⟨rfl, ?_⟩, ?_, ?_, ?_, rfl, ?_⟩
  · intro m hm hk x hx hxk
    rcases (hnodes m).1 hm with rfl | rfl | rfl | rfl | rfl | rfl <;> try cases hk
    · rcases (hpick x).1 hx with rfl | rfl | rfl
      · exact absurd rfl hxk
      all_goals exact ⟨by decide, by decide⟩
    · rcases (hidle x).1 hx with rfl | rfl
      · exact absurd rfl hxk
      · exact ⟨by decide, by decide⟩
  · intro c hc hk x hx
    simp only [pickRoot, mkRoot, Node.children, List.mem_cons, List.not_mem_nil, or_false] at hc
    rcases hc with rfl | rfl | rfl
    · simp only [versionFlag, mkFlag, nodes_mk, nodesList, List.flatMap_nil, List.mem_cons,
        List.not_mem_nil, or_false] at hx
      subst hx
      decide
    · exact absurd rfl hk
    · exact absurd rfl hk
  · intro x hx hu
    rcases (hnodes x).1 hx with rfl | rfl | rfl | rfl | rfl | rfl <;> first | rfl | exact absurd hu (by decide)
  · exact ⟨.runtimeEnable false, by simp [idleMode, mkMode, Node.policies, modePolicies], rfl⟩
  · intro x hx hcon
    have hxo : x = offLevel := by
      obtain ⟨n, hn, -, -, hh⟩ := hcon
      simp only [offLevel, mkArg, nodes_mk, nodesList, List.flatMap_nil, List.mem_cons,
        List.not_mem_nil, or_false] at hn
      subst hn
      rcases (hpick x).1 hx with rfl | rfl | rfl
      · exact absurd hh (by decide)
      · rfl
      · exact absurd hh (by decide)
    subst hxo
    refine ⟨⟨.runtimeEnable false, by simp [offLevel, mkArg, Node.policies], rfl⟩, ?_⟩
    rintro a refs ⟨c, hc, -, ha⟩ hp
    rcases (hpick a).1 (child_mem_nodes hc _ ha) with rfl | rfl | rfl <;>
      simp [pickMode, offLevel, plainForce, mkMode, mkArg, mkFlag, Node.policies, modePolicies,
        expanderIf] at hp
    all_goals (split at hp <;> simp at hp)

/-- What it does. -/
example :
    parseArgs .default pickRoot [b "run", b "--force"] .fresh =
      (.ok (), ⟨[], [⟨62, [.one (.str (b "low")), .one (.bool true)]⟩]⟩) ∧
    parseArgs .default pickRoot [b "run", b "--level", b "high"] .fresh =
      (.throw ⟨.unknown_argument_with_suggestion, [⟨.none, b "--level"⟩, ⟨.long, b "force"⟩]⟩, .fresh) ∧
    parseArgs .default pickRoot [b "idle", b "--force"] .fresh =
      (.throw ⟨.unknown_argument_with_suggestion, [⟨.none, b "idle"⟩, ⟨.none, b "run"⟩]⟩, .fresh) ∧
    parseArgs .default pickRoot [b "--version"] .fresh =
      (.ok (), ⟨[], [⟨64, [.one (.bool true)]⟩]⟩) := by
  decide +kernel

end Props

end ArgRouter
