import Verif.Props.Default
import Verif.Props.Throwing

/-!
# C11, C18, C20, C26, C77 and C105 of every program that compiles

The claims about whole programs ask where routers and modes are. A program with the default validator
that compiles has them there.
-/

namespace ArgRouter

open Spec

namespace Props

variable {cfg : Config} {root : Node}

/-- The node above. -/
theorem parent_at {p : List Nat} {i : Nat} {x : Node} (h : nodeAt root (p ++ [i]) = some x) :
    ∃ m, nodeAt root p = some m ∧ x ∈ m.children ∧ lineage root (p ++ [i]) = m :: lineage root p := by
  rw [nodeAt_append] at h
  obtain ⟨m, hm, hx⟩ := Option.bind_eq_some_iff.1 h
  simp only [nodeAt] at hx
  cases hi : m.children[i]? with
  | none => rw [hi] at hx; simp at hx
  | some c =>
    rw [hi] at hx
    simp only [Option.bind_some, nodeAt, Option.some.injEq] at hx
    subst hx
    refine ⟨m, hm, List.mem_of_getElem? hi, ?_⟩
    rw [lineage_append p [i] root m hm (by simp [nodeAt, hi])]
    simp [lineage, hi]

/-- A root is nowhere but on top. -/
theorem root_on_top (hc : ∃ depth, compiles cfg depth defaultRules root = true) {p : List Nat} {n : Node}
    (hn : nodeAt root p = some n) (hk : n.kind = .root) : p = [] := by
  have h := (((C102_compiles cfg root).1 hc).2.1 p n hn).2.1.cls
  have hl := lineage_length p root n hn
  cases h with
  | root _ h0 => rw [h0] at hl; exact List.eq_nil_of_length_eq_zero hl.symm
  | aliasGroup h => rw [hk] at h; cases h
  | oneOf h => rw [hk] at h; cases h
  | _ => simp_all

/-- What is above a mode is a mode or the root. -/
theorem mode_parent (hc : ∃ depth, compiles cfg depth defaultRules root = true) {p : List Nat} {i : Nat}
    {n m : Node} (hn : nodeAt root (p ++ [i]) = some n) (hk : n.kind = .mode)
    (hm : nodeAt root p = some m) : p = [] ∨ m.kind = .mode := by
  have h := (((C102_compiles cfg root).1 hc).2.1 _ n hn).2.2.1
  obtain ⟨m', hm', -, hl⟩ := parent_at hn
  rw [hm] at hm'
  cases hm'
  simp only [NodeAllowed, hk] at h
  rcases h.2.2.2 with ⟨a, as, h1, h2⟩ | ⟨a, as, h1, h2⟩
  · rw [hl] at h1
    cases h1
    exact .inl (root_on_top hc hm h2)
  · rw [hl] at h1
    cases h1
    exact .inr h2

/-- In a program that compiles only modes have modes in them, apart from the root. -/
theorem compiles_flat (hc : ∃ depth, compiles cfg depth defaultRules root = true) :
    ∀ c ∈ root.children, c.kind ≠ .mode → ∀ x ∈ c.nodes, x.kind ≠ .mode := by
  intro c hcr hck x hx hxk
  obtain ⟨i, hi⟩ := List.mem_iff_getElem?.1 hcr
  obtain ⟨r, hr⟩ := mem_nodes.1 hx
  have key : ∀ (k : Nat) (r : List Nat) (x : Node), r.length = k → nodeAt c r = some x →
      x.kind ≠ .mode := by
    intro k
    induction k with
    | zero =>
      intro r x hlen hx
      have := List.eq_nil_of_length_eq_zero hlen
      subst this
      simp only [nodeAt, Option.some.injEq] at hx
      subst hx
      exact hck
    | succ k ih =>
      intro r x hlen hx hk
      rcases List.eq_nil_or_concat r with rfl | ⟨q, j, rfl⟩
      · simp at hlen
      · rw [List.concat_eq_append] at hx hlen
        obtain ⟨m, hm, -, -⟩ := parent_at hx
        have at_ : ∀ (q : List Nat), nodeAt root (i :: q) = nodeAt c q := fun q => by
          simp [nodeAt, hi]
        have hx' : nodeAt root ((i :: q) ++ [j]) = some x := by
          rw [List.cons_append, at_]; exact hx
        rcases mode_parent hc hx' hk (by rw [at_]; exact hm) with h | h
        · simp at h
        · exact ih q m (by simpa using hlen) hm h
  exact key _ r x rfl hr hxk

/-- In a program that compiles a router is in a mode, or directly below the root. -/
theorem compiles_routers (hc : ∃ depth, compiles cfg depth defaultRules root = true) :
    RoutersOnTop root := by
  obtain ⟨d, hd⟩ := hc
  have hparts := compiles_iff_parts hd
  have hroot := nodeAsserts_parts (hparts.2.2 [] root rfl)
  have hc : ∃ depth, compiles cfg depth defaultRules root = true := ⟨d, hd⟩
  refine ⟨(root_no_router hparts.1 hroot.2.1).1, ?_⟩
  intro m hm hk x hx hxk
  obtain ⟨pm, hpm⟩ := mem_nodes.1 hm
  obtain ⟨r, hr⟩ := mem_nodes.1 hx
  have hp : nodeAt root (pm ++ r) = some x := by rw [nodeAt_append, hpm]; exact hr
  rcases List.eq_nil_or_concat r with rfl | ⟨q, j, rfl⟩
  · simp only [nodeAt, Option.some.injEq] at hr
    subst hr
    exact absurd hk hxk
  · rw [List.concat_eq_append, ← List.append_assoc] at hp
    obtain ⟨above, ha, -, hl⟩ := parent_at hp
    have hnr : above.kind ≠ .root := by
      intro h
      have := root_on_top hc ha h
      have hpm0 : pm = [] := (List.append_eq_nil_iff.1 this).1
      subst hpm0
      simp only [nodeAt, Option.some.injEq] at hpm
      subst hpm
      rw [hparts.1] at hk
      cases hk
    have hall := (((C102_compiles cfg root).1 hc).2.1 _ x hp).2.2
    constructor
    · cases hh : x.hasRouter with
      | false => rfl
      | true =>
        exfalso
        obtain ⟨q', hq', hqr⟩ := List.any_eq_true.1 hh
        cases q' <;> simp at hqr
        have h := (hall.2 _ hq').2
        simp only at h
        rcases h with h | ⟨a, as, h1, h2⟩
        · exact hxk h
        · rw [hl] at h1
          cases h1
          exact hnr h2
    · intro hh
      have h := hall.1
      simp only [NodeAllowed, hh] at h
      obtain ⟨-, a, as, h1, h2⟩ := h
      rw [hl] at h1
      cases h1
      exact hnr h2

/-- What is below the root of a program that compiles is a mode, a help node, or has a router and is not
a counting flag; it has nothing in it unless it is a mode. -/
theorem compiles_top (hc : ∃ depth, compiles cfg depth defaultRules root = true) :
    ∀ c ∈ root.children, ∀ x ∈ c.nodes, c.kind ≠ .mode → x.kind = .help ∨
      (x.hasRouter = true ∧ x.kind ≠ .countingFlag) := by
  intro c hcr x hx hck
  have hall := (C102_compiles cfg root).1 hc
  obtain ⟨q, hq, hl⟩ := lineage_child (root := root) (p := []) rfl hcr
  have hlin : lineage root q = [root] := by simpa [lineage] using hl
  obtain ⟨-, hrule, hallow, hpols⟩ := hall.2.1 q c hq
  rw [hlin] at hrule hallow
  have hnr : c.kind ≠ .root := by
    intro h
    have := root_on_top hc hq h
    subst this
    simp [lineage] at hlin
  have hnm : ∀ {P : Prop}, UnderMode [root] → P := by
    rintro P ⟨m, above, h1, h2⟩
    cases h1
    rw [hall.1] at h2
    cases h2
  -- the root wants a value less child or one with a router
  have hwant : NoValue c ∨ .router ∈ c.policies := by
    have h := (hall.2.1 [] root rfl).2.1.cls
    have hk := hall.1
    cases h with
    | root _ _ _ _ _ _ _ _ _ h => exact h c hcr
    | aliasGroup h => rw [hk] at h; cases h
    | oneOf h => rw [hk] at h; cases h
    | _ => simp_all
  have hnoRouter : root.hasRouter = false := (compiles_routers hc).1
  have halias : ∀ refs, .alias refs ∉ c.policies := by
    intro refs hmem
    have h := (hrule.policies _ hmem).2
    cases h with
    | alias _ _ _ hm =>
      obtain ⟨pre, post, e, hr, -⟩ := hm
      have : root.hasRouter = true := List.any_eq_true.2 ⟨.router, by
        cases pre with
        | nil => simp only [List.nil_append, List.cons.injEq] at e; rw [e.1]; exact hr
        | cons a as => simp at e, rfl⟩
      rw [hnoRouter] at this
      cases this
    | free _ _ _ _ _ h => exact h refs rfl
  have hrouter : (.noResult ∉ c.policies) → c.hasRouter = true := by
    intro hno
    rcases hwant with (h | ⟨refs, h⟩) | h
    · exact absurd h hno
    · exact absurd h (halias refs)
    · exact List.any_eq_true.2 ⟨_, h, rfl⟩
  have hno : Without c [.noResult] → .noResult ∉ c.policies := fun h hm =>
    h .noResult (by simp) ⟨_, hm, .noResult⟩
  have leaf : c.children = [] → x = c := by
    intro h
    obtain ⟨r, hr⟩ := mem_nodes.1 hx
    cases r with
    | nil => simpa [nodeAt] using hr.symm
    | cons i r => simp [nodeAt, h] at hr
  have hcls := hrule.cls
  cases hk : c.kind <;> simp only [NodeAllowed, hk] at hallow
  case flag =>
    have hx0 : x = c := leaf (by cases hcls <;> simp_all)
    subst hx0
    exact .inr ⟨hrouter (hno fun k hk' => hallow k (by simp_all)), by rw [hk]; decide⟩
  case countingFlag =>
    exfalso
    have hr := hrouter (hno fun k hk' => hallow k (by simp_all))
    obtain ⟨q', hq', hqr⟩ := List.any_eq_true.1 hr
    cases q' <;> simp at hqr
    cases hcls with
    | countingFlag _ _ _ _ _ _ h => exact h ⟨_, hq', by constructor⟩
    | aliasGroup h => rw [hk] at h; cases h
    | oneOf h => rw [hk] at h; cases h
    | _ => simp_all
  case arg =>
    have hx0 : x = c := leaf (by
      cases hcls with
      | arg _ h => exact h.onlyPolicies
      | aliasGroup h => rw [hk] at h; cases h
      | oneOf h => rw [hk] at h; cases h
      | _ => simp_all)
    subst hx0
    exact .inr ⟨hrouter (hno fun k hk' => hallow k (by simp_all)), by rw [hk]; decide⟩
  case multiArg =>
    have hx0 : x = c := leaf (by
      cases hcls with
      | multiArg _ h => exact h.onlyPolicies
      | aliasGroup h => rw [hk] at h; cases h
      | oneOf h => rw [hk] at h; cases h
      | _ => simp_all)
    subst hx0
    exact .inr ⟨hrouter (hno fun k hk' => hallow k (by simp_all)), by rw [hk]; decide⟩
  case forwarding =>
    have hx0 : x = c := leaf (by
      cases hcls with
      | forwarding _ h => exact h.onlyPolicies
      | aliasGroup h => rw [hk] at h; cases h
      | oneOf h => rw [hk] at h; cases h
      | _ => simp_all)
    subst hx0
    exact .inr ⟨hrouter (hno fun k hk' => hallow k (by simp_all)), by rw [hk]; decide⟩
  case positional =>
    have hx0 : x = c := leaf (by
      cases hcls with
      | positional _ h => exact h.onlyPolicies
      | aliasGroup h => rw [hk] at h; cases h
      | oneOf h => rw [hk] at h; cases h
      | _ => simp_all)
    subst hx0
    exact .inr ⟨hrouter (hno fun k hk' => hallow.1 k (by simp_all)), by rw [hk]; decide⟩
  case oneOf => exact hnm hallow.2.2.2
  case aliasGroup => exact hnm hallow.2.2.2
  case mode => exact absurd hk hck
  case root => exact absurd hk hnr
  case help =>
    have hx0 : x = c := leaf (by cases hcls <;> simp_all)
    subst hx0
    exact .inl hk

/-! ## The claims -/

/-- C26 of every program that compiles: a parse that returns has called exactly one router, once; a
parse that fails has called none. -/
theorem C26_compiled (cfg : Config) (root : Node) (argv : List Bytes) (s s' : St) (o : Out Unit)
    (hc : ∃ depth, compiles cfg depth defaultRules root = true)
    (h : parseArgs cfg root argv s = (o, s')) :
    (o = .ok () ∧ ∃ c, s'.calls = s.calls ++ [c]) ∨ (o ≠ .ok () ∧ s'.calls = s.calls) := by
  rcases C26_at_most_one cfg root argv s s' o (compiles_routers hc) h with ⟨rfl, -⟩ | h1
  · exact .inl ⟨rfl, C26_exactly_one cfg root argv s s' (compiles_routers hc) (compiles_top hc) h⟩
  · exact .inr h1

/-- C18 of every program that compiles: it ends on every command line, if the user's own code does. -/
theorem C18_compiled (cfg : Config) (root : Node) (argv : List Bytes) (s : St)
    (hc : ∃ depth, compiles cfg depth defaultRules root = true) (hends : ParsersEnd root) :
    (parseArgs cfg root argv s).1 ≠ .diverge :=
  C18_parse_ends cfg root argv (compiles_repeatable hc.choose_spec) hends s

/-- C20 of every program that compiles: see `C20_program`. -/
theorem C20_compiled (cfg : Config) (root : Node) (argv : List Bytes) (s s' : St)
    (hc : ∃ depth, compiles cfg depth defaultRules root = true)
    (h : parseArgs cfg root argv s = (.ok (), s')) :
    (∃ calls, HandledOnTop root argv calls ∧ s'.calls = s.calls ++ calls) ∨
    ∃ c ∈ root.children, ∃ mode vals, Reached c mode ∧
      s'.calls = s.calls ++ [⟨mode.uid, vals⟩] ∧ vals.length = parameters mode.children ∧
      ∀ (i : Nat) (c : Node), mode.children[i]? = some c → c.hasNoResult = false →
        (∀ n ∈ c.nodes, n.isMultiStage = false) →
        ∃ v, vals[position mode.children i]? = some v ∧ Sourced argv mode i c v ∧
          (MustBeGiven c → ¬ Fallback c v) :=
  C20_program cfg root argv s s' (compiles_routers hc) (compiles_flat hc) h

/-- C11 of every program that compiles: see `C11_program_partial`. -/
theorem C11_compiled_partial (cfg : Config) (root : Node) (argv : List Bytes) (s s' : St)
    (hc : ∃ depth, compiles cfg depth defaultRules root = true)
    (h : parseArgs cfg root argv s = (.ok (), s')) :
    (∃ calls, HandledOnTop root argv calls ∧ s'.calls = s.calls ++ calls) ∨
    ∃ c ∈ root.children, ∃ mode vals, Reached c mode ∧
      s'.calls = s.calls ++ [⟨mode.uid, vals⟩] ∧
      ∀ (i : Nat) (c : Node), mode.children[i]? = some c → c.hasNoResult = false →
        (∀ x ∈ mode.nodes, Contains c x.hash → Disabled x ∧
          ∀ a refs, ArgumentOf mode a → .alias refs ∈ a.policies → ¬ NamedIn refs x) →
        ∃ v, vals[position mode.children i]? = some v ∧ Fallback c v :=
  C11_program_partial cfg root argv s s' (compiles_routers hc) (compiles_flat hc) h

/-- C77 of every program that compiles: the router of a mode that has a name and is switched off is
never called. -/
theorem C77_compiled_partial (cfg : Config) (root : Node) (argv : List Bytes) (s s' : St)
    (hc : ∃ depth, compiles cfg depth defaultRules root = true)
    (m : Node) (hid : ∀ x ∈ root.nodes, x.uid = m.uid → x = m) (hk : m.kind = .mode)
    (hoff : Disabled m) (hname : m.noneName.isSome = true)
    (h : parseArgs cfg root argv s = (.ok (), s')) :
    ∀ vals, s'.calls ≠ s.calls ++ [⟨m.uid, vals⟩] :=
  C77_program_partial cfg root argv s s' (compiles_routers hc) (compiles_flat hc) m hid hk hoff hname h

/-- C105 of every program that compiles: the parse ends as the one router that it calls, or calls none
and ends as it would with any routers. -/
theorem C105_compiled (rt : Routers) (cfg : Config) (root : Node) (argv : List Bytes) (s : St)
    (hc : ∃ depth, compiles cfg depth defaultRules root = true) :
    (parseWith rt cfg root argv s).2 = (parseArgs cfg root argv s).2 ∧
    (((parseWith rt cfg root argv s).2.calls = s.calls ∧
        (parseWith rt cfg root argv s).1 = (parseArgs cfg root argv s).1 ∧
        (parseArgs cfg root argv s).1 ≠ .ok ()) ∨
      ∃ n vs, (parseWith rt cfg root argv s).2.calls = s.calls ++ [⟨n, vs⟩] ∧
        (parseWith rt cfg root argv s).1 = rt n vs ∧ (parseArgs cfg root argv s).1 = .ok ()) := by
  obtain ⟨h1, h2⟩ := C105_router_outcome rt cfg root argv s (compiles_routers hc) (compiles_flat hc)
  have h3 := C26_compiled cfg root argv s (parseArgs cfg root argv s).2 (parseArgs cfg root argv s).1 hc
    rfl
  refine ⟨h1, ?_⟩
  rw [← h1] at h3
  rcases h2 with ⟨h4, h5⟩ | ⟨n, vs, h4, h5⟩
  · refine .inl ⟨h4, h5, fun h => ?_⟩
    rcases h3 with ⟨-, c, h6⟩ | ⟨h6, -⟩
    · rw [h4] at h6; simp at h6
    · exact h6 h
  · refine .inr ⟨n, vs, h4, h5, ?_⟩
    rcases h3 with ⟨h6, -⟩ | ⟨-, h6⟩
    · exact h6
    · rw [h4] at h6; simp at h6

/-- C26, C57 and C80 together: a program that compiles, of a careful author, given a command line of text
whose last argument is not just the short prefix (unless no flag has a short name), either returns and has called exactly one router, or
throws a `parse_exception` with the documented message and has called none. -/
theorem C26_outcome (cfg : Config) (root : Node) (argv : List Bytes) (s : St) (depth : Nat)
    (hcfg : AsciiPrefixes cfg) (hc : compiles cfg depth defaultRules root = true)
    (hcare : Careful root) (hargs : ∀ a ∈ argv, Text a)
    (hlast : Expands root → argv.getLast? ≠ some cfg.shortPrefix) :
    (∃ s' c, rootSeen cfg defaultTranslations [] root argv s = (.returned, s') ∧
      s'.calls = s.calls ++ [c]) ∨
    ∃ (e : Exc) (s' : St), rootSeen cfg defaultTranslations [] root argv s =
        (.parseException (errorText cfg (english e.ec) e.tokens), s') ∧ s'.calls = s.calls := by
  rcases C80_compiled_partial hcfg hc hcare argv hargs hlast s with ⟨s', h⟩ | ⟨e, s', h, h'⟩
  · left
    match hp : parseArgs cfg root argv s with
    | (.ok _, s1) =>
      rcases C26_compiled cfg root argv s s1 (.ok ()) ⟨depth, hc⟩ hp with ⟨-, c, h1⟩ | ⟨h1, -⟩
      · refine ⟨s', c, h, ?_⟩
        unfold rootSeen at h
        rw [hp] at h
        simp only [Prod.mk.injEq, true_and] at h
        rw [← h]; exact h1
      · exact absurd rfl h1
    | (.throw e, s1) =>
      exfalso
      unfold rootSeen at h
      rw [hp] at h
      simp only at h
      split at h <;> simp at h
    | (.foreign, s1) => unfold rootSeen at h; rw [hp] at h; simp at h
    | (.ub, s1) => unfold rootSeen at h; rw [hp] at h; simp at h
    | (.diverge, s1) => unfold rootSeen at h; rw [hp] at h; simp at h
  · right
    rcases C26_compiled cfg root argv s s' _ ⟨depth, hc⟩ h with ⟨h1, -⟩ | ⟨-, h1⟩
    · cases h1
    · exact ⟨e, s', h', h1⟩

/-- Programs that compile: `pickRoot`, and one with nested modes, an alias, a dependent argument with a
separator, a flag with short-form expansion and a positional argument. -/
example : (∃ depth, compiles .default depth defaultRules pickRoot = true) ∧
    compiles .default 100 defaultRules safeRoot = true ∧ Careful safeRoot :=
  ⟨⟨100, by decide +kernel⟩, by decide +kernel, safeRoot_careful⟩

/-- A flag without a router below the root does not compile. -/
example : ∀ depth,
    compiles .default depth defaultRules (mkRoot 5 5 [plainForce]) = false := by
  intro depth
  cases h : compiles .default depth defaultRules (mkRoot 5 5 [plainForce]) with
  | false => rfl
  | true =>
    exfalso
    have := compiles_top ⟨depth, h⟩ plainForce (by simp [mkRoot, Node.children]) plainForce
      (self_mem_nodes _) (by decide)
    revert this
    decide

end Props

end ArgRouter
