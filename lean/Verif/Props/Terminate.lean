import Verif.Lemmas.ModeLoop
import Verif.Props.Depend

/-!
# C18, C19: the argument loop of a mode ends, and a match consumes the whole command line
-/

namespace ArgRouter

namespace Spec

/-- Every argument below `n` that may be given repeatedly has a name, and its names are not empty. This
is what the library's compile-time checks ensure of counting flags (counting_flag.hpp:45-54 and the
name policies' own assertions). -/
def RepeatableNamed (n : Node) : Prop :=
  ∀ m ∈ n.nodes, m.isMultiStage = true → m.isGroup = false →
    m.isNamed = true ∧ m.longName ≠ some [] ∧ m.shortName ≠ some [] ∧ m.noneName ≠ some []

/-- The user's own code, the parsers of the value types and the help output end. -/
def ParsersEnd (n : Node) : Prop :=
  ∀ m ∈ n.nodes, (∀ s, m.vt.parse s ≠ .diverge) ∧
    (∀ f, Policy.customParser f ∈ m.policies → ∀ s, f s ≠ .diverge) ∧
    (∀ t f, Policy.validation t f ∈ m.policies → ∀ v, f v ≠ .diverge) ∧
    ∀ f, Policy.helpText f ∈ m.policies → ∀ ts, f ts ≠ .diverge

end Spec

open Spec

theorem count_set_false {l : List Bool} {i : Nat} (h : l[i]? = some false) :
    (l.set i true).count false + 1 = l.count false := by
  induction l generalizing i with
  | nil => simp at h
  | cons x xs ih =>
    cases i with
    | zero => simp only [List.getElem?_cons_zero, Option.some.injEq] at h; subst h; simp
    | succ i =>
      simp only [List.getElem?_cons_succ] at h
      have := ih h
      simp only [List.set_cons_succ, List.count_cons]
      omega

theorem count_set_le (l : List Bool) (i : Nat) : (l.set i true).count false ≤ l.count false := by
  induction l generalizing i with
  | nil => simp
  | cons x xs ih =>
    cases i with
    | zero => simp only [List.set_cons_zero, List.count_cons]; simp
    | succ i =>
      have := ih i
      simp only [List.set_cons_succ, List.count_cons]
      omega

namespace Props

/-- One iteration of the loop makes progress. -/
theorem modeStep_progress {cfg : Config} {mode : Node} {parents : List Node} {target : Target}
    {matched : List Bool} {front : Token} {args rest : List Token} {i : Nat} {t : Target}
    {s s' : St} (hrep : RepeatableNamed mode) (hlen : matched.length = mode.children.length)
    (h : modeStep cfg parents target matched front args mode.children 0 s =
      (.ok (some (i, t, rest)), s')) :
    totalBytes rest + (matched.set i true).count false < totalBytes args + matched.count false := by
  obtain ⟨k, c, s1, hi, hc, hk, hm⟩ := modeStep_index _ _ h
  obtain ⟨m, hmem, hg, ⟨v, s2, s3, hl⟩, s4, s5, hv⟩ := match_leaf _ _ _ _ hm
  have hcc : c ∈ mode.children := List.mem_of_getElem? hc
  have hmode : m ∈ mode.nodes := child_mem_nodes hcc m hmem
  obtain ⟨b1, b2⟩ := leaf_bytes hl
  rcases (verifyMatch_true hv).2 with hms | hal
  · obtain ⟨h1, h2⟩ := hrep m hmode hms hg
    have := b2 h1 h2
    have := count_set_le matched i
    omega
  · have hlt : i < matched.length := by
      have := (List.getElem?_eq_some_iff.1 hc).1
      omega
    have hf : matched[i]? = some false := by
      rw [List.getElem?_eq_getElem hlt] at hal ⊢
      simpa using hal
    have := count_set_false hf
    omega

theorem modeLoop_ends (cfg : Config) (mode : Node) (parents : List Node)
    (hrep : RepeatableNamed mode) (fuel : Nat) :
    ∀ (target : Target) (matched : List Bool) (args : List Token) (s : St),
      matched.length = mode.children.length →
      totalBytes args + matched.count false + 1 ≤ fuel →
      (modeLoop cfg mode parents fuel target matched args s).1 ≠ .diverge := by
  induction fuel with
  | zero => intro _ _ _ _ _ h; omega
  | succ fuel ih =>
    intro target matched args s hlen hf
    cases args with
    | nil => simp [modeLoop]
    | cons front rest =>
      rw [modeLoop]
      refine Ends.bind (f := fun o => _) (m := modeStep _ _ _ _ _ _ _ _) ?_ ?_ s
      · exact ends_modeStep _ _ _ _ _ _ _ _
      · intro o s1 s2 h1
        cases o with
        | none =>
          simp only
          split
          · simp [M.throw]
          · exact unknownArgument_ne_diverge _ _ _
        | some x =>
          obtain ⟨i, t, args'⟩ := x
          have := modeStep_progress hrep hlen h1
          exact ih _ _ _ _ (by simpa using hlen) (by omega)

/-- More fuel than is needed changes nothing: the fuel of the model is not observable. -/
theorem modeLoop_fuel (cfg : Config) (mode : Node) (parents : List Node) (f g : Nat) :
    ∀ (target : Target) (matched : List Bool) (args : List Token) (s : St), f ≤ g →
      (modeLoop cfg mode parents f target matched args s).1 ≠ .diverge →
      modeLoop cfg mode parents g target matched args s =
        modeLoop cfg mode parents f target matched args s := by
  induction f generalizing g with
  | zero =>
    intro target matched args s _ h
    cases args with
    | nil => simp [modeLoop]
    | cons x xs => exact absurd rfl h
  | succ f ih =>
    intro target matched args s hle h
    obtain ⟨g', rfl⟩ : ∃ g', g = g' + 1 := ⟨g - 1, by omega⟩
    cases args with
    | nil => simp [modeLoop]
    | cons front rest =>
      rw [modeLoop, M.bind_apply] at h ⊢
      rw [modeLoop, M.bind_apply]
      match hx : modeStep cfg (mode :: parents) target matched front (front :: rest)
          mode.children 0 s with
      | (.ok none, s1) => rfl
      | (.ok (some (i, t, args')), s1) =>
        rw [hx] at h
        exact ih g' _ _ _ _ (by omega) h
      | (.throw e, s1) => rfl
      | (.foreign, s1) => rfl
      | (.ub, s1) => rfl
      | (.diverge, s1) => rfl

theorem modeFuel_enough (mode : Node) (args : List Token) :
    totalBytes args + (List.replicate mode.children.length false).count false + 1 ≤
      modeFuel mode args := by
  simp only [modeFuel, List.count_replicate_self]
  generalize totalBytes args = x
  generalize mode.children.length = y
  have : (x + 1) * (y + 1) = x * y + x + y + 1 := by
    rw [Nat.add_mul, Nat.mul_add]; omega
  have := Nat.zero_le (x * y)
  omega

/-- C18 (bound on the loop): whatever the command line, the loop of a mode ends after at most as
many iterations as there are bytes on the command line and children in the mode, plus one. A
`modeLoop` with at least that much fuel does not run out of it, and more fuel gives the same
result. -/
theorem C18_loop_bound (cfg : Config) (mode : Node) (parents : List Node) (args : List Token)
    (hrep : RepeatableNamed mode) (s : St) (fuel : Nat)
    (hf : totalBytes args + mode.children.length + 1 ≤ fuel) :
    let run := fun fuel => modeLoop cfg mode parents fuel ⟨mode, [], []⟩
      (List.replicate mode.children.length false) args s
    (run fuel).1 ≠ .diverge ∧ ∀ more, run (fuel + more) = run fuel := by
  have h := modeLoop_ends cfg mode parents hrep fuel ⟨mode, [], []⟩
    (List.replicate mode.children.length false) args s (by simp)
    (by simpa only [List.count_replicate_self] using hf)
  exact ⟨h, fun more => modeLoop_fuel _ _ _ _ _ _ _ _ _ (by omega) h⟩

theorem ends_modeBody {cfg : Config} {mode : Node} {parents : List Node} {args : List Token}
    {validator : Validator} (hrep : RepeatableNamed mode) (hv : ∀ n, Ends (validator n)) :
    Ends (modeBody cfg mode parents validator args) := by
  unfold modeBody
  refine Ends.bind' (hv mode) ?_
  intro ok
  split
  · exact Ends.pure _
  · refine Ends.bind' ?_ fun _ => Ends.pure _
    intro s
    exact modeLoop_ends cfg mode parents hrep _ _ _ _ _ (by simp) (modeFuel_enough mode args)

mutual
theorem ends_preParseMode (cfg : Config) (parents : List Node) (args : List Token)
    (validator : Validator) (hv : ∀ n, Ends (validator n)) : ∀ n : Node, RepeatableNamed n →
    Ends (preParseMode cfg parents args validator n)
  | .mk k u h v p cs, hrep => by
    rw [preParseMode]
    split
    · exact ends_modeBody hrep hv
    · refine Ends.bind' (ends_leaf hv) ?_
      intro o
      cases o with
      | none => exact Ends.pure _
      | some x =>
        obtain ⟨t, args'⟩ := x
        simp only
        split
        · exact ends_modeBody hrep hv
        · refine Ends.bind' (ends_childModes cfg _ args' validator hv cs ?_) ?_
          · intro c hc m hm
            refine hrep m ?_
            rw [nodes_mk]
            exact List.mem_cons_of_mem _ (List.mem_flatMap.2 ⟨c, hc, hm⟩)
          · intro o
            cases o with
            | none => exact ends_modeBody hrep hv
            | some x => exact Ends.pure _
theorem ends_childModes (cfg : Config) (parents : List Node) (args : List Token)
    (validator : Validator) (hv : ∀ n, Ends (validator n)) : ∀ ns : List Node,
    (∀ n ∈ ns, RepeatableNamed n) → Ends (preParseChildModes cfg parents args validator ns)
  | [], _ => by rw [preParseChildModes]; exact Ends.pure _
  | .mk k u h v p cs :: ns, hrep => by
    rw [preParseChildModes]
    have ih := ends_childModes cfg parents args validator hv ns
      fun n hn => hrep n (List.mem_cons_of_mem _ hn)
    split
    · refine Ends.bind' (ends_preParseMode cfg parents args validator hv _
        (hrep _ List.mem_cons_self)) ?_
      intro o
      cases o with
      | none => exact ih
      | some x => exact Ends.pure _
    · exact ih
end

/-- C18: pre-parsing a mode, with all its nested modes, ends on every command line. -/
theorem C18_mode_ends (cfg : Config) (mode : Node) (parents : List Node) (args : List Token)
    (hrep : RepeatableNamed mode) (s : St) :
    (preParseMode cfg parents args alwaysTrue mode s).1 ≠ .diverge :=
  ends_preParseMode cfg parents args _ (fun _ => Ends.pure _) mode hrep s

/-! ## The whole parse -/

theorem ends_callIfRouter (n : Node) (vs : List Value) : Ends (callIfRouter n vs) := by
  unfold callIfRouter
  split
  · intro s; simp [callRouter]
  · exact Ends.pure _

theorem ends_runValidation (n : Node) (v : Value) (ps : List Policy)
    (hps : ∀ t f, Policy.validation t f ∈ ps → ∀ v, f v ≠ .diverge) :
    Ends (runValidation n v ps) := by
  induction ps with
  | nil => exact Ends.pure _
  | cons p ps ih =>
    have ih := ih fun t f h => hps t f (List.mem_cons_of_mem _ h)
    cases p <;> simp only [runValidation] <;> try exact ih
    · split
      · exact Ends.throw _
      · split
        · exact Ends.throw _
        · exact ih
    · rename_i t f
      exact Ends.bind' (Ends.lift (hps t f List.mem_cons_self v)) fun _ => ih

theorem ends_parseLeaf (l : Leaf) (hp : ParsersEnd l.node) : Ends (parseLeaf l) := by
  have htok : ∀ s, parseToken l.node s ≠ .diverge := by
    intro s
    obtain ⟨h1, h2, -⟩ := hp l.node (self_mem_nodes _)
    unfold parseToken
    split
    · rename_i f hf
      rw [List.findSome?_eq_some_iff] at hf
      obtain ⟨l1, p, l2, hl, hp', -⟩ := hf
      cases p <;> simp at hp'
      subst hp'
      exact h2 _ (by rw [hl]; simp) s
    · exact h1 s
  have htoks : ∀ ts, parseTokens l.node ts ≠ .diverge := by
    intro ts
    induction ts with
    | nil => simp [parseTokens]
    | cons t ts ih =>
      rw [parseTokens]
      exact bind_ne_diverge (htok _) fun _ => bind_ne_diverge ih fun _ => by simp
  have hval : parseValue l.node l.tokens ≠ .diverge := by
    unfold parseValue
    split
    · exact bind_ne_diverge (htoks _) fun _ => by simp
    · split
      · simp
      · exact bind_ne_diverge (htok _) fun _ => by simp
  have hv : Ends (do
      let v ← M.lift (parseValue l.node l.tokens)
      runValidation l.node v l.node.policies
      callIfRouter l.node [v]
      Pure.pure (some v) : M (Option Value)) :=
    Ends.bind' (Ends.lift hval) fun v => Ends.bind' (ends_runValidation _ _ _
      (hp l.node (self_mem_nodes _)).2.2.1) fun _ =>
      Ends.bind' (ends_callIfRouter _ _) fun _ => Ends.pure _
  unfold parseLeaf
  split
  · exact Ends.bind' (ends_callIfRouter _ _) fun _ => Ends.pure _
  · exact Ends.pure _
  · exact hv
  · exact hv
  · exact hv
  · exact hv
  · have hh : helpOutput l.node l.tokens ≠ .diverge := by
      unfold helpOutput
      split
      · rename_i f hf
        obtain ⟨p, hp', e⟩ := List.exists_of_findSome?_eq_some hf
        cases p <;> simp at e
        subst e
        exact (hp l.node (self_mem_nodes _)).2.2.2 _ hp' _
      · simp
    refine Ends.bind' (Ends.lift hh) fun _ => Ends.bind' ?_ fun _ => Ends.pure _
    intro s; simp [callRouter]
  · exact Ends.lift (by simp)

theorem ends_processResult (rs : List (Option Value)) (i : Nat) (c n : Node) (v : Value) :
    Ends (processResult rs i c n v) := by
  unfold processResult
  split
  · exact Ends.pure _
  · simp only
    split
    · exact Ends.pure _
    · split
      · exact Ends.throw _
      · exact Ends.pure _

theorem ends_processSubs (children : List Node) (ls : List Leaf) (rs : List (Option Value))
    (hp : ∀ l ∈ ls, ParsersEnd l.node) : Ends (processSubs children ls rs) := by
  induction ls generalizing rs with
  | nil => exact Ends.pure _
  | cons l ls ih =>
    have ih' := fun rs => ih rs fun l hl => hp l (List.mem_cons_of_mem _ hl)
    rw [processSubs]
    refine Ends.bind' (ends_parseLeaf l (hp l List.mem_cons_self)) ?_
    intro o
    cases o with
    | none => exact ih' _
    | some v =>
      simp only
      split
      · exact ih' _
      · exact Ends.bind' (ends_processResult _ _ _ _ _) fun _ => ih' _

theorem ends_runMissing (n : Node) (ps : List Policy) (r : Option Value) :
    Ends (runMissing n ps r) := by
  induction ps generalizing r with
  | nil => exact Ends.pure _
  | cons p ps ih =>
    cases p <;> simp only [runMissing] <;> try exact ih _
    · exact Ends.throw _
    · split
      · exact Ends.throw _
      · exact ih _

theorem ends_fillMissing (cs : List Node) (rs : List (Option Value))
    (hc : ∀ c ∈ cs, ∀ t f, Policy.validation t f ∈ c.policies → ∀ v, f v ≠ .diverge) :
    Ends (fillMissing cs rs) := by
  induction cs generalizing rs with
  | nil => cases rs <;> exact Ends.pure _
  | cons c cs ih =>
    cases rs with
    | nil => exact Ends.pure _
    | cons r rs =>
      have ih := fun rs => ih rs fun c h => hc c (List.mem_cons_of_mem _ h)
      rw [fillMissing]
      refine Ends.bind' ?_ fun _ => Ends.bind' (ih _) fun _ => Ends.pure _
      unfold fillResult
      split
      · exact Ends.pure _
      · split
        · exact Ends.pure _
        · refine Ends.bind' ?_ fun _ => Ends.pure _
          unfold processMissing
          exact Ends.bind' (ends_runMissing _ _ _) fun _ =>
            Ends.bind' (ends_runValidation _ _ _ (hc c List.mem_cons_self)) fun _ => Ends.pure _

theorem ends_stages (cs : List Node) (rs : List (Option Value))
    (hc : ∀ c ∈ cs, ∀ t f, Policy.validation t f ∈ c.policies → ∀ v, f v ≠ .diverge) :
    Ends (multiStageValidation cs rs) := by
  induction cs generalizing rs with
  | nil => cases rs <;> exact Ends.pure _
  | cons c cs ih =>
    cases rs with
    | nil => exact Ends.pure _
    | cons r rs =>
      have ih := fun rs => ih rs fun c h => hc c (List.mem_cons_of_mem _ h)
      rw [multiStageValidation]
      refine Ends.bind' ?_ fun _ => ih _
      unfold validateStages
      split
      · split
        · exact ends_runValidation _ _ _ (hc c List.mem_cons_self)
        · exact Ends.lift (by simp)
      · exact Ends.pure _

theorem ends_parseMode (mode : Node) (ls : List Leaf) (hm : ParsersEnd mode)
    (hp : ∀ l ∈ ls, ParsersEnd l.node) : Ends (parseMode mode ls) := by
  have hc : ∀ c ∈ mode.children, ∀ t f, Policy.validation t f ∈ c.policies → ∀ v, f v ≠ .diverge :=
    fun c h => (hm c (child_mem_nodes h _ (self_mem_nodes c))).2.2.1
  unfold parseMode
  refine Ends.bind' (ends_processSubs _ _ _ hp) fun _ =>
    Ends.bind' (ends_fillMissing _ _ hc) fun _ => Ends.bind' (ends_stages _ _ hc) fun _ => ?_
  split
  · intro s; simp [callRouter]
  · exact Ends.throw _

/-! ## Where sub-targets come from -/

/-- The sub-targets of a matching leaf are nodes of the nearest node with a router, for a leaf
without a router of its own. -/
theorem phase_sub_nodes {cfg : Config} {n : Node} {parents : List Node}
    {processed : Option Target} {p : Policy} {a a' : Adapter} {subs subs' : List Leaf}
    {r : PreResult} (h : p.phase cfg n parents processed a subs = .ok (r, a', subs')) :
    ∀ l ∈ subs', l ∈ subs ∨ ∃ m, nearestModeLike (n :: parents) = some m ∧ l.node ∈ m.nodes := by
  by_cases hp : ∃ refs, p = .alias refs
  · obtain ⟨refs, rfl⟩ := hp
    simp only [Policy.phase, aliasPhase] at h
    split at h
    · rename_i count _ mode _ hmode
      split at h
      · simp only [Out.ok.injEq, Prod.mk.injEq] at h
        obtain ⟨-, -, rfl⟩ := h
        exact fun l hl => .inl hl
      · simp only [Out.bind_eq_ok] at h
        obtain ⟨label, -, h⟩ := h
        generalize (if label.pre == .none then n.getToken cfg label.name else label) = tt at h
        split at h
        · simp only [Out.pure_eq, Out.ok.injEq, Prod.mk.injEq] at h
          obtain ⟨-, -, rfl⟩ := h
          exact fun l hl => .inl hl
        · simp only [Out.pure_eq, Out.ok.injEq, Prod.mk.injEq] at h
          obtain ⟨-, -, rfl⟩ := h
          intro l hl
          rcases List.mem_append.1 hl with hl | hl
          · exact .inl hl
          · simp only [List.mem_map, List.mem_filter] at hl
            obtain ⟨x, ⟨hx, -⟩, rfl⟩ := hl
            exact .inr ⟨mode, hmode, hx⟩
    · cases h
  · have := phase_no_alias (fun refs hr => hp ⟨refs, hr⟩) h
    intro l hl
    rw [this] at hl
    exact .inl hl


theorem runPhases_sub_nodes {cfg : Config} {n : Node} {parents : List Node}
    {processed : Option Target} (ps : List Policy)
    {m r : PreResult} {a a' : Adapter} {subs subs' : List Leaf}
    (h : runPhases cfg n parents processed ps m a subs = .ok (r, a', subs')) :
    ∀ l ∈ subs', l ∈ subs ∨ ∃ m, nearestModeLike (n :: parents) = some m ∧ l.node ∈ m.nodes := by
  induction ps generalizing m a subs with
  | nil =>
    simp only [runPhases, Out.ok.injEq, Prod.mk.injEq] at h
    obtain ⟨-, -, rfl⟩ := h
    exact fun l hl => .inl hl
  | cons p ps ih =>
    have step : ∀ {m1 m2 a1 s1}, p.phase cfg n parents processed a subs = .ok (m1, a1, s1) →
        runPhases cfg n parents processed ps m2 a1 s1 = .ok (r, a', subs') →
        ∀ l ∈ subs', l ∈ subs ∨
          ∃ m, nearestModeLike (n :: parents) = some m ∧ l.node ∈ m.nodes := by
      intro m1 m2 a1 s1 h1 h2 l hl
      rcases ih h2 l hl with h3 | h3
      · exact phase_sub_nodes h1 l h3
      · exact .inr h3
    simp only [runPhases] at h
    split at h
    · match m with
      | .error e =>
        simp only [Out.ok.injEq, Prod.mk.injEq] at h
        obtain ⟨-, -, rfl⟩ := h
        exact fun l hl => .inl hl
      | .ok .skipNode =>
        simp only [Out.ok.injEq, Prod.mk.injEq] at h
        obtain ⟨-, -, rfl⟩ := h
        exact fun l hl => .inl hl
      | .ok .validNode =>
        simp only [Out.bind_eq_ok, Prod.exists] at h
        obtain ⟨m1, a1, s1, h1, h2⟩ := h
        exact step h1 h2
      | .ok .skipNodeButUseSubTargets =>
        simp only [Out.bind_eq_ok, Prod.exists] at h
        obtain ⟨m1, a1, s1, h1, h2⟩ := h
        exact step h1 h2
    · exact ih h

theorem leaf_sub_nodes {cfg : Config} {n : Node} {parents : List Node} {args : List Token}
    {processed : Option Target} {validator : Validator} {s s' : St} {r : Target × List Token}
    (h : leafPreParse cfg n parents args processed validator s = (.ok (some r), s')) :
    ∀ l ∈ r.1.subs, ∃ m, nearestModeLike (n :: parents) = some m ∧ l.node ∈ m.nodes := by
  simp only [leafPreParse, M.bind_eq_ok, M.lift_apply, Prod.exists, Prod.mk.injEq] at h
  obtain ⟨m, a, subs, s1, ⟨h1, rfl⟩, h2⟩ := h
  have hsubs := runPhases_sub_nodes _ h1
  cases hc : checkLabel cfg n m a with
  | none => rw [hc] at h2; simp at h2
  | some a' =>
    rw [hc] at h2
    simp only [M.bind_eq_ok] at h2
    obtain ⟨ok, s2, h3', h3⟩ := h2
    cases ok
    · simp at h3
    · cases m with
      | error e => simp at h3
      | ok act =>
        simp only [Bool.not_true, Bool.false_eq_true, if_false, M.pure_apply, Prod.mk.injEq,
          Out.ok.injEq, Option.some.injEq] at h3
        obtain ⟨rfl, rfl⟩ := h3
        intro l hl
        rcases hsubs l hl with h4 | h4
        · cases h4
        · exact h4

/-- The node of a sub-target found while pre-parsing `mode` below `parents`: a node of the mode, or
one that an alias found in the nearest routing node. -/
def SubOrigin (mode : Node) (parents : List Node) (x : Node) : Prop :=
  x ∈ mode.nodes ∨ ∃ n ∈ mode.nodes, ∃ m, nearestModeLike (n :: mode :: parents) = some m ∧
    x ∈ m.nodes

theorem modeLoop_spec (cfg : Config) (mode : Node) (parents : List Node) (fuel : Nat) :
    ∀ (target : Target) (matched : List Bool) (args rest : List Token) (t : Target) (s s' : St),
      modeLoop cfg mode parents fuel target matched args s = (.ok (t, rest), s') →
      rest = [] ∧ t.node = target.node ∧ t.tokens = target.tokens ∧
      ∀ l ∈ t.subs, l ∈ target.subs ∨ SubOrigin mode parents l.node := by
  induction fuel with
  | zero =>
    intro target matched args rest t s s' h
    cases args with
    | nil =>
      simp only [modeLoop, M.pure_apply, Prod.mk.injEq, Out.ok.injEq] at h
      obtain ⟨⟨rfl, rfl⟩, -⟩ := h
      exact ⟨rfl, rfl, rfl, fun l hl => .inl hl⟩
    | cons x xs => simp [modeLoop] at h
  | succ fuel ih =>
    intro target matched args rest t s s' h
    cases args with
    | nil =>
      simp only [modeLoop, M.pure_apply, Prod.mk.injEq, Out.ok.injEq] at h
      obtain ⟨⟨rfl, rfl⟩, -⟩ := h
      exact ⟨rfl, rfl, rfl, fun l hl => .inl hl⟩
    | cons front more =>
      rw [modeLoop, M.bind_eq_ok] at h
      obtain ⟨o, s1, h1, h2⟩ := h
      cases o with
      | none =>
        simp only at h2
        split at h2
        · simp [M.throw] at h2
        · simp only [M.lift_apply, Prod.mk.injEq] at h2
          exact absurd h2.1 (unknownArgument_ne_ok _ _ _ _)
      | some x =>
        obtain ⟨i, t1, args'⟩ := x
        obtain ⟨e1, e2, e3, e4⟩ := ih _ _ _ _ _ _ _ h2
        refine ⟨e1, e2, e3, ?_⟩
        intro l hl
        rcases e4 l hl with h5 | h5
        · rcases List.mem_append.1 h5 with h6 | h6
          · exact .inl h6
          · right
            obtain ⟨k, c, s2, hi, hc, hk, hm⟩ := modeStep_index _ _ h1
            obtain ⟨m, hmem, hg, ⟨v, s2, s3, hlf⟩, s4, s5, hv⟩ := match_leaf _ _ _ _ hm
            have hmm := child_mem_nodes (List.mem_of_getElem? hc) m hmem
            unfold flattenMatch at h6
            split at h6
            · simp only [List.mem_singleton] at h6
              subst h6
              left
              show t1.node ∈ _
              rw [(leafPreParse_node hlf).1]
              exact hmm
            · obtain ⟨m', h7, h8⟩ := leaf_sub_nodes hlf l h6
              exact .inr ⟨m, hmm, m', h7, h8⟩
        · exact .inr h5

theorem modeBody_spec {cfg : Config} {mode : Node} {parents : List Node} {args rest : List Token}
    {validator : Validator} {t : Target} {s s' : St}
    (h : modeBody cfg mode parents validator args s = (.ok (some (t, rest)), s')) :
    rest = [] ∧ t.node = mode ∧ ∀ l ∈ t.subs, SubOrigin mode parents l.node := by
  rw [modeBody, M.bind_eq_ok] at h
  obtain ⟨ok, s1, -, h2⟩ := h
  split at h2
  · simp at h2
  · simp only [M.bind_eq_ok, M.pure_apply, Prod.mk.injEq, Out.ok.injEq, Option.some.injEq] at h2
    obtain ⟨⟨t', r'⟩, s2, h3, h4, rfl⟩ := h2
    cases h4
    obtain ⟨e1, e2, -, e4⟩ := modeLoop_spec _ _ _ _ _ _ _ _ _ _ _ h3
    refine ⟨e1, e2, fun l hl => ?_⟩
    rcases e4 l hl with h | h
    · cases h
    · exact h

mutual
theorem preParseMode_spec (cfg : Config) (validator : Validator) :
    ∀ (n : Node) (parents : List Node) (args rest : List Token) (t : Target) (s s' : St),
    preParseMode cfg parents args validator n s = (.ok (some (t, rest)), s') →
    rest = [] ∧ ∃ above, (t.node ∈ n.nodes ∧ (n.kind = .mode → t.node.kind = .mode)) ∧
      (∀ x ∈ above, (x ∈ n.nodes ∧ (n.kind = .mode → x.kind = .mode)) ∨ x ∈ parents) ∧
      ∀ l ∈ t.subs, SubOrigin t.node above l.node
  | .mk k u h v p cs, parents, args, rest, t, s, s', hm => by
    have body : ∀ {args s}, modeBody cfg (.mk k u h v p cs) parents validator args s =
        (.ok (some (t, rest)), s') → rest = [] ∧ ∃ above, (t.node ∈ (Node.mk k u h v p cs).nodes ∧
          (k = .mode → t.node.kind = .mode)) ∧
      (∀ x ∈ above, (x ∈ (Node.mk k u h v p cs).nodes ∧ (k = .mode → x.kind = .mode)) ∨
        x ∈ parents) ∧
      ∀ l ∈ t.subs, SubOrigin t.node above l.node := by
      intro args s h1
      obtain ⟨e1, e2, e3⟩ := modeBody_spec h1
      refine ⟨e1, parents, ?_, fun x hx => .inr hx, ?_⟩
      · rw [e2]; exact ⟨self_mem_nodes _, fun h => h⟩
      · rw [e2]; exact e3
    rw [preParseMode] at hm
    split at hm
    · exact body hm
    · rw [M.bind_eq_ok] at hm
      obtain ⟨o, s1, -, h2⟩ := hm
      cases o with
      | none => simp at h2
      | some x =>
        obtain ⟨t1, args'⟩ := x
        simp only at h2
        split at h2
        · exact body h2
        · rw [M.bind_eq_ok] at h2
          obtain ⟨o, s2, h3, h4⟩ := h2
          cases o with
          | none => exact body h4
          | some y =>
            simp only [M.pure_apply, Prod.mk.injEq, Out.ok.injEq, Option.some.injEq] at h4
            obtain ⟨rfl, rfl⟩ := h4
            obtain ⟨e1, above, e2, e3, e4⟩ := preParseChildModes_spec cfg validator cs _ _ _ _ _ _ h3
            rw [nodes_mk]
            refine ⟨e1, above, ⟨List.mem_cons_of_mem _ e2.1, fun _ => e2.2⟩, ?_, e4⟩
            intro x hx
            rcases e3 x hx with h5 | h5
            · exact .inl ⟨List.mem_cons_of_mem _ h5.1, fun _ => h5.2⟩
            · rcases List.mem_cons.1 h5 with rfl | h6
              · exact .inl ⟨List.mem_cons_self, fun h => h⟩
              · exact .inr h6
theorem preParseChildModes_spec (cfg : Config) (validator : Validator) :
    ∀ (ns : List Node) (parents : List Node) (args rest : List Token) (t : Target) (s s' : St),
    preParseChildModes cfg parents args validator ns s = (.ok (some (t, rest)), s') →
    rest = [] ∧ ∃ above, (t.node ∈ nodesList ns ∧ t.node.kind = .mode) ∧
      (∀ x ∈ above, (x ∈ nodesList ns ∧ x.kind = .mode) ∨ x ∈ parents) ∧
      ∀ l ∈ t.subs, SubOrigin t.node above l.node
  | [], _, _, _, _, _, _, h => by simp [preParseChildModes] at h
  | .mk k u hh v p cs :: ns, parents, args, rest, t, s, s', h => by
    have later : ∀ {s1}, preParseChildModes cfg parents args validator ns s1 =
        (.ok (some (t, rest)), s') → rest = [] ∧ ∃ above,
        (t.node ∈ nodesList (.mk k u hh v p cs :: ns) ∧ t.node.kind = .mode) ∧
      (∀ x ∈ above, (x ∈ nodesList (.mk k u hh v p cs :: ns) ∧ x.kind = .mode) ∨ x ∈ parents) ∧
      ∀ l ∈ t.subs, SubOrigin t.node above l.node := by
      intro s1 h1
      obtain ⟨e1, above, e2, e3, e4⟩ := preParseChildModes_spec cfg validator ns _ _ _ _ _ _ h1
      simp only [nodesList, List.flatMap_cons, List.mem_append] at e2 e3 ⊢
      refine ⟨e1, above, ⟨.inr e2.1, e2.2⟩, ?_, e4⟩
      intro x hx
      rcases e3 x hx with h5 | h5
      · exact .inl ⟨.inr h5.1, h5.2⟩
      · exact .inr h5
    rw [preParseChildModes] at h
    split at h
    · rename_i hk
      have hk : k = .mode := by simpa using hk
      rw [M.bind_eq_ok] at h
      obtain ⟨o, s1, h1, h2⟩ := h
      cases o with
      | none => exact later h2
      | some y =>
        simp only [M.pure_apply, Prod.mk.injEq, Out.ok.injEq, Option.some.injEq] at h2
        obtain ⟨rfl, rfl⟩ := h2
        obtain ⟨e1, above, e2, e3, e4⟩ := preParseMode_spec cfg validator _ _ _ _ _ _ _ h1
        simp only [nodesList, List.flatMap_cons, List.mem_append] at e2 e3 ⊢
        refine ⟨e1, above, ⟨.inl e2.1, e2.2 hk⟩, ?_, e4⟩
        intro x hx
        rcases e3 x hx with h5 | h5
        · exact .inl ⟨.inl h5.1, h5.2 hk⟩
        · exact .inr h5
    · exact later h
end

/-- C19: if a mode accepts a command line then nothing is left over, the mode it selects is the
mode itself or a mode below it, and if that mode can route at all then every argument that
was recognised belongs to a node of that mode. -/
theorem C19_all_consumed (cfg : Config) (mode : Node) (parents : List Node)
    (args rest : List Token) (t : Target) (s s' : St)
    (h : preParseMode cfg parents args alwaysTrue mode s = (.ok (some (t, rest)), s')) :
    rest = [] ∧ t.node ∈ mode.nodes ∧
      (t.node.hasRouter = true → ∀ l ∈ t.subs, l.node ∈ t.node.nodes) := by
  obtain ⟨e1, above, e2, -, e4⟩ := preParseMode_spec _ _ _ _ _ _ _ _ _ h
  refine ⟨e1, e2.1, ?_⟩
  intro hr l hl
  rcases e4 l hl with h1 | ⟨n, hn, m, hm, hx⟩
  · exact h1
  · rw [nearestModeLike, List.find?_cons] at hm
    split at hm
    · cases hm
      exact nodes_trans _ _ hn _ hx
    · rw [List.find?_cons, hr] at hm
      cases hm
      exact hx

theorem nearest_mem {ns : List Node} {m : Node} (h : nearestModeLike ns = some m) : m ∈ ns :=
  List.mem_of_find?_eq_some h

/-- Everything a root child's target refers to is in the tree. -/
theorem offerTo_nodes {cfg : Config} {root c : Node} {args rest : List Token} {t : Target}
    {s s' : St} (hc : c ∈ root.children)
    (h : offerTo cfg root args c s = (.ok (some (t, rest)), s')) :
    t.node ∈ c.nodes ∧ ∀ l ∈ t.subs, l.node ∈ root.nodes := by
  have hcn := child_mem_nodes hc
  unfold offerTo at h
  split at h
  · obtain ⟨-, above, e2, e3, e4⟩ := preParseMode_spec _ _ _ _ _ _ _ _ _ h
    have hab : ∀ x ∈ above, x ∈ root.nodes := by
      intro x hx
      rcases e3 x hx with h1 | h1
      · exact hcn _ h1.1
      · simp only [List.mem_singleton] at h1; subst h1; exact self_mem_nodes _
    refine ⟨e2.1, fun l hl => ?_⟩
    have ht := hcn _ e2.1
    rcases e4 l hl with h1 | ⟨n, hn, m, hm, hx⟩
    · exact nodes_trans _ _ ht _ h1
    · have : m ∈ root.nodes := by
        rcases List.mem_cons.1 (nearest_mem hm) with rfl | h2
        · exact nodes_trans _ _ ht _ hn
        · rcases List.mem_cons.1 h2 with rfl | h3
          · exact ht
          · exact hab _ h3
      exact nodes_trans _ _ this _ hx
  · obtain ⟨m, hm, -, ⟨v, s1, s2, hl⟩, -⟩ := match_leaf _ _ _ _ h
    have hn : t.node = m := (leafPreParse_node hl).1
    refine ⟨by rw [hn]; exact hm, fun l hll => ?_⟩
    obtain ⟨x, hx, hx2⟩ := leaf_sub_nodes hl l hll
    have : x ∈ root.nodes := by
      rcases List.mem_cons.1 (nearest_mem hx) with rfl | h2
      · exact hcn _ hm
      · simp only [List.mem_singleton] at h2; subst h2; exact self_mem_nodes _
    exact nodes_trans _ _ this _ hx2

theorem parsersEnd_sub {root x : Node} (h : ParsersEnd root) (hx : x ∈ root.nodes) :
    ParsersEnd x := fun m hm => h m (nodes_trans _ _ hx _ hm)

theorem ends_rootLoop (cfg : Config) (root : Node) (args : List Token) (hrep : RepeatableNamed root)
    (hp : ParsersEnd root) (cs : List Node) (hcs : ∀ c ∈ cs, c ∈ root.children) :
    Ends (rootLoop cfg root args cs) := by
  induction cs with
  | nil => exact Ends.pure _
  | cons c cs ih =>
    have hc := hcs c List.mem_cons_self
    rw [rootLoop]
    refine Ends.bind ?_ ?_
    · unfold offerTo
      split
      · exact ends_preParseMode _ _ _ _ (fun _ => Ends.pure _) _
          fun m hm => hrep m (child_mem_nodes hc m hm)
      · exact ends_preParse _ _ _ _ _ _ fun _ => Ends.pure _
    · intro o s1 s2 h1
      cases o with
      | none => exact ih (fun x hx => hcs x (List.mem_cons_of_mem _ hx)) s2
      | some x =>
        obtain ⟨t, rest⟩ := x
        obtain ⟨e1, e2⟩ := offerTo_nodes hc h1
        simp only
        split
        · simp [M.throw]
        · refine Ends.bind' ?_ (fun _ => Ends.pure _) s2
          unfold runTarget
          split
          · exact ends_parseMode _ _ (parsersEnd_sub hp (child_mem_nodes hc _ e1))
              fun l hl => parsersEnd_sub hp (e2 l hl)
          · exact Ends.bind' (ends_parseLeaf _
              (parsersEnd_sub hp (child_mem_nodes hc _ e1))) fun _ => Ends.pure _

/-- C18 for the whole parse: `root.parse` ends on every command line, if the parsers of the value
types do. -/
theorem C18_parse_ends (cfg : Config) (root : Node) (args : List Bytes)
    (hrep : RepeatableNamed root) (hp : ParsersEnd root) (s : St) :
    (parseArgs cfg root args s).1 ≠ .diverge := by
  unfold parseArgs rootParse
  refine Ends.bind' (ends_rootLoop cfg root _ hrep hp _ fun _ h => h) ?_ s
  intro done
  split
  · exact Ends.pure _
  · simp only
    split
    · exact Ends.throw _
    · exact Ends.lift (unknownArgument_ne_diverge _ _ _)

/-- A counting flag `-v`/`--verbose` with short-form expansion. -/
def verbose : Node := .mk .countingFlag 21 21
  ⟨false, .one (.int 0), fun s => .ok (.str s)⟩
  [.longName (b "verbose"), .shortName (b "v"), .minMaxCount 0 0, .shortFormExpander,
    .multiStage fun old _ => some (match old with
      | some (.one (.int n)) => .one (.int (n + 1))
      | _ => .one (.int 1))] []
/-- A mode with it and a flag. -/
def verboseMode : Node := .mk .mode 22 22 ⟨false, .one (.bool false), fun s => .ok (.str s)⟩
  [.router] [verbose, aFlag]
def verboseRoot : Node := .mk .root 23 23 ⟨false, .one (.bool false), fun s => .ok (.str s)⟩
  [] [verboseMode]

theorem verbose_ok : RepeatableNamed verboseRoot ∧ ParsersEnd verboseRoot := by
  constructor
  · intro m hm
    simp only [verboseRoot, verboseMode, verbose, aFlag, nodes_mk, nodesList, List.flatMap_cons,
      List.flatMap_nil, List.append_nil, List.mem_cons, List.mem_append, List.not_mem_nil,
      or_false] at hm
    rcases hm with rfl | rfl | rfl | rfl
    · exact fun h => absurd h (by decide +kernel)
    · exact fun h => absurd h (by decide +kernel)
    · exact fun _ => by decide +kernel
    · exact fun h => absurd h (by decide +kernel)
  · intro m hm
    simp only [verboseRoot, verboseMode, verbose, aFlag, nodes_mk, nodesList, List.flatMap_cons,
      List.flatMap_nil, List.append_nil, List.mem_cons, List.mem_append, List.not_mem_nil,
      or_false] at hm
    rcases hm with rfl | rfl | rfl | rfl <;>
      exact ⟨fun s => by simp [Node.vt], fun f hf => by simp [Node.policies] at hf,
        fun t f hf => by simp [Node.policies] at hf, fun f hf => by simp [Node.policies] at hf⟩

/-- The hypotheses of C18 are met by a mode whose command line grows while it is parsed. -/
example : (parseArgs .default verboseRoot [b "-vvv", b "-v"] .fresh) =
    (.ok (), ⟨[], [⟨22, [.one (.int 4), .one (.bool false)]⟩]⟩) := by decide +kernel

example : (match (preParseMode .default [verboseRoot] [⟨.none, b "-vvv"⟩, ⟨.none, b "-v"⟩]
      alwaysTrue verboseMode .fresh).1 with
    | .ok (some (t, [])) => t.subs.length == 4 && t.node.hasRouter
    | _ => false) = true := by decide +kernel

end Props

end ArgRouter
