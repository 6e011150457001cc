import Verif.Props.Enable

/-!
# C12 – dependent arguments, C13 – aliases
-/

namespace ArgRouter

namespace Props

open Spec

theorem nearestModeLike_iff (parents : List Node) (mode : Node) :
    nearestModeLike parents = some mode ↔ InnermostRouting parents mode := by
  simp only [nearestModeLike, List.find?_eq_some_iff_append, InnermostRouting]
  constructor
  · rintro ⟨h, as, bs, rfl, hn⟩
    exact ⟨as, bs, rfl, h, fun n hm => by simpa using hn n hm⟩
  · rintro ⟨pre, post, rfl, h, hn⟩
    exact ⟨h, pre, post, rfl, fun n hm => by simp [hn n hm]⟩

mutual
theorem walk_fst (ps qs : List Node) : ∀ n : Node,
    (Node.walk ps n).map (·.1) = (Node.walk qs n).map (·.1)
  | .mk k u h v p cs => by
    simp only [Node.walk, List.map_cons]
    rw [walkList_fst _ (.mk k u h v p cs :: qs) cs]
theorem walkList_fst (ps qs : List Node) : ∀ ns : List Node,
    (Node.walkList ps ns).map (·.1) = (Node.walkList qs ns).map (·.1)
  | [] => rfl
  | c :: cs => by
    simp only [Node.walkList, List.map_append]
    rw [walk_fst ps qs c, walkList_fst ps qs cs]
end

/-- The nodes of a list of trees. -/
def nodesList (ns : List Node) : List Node := ns.flatMap Node.nodes

theorem walkList_nodes (ps : List Node) (ns : List Node) :
    (Node.walkList ps ns).map (·.1) = nodesList ns := by
  induction ns with
  | nil => rfl
  | cons c cs ih =>
    simp only [Node.walkList, List.map_append, ih, nodesList, List.flatMap_cons, Node.nodes]
    rw [walk_fst ps [] c]

theorem nodes_mk (k : Kind) (u h : Nat) (v : ValueType) (p : List Policy) (cs : List Node) :
    (Node.mk k u h v p cs).nodes = .mk k u h v p cs :: nodesList cs := by
  simp only [Node.nodes, Node.walk, List.map_cons]
  rw [walkList_nodes]

mutual
theorem mem_owners (refs : List NameRef) (d : Node) : ∀ n : Node,
    d ∈ n.owners refs ↔ d ∈ n.nodes ∧ NamedIn refs d
  | .mk k u h v p cs => by
    rw [Node.owners, nodes_mk, List.mem_append, mem_ownersList refs d cs]
    simp only [List.mem_map, List.mem_filter, List.mem_cons, List.contains_iff_mem]
    constructor
    · rintro (⟨h1, h2⟩ | ⟨r, ⟨hr1, hr2⟩, rfl⟩)
      · exact ⟨.inr h1, h2⟩
      · exact ⟨.inl rfl, r, hr1, hr2⟩
    · rintro ⟨rfl | h1, h2⟩
      · obtain ⟨r, hr1, hr2⟩ := h2
        exact .inr ⟨r, ⟨hr1, hr2⟩, rfl⟩
      · exact .inl ⟨h1, h2⟩
theorem mem_ownersList (refs : List NameRef) (d : Node) : ∀ ns : List Node,
    d ∈ Node.ownersList refs ns ↔ d ∈ nodesList ns ∧ NamedIn refs d
  | [] => by simp [Node.ownersList, nodesList]
  | c :: cs => by
    rw [Node.ownersList, List.mem_append, mem_owners refs d c, mem_ownersList refs d cs]
    simp only [nodesList, List.flatMap_cons, List.mem_append]
    constructor
    · rintro (⟨h1, h2⟩ | ⟨h1, h2⟩)
      · exact ⟨.inl h1, h2⟩
      · exact ⟨.inr h1, h2⟩
    · rintro ⟨h1 | h1, h2⟩
      · exact .inl ⟨h1, h2⟩
      · exact .inr ⟨h1, h2⟩
end

theorem seen_iff (target : Target) (n : Node) :
    (target.node.hash == n.hash || target.subs.any fun s => s.node.hash == n.hash) = true ↔
      Seen target n := by
  simp [Seen]

theorem dependentPhase_ok {parents : List Node} {processed : Option Target} {refs : List NameRef}
    {a a' : Adapter} {act : Action}
    (h : dependentPhase parents processed refs a = .ok (.ok act, a')) :
    act = .validNode ∧ a' = a ∧ ∃ mode sofar, InnermostRouting parents mode ∧
      processed = some sofar ∧ ∀ d ∈ mode.nodes, NamedIn refs d → Seen sofar d := by
  simp only [dependentPhase] at h
  split at h
  · rename_i mode target hm
    split at h
    · simp at h
    · rename_i hf
      simp only [Out.ok.injEq, Prod.mk.injEq, Except.ok.injEq] at h
      obtain ⟨rfl, rfl⟩ := h
      refine ⟨rfl, rfl, mode, target, (nearestModeLike_iff _ _).1 hm, rfl, ?_⟩
      intro d hd hn
      rw [List.find?_eq_none] at hf
      have := hf d ((mem_owners refs d mode).2 ⟨hd, hn⟩)
      rw [← seen_iff, ← Bool.not_eq_false]
      intro hc
      rw [hc] at this
      exact this rfl
  · cases h

theorem runPhases_dependent {cfg : Config} {n : Node} {parents : List Node}
    {processed : Option Target} {ps : List Policy} {refs : List NameRef}
    (hp : .dependent refs ∈ ps) {m : PreResult} {act : Action} {a a' : Adapter}
    {subs subs' : List Leaf} (hact : act ≠ .skipNode)
    (h : runPhases cfg n parents processed ps m a subs = .ok (.ok act, a', subs')) :
    ∃ mode sofar, InnermostRouting parents mode ∧
      processed = some sofar ∧ ∀ d ∈ mode.nodes, NamedIn refs d → Seen sofar d := by
  induction ps generalizing m a subs with
  | nil => cases hp
  | cons q qs ih =>
    simp only [runPhases] at h
    by_cases hq : q.hasPreParse = true
    · rw [if_pos hq] at h
      have step : ∀ x : Action, x ≠ .skipNode → m = .ok x →
          ∃ mode sofar, InnermostRouting parents mode ∧
            processed = some sofar ∧ ∀ d ∈ mode.nodes, NamedIn refs d → Seen sofar d := by
        rintro x hx rfl
        have h' : ∃ m1 a1 s1 m2, q.phase cfg n parents processed a subs = .ok (m1, a1, s1) ∧
            (∀ e, m1 = .error e → m2 = .error e) ∧
            (m1 = .ok .skipNode → m2 = .ok .skipNode) ∧
            runPhases cfg n parents processed qs m2 a1 s1 = .ok (.ok act, a', subs') := by
          cases x
          · exact absurd rfl hx
          · simp only [Out.bind_eq_ok, Prod.exists] at h
            obtain ⟨m1, a1, s1, h1, h2⟩ := h
            exact ⟨m1, a1, s1, _, h1, fun e he => he, fun he => he, h2⟩
          · simp only [Out.bind_eq_ok, Prod.exists] at h
            obtain ⟨m1, a1, s1, h1, h2⟩ := h
            refine ⟨m1, a1, s1, _, h1, ?_, ?_, h2⟩
            · rintro e rfl; rfl
            · rintro rfl; rfl
        obtain ⟨m1, a1, s1, m2, h1, he, hs, h2⟩ := h'
        rcases List.mem_cons.1 hp with rfl | hp'
        · simp only [Policy.phase, Out.bind_eq_ok, Prod.exists] at h1
          obtain ⟨r, a2, h3, h4⟩ := h1
          simp only [Out.pure_eq, Out.ok.injEq, Prod.mk.injEq] at h4
          obtain ⟨rfl, rfl, rfl⟩ := h4
          cases r with
          | error e =>
            rw [he e rfl, runPhases_error] at h2
            simp at h2
          | ok act' => exact (dependentPhase_ok h3).2.2
        · exact ih hp' h2
      match m with
      | .error e => simp at h
      | .ok .skipNode =>
        simp only [Out.ok.injEq, Prod.mk.injEq, Except.ok.injEq] at h
        exact absurd h.1.symm hact
      | .ok .validNode => exact step _ (by simp) rfl
      | .ok .skipNodeButUseSubTargets => exact step _ (by simp) rfl
    · rw [if_neg hq] at h
      rcases List.mem_cons.1 hp with rfl | hp'
      · exact absurd rfl hq
      · exact ih hp' h

/-- C12: a node with a `dependent` policy, whatever its other policies, matches only if every node
of the enclosing mode that has one of the listed names has been seen before. -/
theorem C12_only_after (cfg : Config) (n : Node) (refs : List NameRef) (parents : List Node)
    (args : List Token) (processed : Option Target) (validator : Validator) (s s' : St)
    (r : Target × List Token) (hp : .dependent refs ∈ n.policies)
    (h : leafPreParse cfg n parents args processed validator s = (.ok (some r), s')) :
    ∃ mode sofar, InnermostRouting parents mode ∧ processed = some sofar ∧
      ∀ d ∈ mode.nodes, NamedIn refs d → Seen sofar d := by
  simp only [leafPreParse, M.bind_eq_ok, M.lift_apply, Prod.exists, Prod.mk.injEq] at h
  obtain ⟨m, a, subs, s1, ⟨h1, rfl⟩, h2⟩ := h
  cases m with
  | error e =>
    cases hc : checkLabel cfg n (.error e) a with
    | none => rw [hc] at h2; simp at h2
    | some a' =>
      rw [hc] at h2
      simp only [M.bind_eq_ok] at h2
      obtain ⟨ok, s2, -, h3⟩ := h2
      cases ok <;> simp at h3
  | ok act =>
    by_cases hact : act = .skipNode
    · subst hact; simp [checkLabel] at h2
    · exact runPhases_dependent (mem_sortPolicies.2 hp) hact h1

/-- C12, the outcome spelled out for a named node with a value count: on `label rest...` with
enough values, if all dependencies have been seen the node takes its values as usual, otherwise
the parse fails naming the first dependency (in the order the mode declares them, children before
parents) that has not been seen. -/
theorem C12_outcome (cfg : Config) (n : Node) (refs : List NameRef) (mn mx : Nat)
    (parents : List Node) (mode : Node) (sofar : Target) (label : Token) (rest : List Token)
    (validator : Validator)
    (hp : MatchPolicies n [.minMaxCount mn mx, .dependent refs])
    (hmode : InnermostRouting parents mode)
    (hn : n.isNamed = true) (hmx : mx ≤ sizeMax)
    (hlen : rest.length + 1 < 2 ^ 63) (hl : IsLabel cfg n label) (hmn : mn ≤ rest.length) :
    ((∀ d ∈ mode.nodes, NamedIn refs d → Seen sofar d) →
      leafPreParse cfg n parents (label :: rest) (some sofar) validator =
        guarded validator n (pure (some (⟨n, rest.take mx, []⟩, rest.drop mx)))) ∧
    (∀ pre d post, mode.owners refs = pre ++ d :: post → (∀ x ∈ pre, Seen sofar x) →
      ¬ Seen sofar d → leafPreParse cfg n parents (label :: rest) (some sofar) validator =
        guarded validator n (M.throw ⟨.dependent_argument_missing, [d.tokenType]⟩)) := by
  have ht : labelTest cfg n label = true := (labelTest_iff _ _ _).2 hl
  have hphase : leafPreParse cfg n parents (label :: rest) (some sofar) validator =
      M.lift (dependentPhase parents (some sofar) refs
        ⟨(label :: rest).take (min (mx + 1) (rest.length + 1)),
          (label :: rest).drop (min (mx + 1) (rest.length + 1))⟩) >>= fun (m, a) =>
            leafTail cfg n validator m a [] := by
    rw [leafPreParse_eq, hp.phases (by simp [Policy.priority])]
    have : sortPolicies [.minMaxCount mn mx, .dependent refs] =
      [.minMaxCount mn mx, .dependent refs] := rfl
    rw [this, runPhases_cons_valid _ _ _ _ _ _ _ _ rfl]
    simp only [Policy.phase]
    rw [minMaxCountPhase_eq (no_marker hp (by simp)) hmx
      (by simpa [Adapter.size] using hlen) (.inl hn)]
    simp only [hn, if_true, Adapter.size, List.length_nil, List.length_cons, Nat.zero_add,
      Nat.add_lt_add_iff_right, tokenSeq, List.nil_append, Nat.max_zero]
    rw [if_neg (by omega)]
    simp only [Out.bind]
    rw [runPhases_cons_valid _ _ _ _ _ _ _ _ rfl]
    simp only [Policy.phase]
    cases dependentPhase parents (some sofar) refs
        ⟨(label :: rest).take (min (mx + 1) (rest.length + 1)),
          (label :: rest).drop (min (mx + 1) (rest.length + 1))⟩ <;> rfl
  have hmode' := (nearestModeLike_iff _ _).2 hmode
  rw [hphase]
  constructor
  · intro hall
    have hnone : (mode.owners refs).find? (fun n =>
        !(sofar.node.hash == n.hash || sofar.subs.any fun s => s.node.hash == n.hash)) = none := by
      rw [List.find?_eq_none]
      intro d hd
      obtain ⟨h1, h2⟩ := (mem_owners refs d mode).1 hd
      have := (seen_iff sofar d).2 (hall d h1 h2)
      simp [this]
    simp only [dependentPhase, hmode', hnone, M.lift_ok_bind]
    have hcl : checkLabel cfg n (.ok .validNode)
        ⟨(label :: rest).take (min (mx + 1) (rest.length + 1)),
          (label :: rest).drop (min (mx + 1) (rest.length + 1))⟩ = some
        ⟨(if label.pre == .none then n.getToken cfg label.name else label) :: rest.take mx,
          rest.drop mx⟩ := by
      rw [checkLabel_named hn (by simp) (by simp)]
      simp only [tokenSeq, List.take_append_drop, ht, if_true, List.tail_cons, List.length_take,
        List.length_cons, Option.some.injEq, Adapter.mk.injEq, List.cons.injEq, true_and]
      have : min (min (mx + 1) (rest.length + 1)) (rest.length + 1) - 1 = min mx rest.length := by
        omega
      rw [this]
      constructor
      · by_cases h : mx ≤ rest.length
        · rw [Nat.min_eq_left h]
        · rw [Nat.min_eq_right (by omega), List.take_length, List.take_of_length_le (by omega)]
      · by_cases h : mx ≤ rest.length
        · rw [Nat.min_eq_left h]
        · rw [Nat.min_eq_right (by omega), List.drop_length, List.drop_eq_nil_of_le (by omega)]
    rw [leafTail_some hcl]
    simp only [hn, if_true, List.tail_cons]
  · intro pre d post heq hpre hd
    have hsome : (mode.owners refs).find? (fun n =>
        !(sofar.node.hash == n.hash || sofar.subs.any fun s => s.node.hash == n.hash)) = some d := by
      rw [List.find?_eq_some_iff_append]
      refine ⟨?_, pre, post, heq, ?_⟩
      · rw [← seen_iff] at hd; simpa using hd
      · intro x hx
        have := (seen_iff sofar x).2 (hpre x hx)
        simp [this]
    simp only [dependentPhase, hmode', hsome, M.lift_ok_bind]
    generalize hk : min (mx + 1) (rest.length + 1) = k
    have hcl := checkLabel_named (cfg := cfg) (m := .error ⟨.dependent_argument_missing,
      [d.tokenType]⟩) (a := ⟨(label :: rest).take k, (label :: rest).drop k⟩) hn (by simp) (by simp)
    simp only [tokenSeq, List.take_append_drop, ht, if_true] at hcl
    exact leafTail_error hcl

/-- `--key VALUE` needs `--cert`. -/
def certArg : Node := .mk .arg 1 1 ⟨false, .one (.int 0), fun s => .ok (.str s)⟩
  [.minMaxCount 1 1, .longName (b "cert")] []
def keyArg : Node := .mk .arg 2 2 ⟨false, .one (.int 0), fun s => .ok (.str s)⟩
  [.minMaxCount 1 1, .longName (b "key"), .dependent [.long (b "cert")]] []
def tlsMode : Node := .mk .mode 3 3 ⟨false, .one (.bool false), fun s => .ok (.str s)⟩
  [.router] [certArg, keyArg]

example : MatchPolicies keyArg [.minMaxCount 1 1, .dependent [.long (b "cert")]] ∧
    InnermostRouting [tlsMode] tlsMode ∧ keyArg.isNamed = true ∧
    IsLabel .default keyArg ⟨.none, b "--key"⟩ ∧
    certArg ∈ tlsMode.nodes ∧ NamedIn [.long (b "cert")] certArg ∧
    ¬ Seen ⟨tlsMode, [], []⟩ certArg ∧ Seen ⟨tlsMode, [], [⟨certArg, []⟩]⟩ certArg := by
  refine ⟨List.Perm.refl _, ⟨[], [], rfl, by decide +kernel, by simp⟩, by decide +kernel,
    .inl ⟨b "key", by decide +kernel, by decide +kernel⟩, by simp [tlsMode, nodes_mk, nodesList,
      certArg], ⟨.long (b "cert"), by decide +kernel, by decide +kernel⟩, ?_, ?_⟩
  · rintro (h | ⟨l, hl, -⟩)
    · exact absurd h (by decide +kernel)
    · cases hl
  · exact .inr ⟨_, List.mem_cons_self, rfl⟩

/-! ## C13 -/

/-- C13: on `label values... rest...`, with as many values as the alias takes, the alias consumes
exactly its label and the values, gets nothing itself, and hands the same values to every node of
the enclosing mode that has one of the listed names. -/
theorem C13_targets (cfg : Config) (n : Node) (refs : List NameRef) (count : Nat)
    (parents : List Node) (mode : Node) (label : Token) (values rest : List Token)
    (processed : Option Target) (validator : Validator)
    (hp : MatchPolicies n [.minMaxCount count count, .alias refs])
    (hcnt : n.minMaxCount = some (count, count))
    (hmode : InnermostRouting (n :: parents) mode)
    (hn : n.isNamed = true) (hmx : count ≤ sizeMax)
    (hlen : (values ++ rest).length + 1 < 2 ^ 63) (hl : IsLabel cfg n label)
    (hv : values.length = count) :
    ∃ aliased : List Node, (∀ d, d ∈ aliased ↔ d ∈ mode.nodes ∧ NamedIn refs d) ∧
      leafPreParse cfg n parents (label :: (values ++ rest)) processed validator =
        guarded validator n (pure (some (⟨n, [], aliased.map fun d => ⟨d, values⟩⟩, rest))) := by
  have ht : n.matchToken (if label.pre == .none then n.getToken cfg label.name else label) =
    true := (labelTest_iff _ _ _).2 hl
  refine ⟨mode.nodes.filter fun d => d.nameRefs.any (refs.contains ·), ?_, ?_⟩
  · intro d
    rw [List.mem_filter]
    simp [NamedIn]
  · rw [leafPreParse_eq, hp.phases (by simp [Policy.priority])]
    have : sortPolicies [.minMaxCount count count, .alias refs] =
      [.minMaxCount count count, .alias refs] := rfl
    rw [this, runPhases_cons_valid _ _ _ _ _ _ _ _ rfl]
    simp only [Policy.phase]
    rw [minMaxCountPhase_eq (no_marker hp (by simp)) hmx
      (by simpa [Adapter.size] using hlen) (.inl hn)]
    simp only [hn, if_true, Adapter.size, List.length_nil, List.length_cons, Nat.zero_add,
      Nat.add_lt_add_iff_right, tokenSeq, List.nil_append, Nat.max_zero, List.length_append]
    rw [if_neg (by omega)]
    have hmin : min (count + 1) (values.length + rest.length + 1) = values.length + 1 := by omega
    have h1 : (label :: (values ++ rest)).take (values.length + 1) = label :: values := by simp
    have h2 : (label :: (values ++ rest)).drop (values.length + 1) = rest := by simp
    simp only [Out.bind, hmin, h1, h2]
    rw [runPhases_cons_valid _ _ _ _ _ _ _ _ rfl]
    simp only [Policy.phase, aliasPhase, hcnt, (nearestModeLike_iff _ _).2 hmode]
    have hsz : ¬ count + 1 > Adapter.size ⟨label :: values, rest⟩ := by
      simp only [Adapter.size, List.length_cons]; omega
    rw [if_neg hsz]
    have hdr : Adapter.deref ⟨label :: values, rest⟩ Adapter.begin_ = .ok label := by rfl
    simp only [hdr, Out.ok_bind, ht, Bool.not_true, Bool.false_eq_true, if_false]
    obtain ⟨-, t2, t3⟩ := C04_transfer ⟨label :: values, rest⟩ count
      (by simp only [Adapter.size, List.length_cons]; omega)
    have htr : Adapter.transfer ⟨label :: values, rest⟩ (Adapter.begin_.add count) =
        ⟨label :: values, rest⟩ := by
      have hmax : max (count + 1) (values.length + 1) = (label :: values).length := by
        simp only [List.length_cons]; omega
      simp only [tokenSeq, List.length_cons, hmax] at t2 t3
      simp only [List.length_cons] at hmax
      rw [← List.length_cons (a := label), List.take_left] at t2
      rw [← List.length_cons (a := label), List.drop_left] at t3
      cases hA : Adapter.transfer ⟨label :: values, rest⟩ (Adapter.begin_.add count)
      simp only [at_, hA] at t2 t3
      rw [t2, t3]
    have e1 : ((label :: values) ++ rest).drop 1 = values ++ rest := rfl
    have e2 : (values ++ rest).take count = values := by rw [← hv, List.take_left]
    have e3 : (label :: values).drop (count + 1) = [] := by
      rw [List.drop_eq_nil_of_le]; simp only [List.length_cons]; omega
    simp only [htr, e1, e2, e3, List.nil_append, Out.pure_eq]
    simp only [Out.bind, runPhases, M.lift_ok_bind]
    rw [leafTail_some (a' := ⟨[], rest⟩) rfl]
    simp [hn]

theorem runPhases_alias (cfg : Config) (n : Node) (refs : List NameRef) (count : Nat)
    (parents : List Node) (mode : Node) (label : Token) (values rest : List Token)
    (processed : Option Target) (more : List Policy) (hm : n.hasTokenEndMarker = false)
    (hcnt : n.minMaxCount = some (count, count))
    (hmode : InnermostRouting (n :: parents) mode)
    (hn : n.isNamed = true) (hmx : count ≤ sizeMax)
    (hlen : (values ++ rest).length + 1 < 2 ^ 63) (hl : IsLabel cfg n label)
    (hv : values.length = count) :
    runPhases cfg n parents processed (.minMaxCount count count :: .alias refs :: more)
        (.ok .validNode) ⟨[], label :: (values ++ rest)⟩ [] =
      runPhases cfg n parents processed more (.ok .skipNodeButUseSubTargets) ⟨[], rest⟩
        ((mode.nodes.filter fun d => d.nameRefs.any (refs.contains ·)).map fun d => ⟨d, values⟩) := by
  have ht : n.matchToken (if label.pre == .none then n.getToken cfg label.name else label) =
    true := (labelTest_iff _ _ _).2 hl
  rw [runPhases_cons_valid _ _ _ _ _ _ _ _ rfl]
  simp only [Policy.phase]
  rw [minMaxCountPhase_eq hm hmx (by simpa [Adapter.size] using hlen) (.inl hn)]
  simp only [hn, if_true, Adapter.size, List.length_nil, List.length_cons, Nat.zero_add,
    Nat.add_lt_add_iff_right, tokenSeq, List.nil_append, Nat.max_zero, List.length_append]
  rw [if_neg (by omega)]
  have hmin : min (count + 1) (values.length + rest.length + 1) = values.length + 1 := by omega
  have h1 : (label :: (values ++ rest)).take (values.length + 1) = label :: values := by simp
  have h2 : (label :: (values ++ rest)).drop (values.length + 1) = rest := by simp
  simp only [Out.bind, hmin, h1, h2]
  rw [runPhases_cons_valid _ _ _ _ _ _ _ _ rfl]
  simp only [Policy.phase, aliasPhase, hcnt, (nearestModeLike_iff _ _).2 hmode]
  have hsz : ¬ count + 1 > Adapter.size ⟨label :: values, rest⟩ := by
    simp only [Adapter.size, List.length_cons]; omega
  rw [if_neg hsz]
  have hdr : Adapter.deref ⟨label :: values, rest⟩ Adapter.begin_ = .ok label := by rfl
  simp only [hdr, Out.ok_bind, ht, Bool.not_true, Bool.false_eq_true, if_false]
  obtain ⟨-, t2, t3⟩ := C04_transfer ⟨label :: values, rest⟩ count
    (by simp only [Adapter.size, List.length_cons]; omega)
  have htr : Adapter.transfer ⟨label :: values, rest⟩ (Adapter.begin_.add count) =
      ⟨label :: values, rest⟩ := by
    have hmax : max (count + 1) (values.length + 1) = (label :: values).length := by
      simp only [List.length_cons]; omega
    simp only [tokenSeq, List.length_cons, hmax] at t2 t3
    simp only [List.length_cons] at hmax
    rw [← List.length_cons (a := label), List.take_left] at t2
    rw [← List.length_cons (a := label), List.drop_left] at t3
    cases hA : Adapter.transfer ⟨label :: values, rest⟩ (Adapter.begin_.add count)
    simp only [at_, hA] at t2 t3
    rw [t2, t3]
  have e1 : ((label :: values) ++ rest).drop 1 = values ++ rest := rfl
  have e2 : (values ++ rest).take count = values := by rw [← hv, List.take_left]
  have e3 : (label :: values).drop (count + 1) = [] := by
    rw [List.drop_eq_nil_of_le]; simp only [List.length_cons]; omega
  simp only [htr, e1, e2, e3, List.nil_append, Out.pure_eq]
  simp only [Out.bind]

/-- C12, what happens with an alias that is itself dependent. If its dependencies have been seen it does
what C13 says. If one has not, the alias is not recognised – the error is reported only if the token that
follows its values happens to be a label of the alias too. -/
theorem C12_alias_exact (cfg : Config) (n : Node) (refs deps : List NameRef) (count : Nat)
    (parents : List Node) (mode outer : Node) (sofar : Target) (label : Token)
    (values rest : List Token) (validator : Validator)
    (hp : MatchPolicies n [.minMaxCount count count, .alias refs, .dependent deps])
    (hcnt : n.minMaxCount = some (count, count))
    (hmode : InnermostRouting (n :: parents) mode) (houter : InnermostRouting parents outer)
    (hn : n.isNamed = true) (hmx : count ≤ sizeMax)
    (hlen : (values ++ rest).length + 1 < 2 ^ 63) (hl : IsLabel cfg n label)
    (hv : values.length = count) :
    ((∀ d ∈ outer.nodes, NamedIn deps d → Seen sofar d) →
      ∃ aliased : List Node, (∀ d, d ∈ aliased ↔ d ∈ mode.nodes ∧ NamedIn refs d) ∧
        leafPreParse cfg n parents (label :: (values ++ rest)) (some sofar) validator =
          guarded validator n (pure (some (⟨n, [], aliased.map fun d => ⟨d, values⟩⟩, rest)))) ∧
    (∀ pre d post, outer.owners deps = pre ++ d :: post → (∀ x ∈ pre, Seen sofar x) →
      ¬ Seen sofar d →
      ((∀ t ∈ rest.head?, ¬ IsLabel cfg n t) →
        leafPreParse cfg n parents (label :: (values ++ rest)) (some sofar) validator = pure none) ∧
      ((∃ t ∈ rest.head?, IsLabel cfg n t) →
        leafPreParse cfg n parents (label :: (values ++ rest)) (some sofar) validator =
          guarded validator n (M.throw ⟨.dependent_argument_missing, [d.tokenType]⟩))) := by
  have houter' := (nearestModeLike_iff _ _).2 houter
  have hph : ∀ r, dependentPhase parents (some sofar) deps ⟨[], rest⟩ = .ok (r, ⟨[], rest⟩) →
      leafPreParse cfg n parents (label :: (values ++ rest)) (some sofar) validator =
        leafTail cfg n validator
          (match r with | .ok .validNode => .ok .skipNodeButUseSubTargets | r => r) ⟨[], rest⟩
          ((mode.nodes.filter fun d => d.nameRefs.any (refs.contains ·)).map fun d => ⟨d, values⟩) := by
    intro r hr
    rw [leafPreParse_eq, hp.phases (by simp [Policy.priority])]
    have : sortPolicies [.minMaxCount count count, .alias refs, .dependent deps] =
      [.minMaxCount count count, .alias refs, .dependent deps] := rfl
    rw [this, runPhases_alias cfg n refs count parents mode label values rest (some sofar) _
      (no_marker hp (by simp)) hcnt hmode hn hmx hlen hl hv]
    simp only [runPhases, Policy.hasPreParse, if_true, Policy.phase, hr, Out.ok_bind, Out.pure_eq,
      M.lift_ok_bind]
    cases r with
    | error e => rfl
    | ok act => cases act <;> rfl
  constructor
  · intro hall
    refine ⟨mode.nodes.filter fun d => d.nameRefs.any (refs.contains ·), ?_, ?_⟩
    · intro d
      rw [List.mem_filter]
      simp [NamedIn]
    · have hnone : (outer.owners deps).find? (fun n =>
          !(sofar.node.hash == n.hash || sofar.subs.any fun s => s.node.hash == n.hash)) = none := by
        rw [List.find?_eq_none]
        intro d hd
        obtain ⟨h1, h2⟩ := (mem_owners deps d outer).1 hd
        have := (seen_iff sofar d).2 (hall d h1 h2)
        simp [this]
      rw [hph (.ok .validNode) (by simp only [dependentPhase, houter', hnone]),
        leafTail_some (a' := ⟨[], rest⟩) rfl]
      simp [hn]
  · intro pre d post heq hpre hd
    have hsome : (outer.owners deps).find? (fun n =>
        !(sofar.node.hash == n.hash || sofar.subs.any fun s => s.node.hash == n.hash)) = some d := by
      rw [List.find?_eq_some_iff_append]
      refine ⟨?_, pre, post, heq, ?_⟩
      · rw [← seen_iff] at hd; simpa using hd
      · intro x hx
        have := (seen_iff sofar x).2 (hpre x hx)
        simp [this]
    rw [hph (.error ⟨.dependent_argument_missing, [d.tokenType]⟩)
      (by simp only [dependentPhase, houter', hsome])]
    have hcl := checkLabel_named (cfg := cfg) (m := .error ⟨.dependent_argument_missing,
      [d.tokenType]⟩) (a := ⟨[], rest⟩) hn (by simp) (by simp)
    simp only [tokenSeq, List.nil_append] at hcl
    constructor
    · intro h
      refine leafTail_none ?_
      rw [hcl]
      cases rest with
      | nil => rfl
      | cons t ts =>
        have := h t rfl
        rw [← labelTest_iff, Bool.not_eq_true] at this
        simp [this]
    · rintro ⟨t, ht, h⟩
      cases rest with
      | nil => cases ht
      | cons t' ts =>
        simp only [List.head?_cons, Option.mem_def, Option.some.injEq] at ht
        subst ht
        simp only [(labelTest_iff _ _ _).2 h, if_true] at hcl
        exact leafTail_error hcl

/-- C13: what the mode records for the alias is, for each aliased node, exactly what it would have
recorded for that node had it been given the values directly (and nothing else). -/
theorem C13_same_as_direct (cfg : Config) (d : Node) (parents : List Node)
    (label : Token) (values rest : List Token) (processed : Option Target)
    (validator : Validator) (hp : MatchPolicies d [.minMaxCount values.length values.length])
    (hn : d.isNamed = true) (hlen : (values ++ rest).length + 1 < 2 ^ 63) (hl : IsLabel cfg d label)
    (alias : Node) (aliased : List Node) (hd : aliased ≠ []) :
    flattenMatch ⟨alias, [], aliased.map fun d => ⟨d, values⟩⟩ =
      aliased.map (fun d => ⟨d, values⟩) ∧
    leafPreParse cfg d parents (label :: (values ++ rest)) processed validator =
      guarded validator d (pure (some (⟨d, values, []⟩, rest))) ∧
    flattenMatch ⟨d, values, []⟩ = [⟨d, values⟩] := by
  refine ⟨?_, ?_, rfl⟩
  · cases aliased with
    | nil => exact absurd rfl hd
    | cons x xs => rfl
  · have h63 : values.length ≤ sizeMax := by
      have hsm : sizeMax = 18446744073709551615 := by decide
      rw [List.length_append] at hlen; omega
    rw [C07_named cfg d _ _ parents label (values ++ rest) processed validator hp hn h63 hlen hl,
      if_pos (by simp)]
    simp

/-- `-a` and `-b`, `--both` as an alias for them, and `--all` as an alias for `--both`. -/
def aFlag : Node := .mk .flag 1 1 ⟨false, .one (.bool false), fun s => .ok (.str s)⟩
  [.defaultValue (.one (.bool false)), .minMaxCount 0 0, .longName (b "aa")] []
def bFlag : Node := .mk .flag 2 2 ⟨false, .one (.bool false), fun s => .ok (.str s)⟩
  [.defaultValue (.one (.bool false)), .minMaxCount 0 0, .longName (b "bb")] []
def bothFlag : Node := .mk .flag 3 3 ⟨false, .one (.bool false), fun s => .ok (.str s)⟩
  [.defaultValue (.one (.bool false)), .minMaxCount 0 0, .longName (b "both"),
    .alias [.long (b "aa"), .long (b "bb")]] []
def allFlag : Node := .mk .flag 4 4 ⟨false, .one (.bool false), fun s => .ok (.str s)⟩
  [.defaultValue (.one (.bool false)), .minMaxCount 0 0, .longName (b "all"),
    .alias [.long (b "both")]] []
def aliasMode : Node := .mk .mode 5 5 ⟨false, .one (.bool false), fun s => .ok (.str s)⟩
  [.router] [aFlag, bFlag, bothFlag, allFlag]
def aliasRoot : Node := .mk .root 6 6 ⟨false, .one (.bool false), fun s => .ok (.str s)⟩
  [] [aliasMode]

example : MatchPolicies bothFlag [.minMaxCount 0 0, .alias [.long (b "aa"), .long (b "bb")]] ∧
    bothFlag.minMaxCount = some (0, 0) ∧ InnermostRouting [bothFlag, aliasMode] aliasMode ∧
    bothFlag.isNamed = true ∧ IsLabel .default bothFlag ⟨.none, b "--both"⟩ :=
  ⟨List.Perm.refl _, by decide +kernel,
    ⟨[bothFlag], [], rfl, by decide +kernel, by simp [bothFlag, Node.hasRouter, Node.policies]⟩,
    by decide +kernel, .inl ⟨b "both", by decide +kernel, by decide +kernel⟩⟩

/-- C13 is false for an alias of an alias (which the library accepts): `--both` sets both flags,
its alias `--all` sets nothing and is silently ignored. -/
theorem C13_nested_false :
    parseArgs .default aliasRoot [b "--both"] .fresh =
      (.ok (), ⟨[], [⟨5, [.one (.bool true), .one (.bool true)]⟩]⟩) ∧
    parseArgs .default aliasRoot [b "--all"] .fresh =
      (.ok (), ⟨[], [⟨5, [.one (.bool false), .one (.bool false)]⟩]⟩) := by
  decide +kernel

end Props

end ArgRouter
