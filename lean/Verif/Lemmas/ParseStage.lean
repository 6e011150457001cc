import Verif.Lemmas.Monad

/-!
# Lemmas about the second stage: from sub-targets to router arguments
-/

namespace ArgRouter

theorem lift_bind_lift {α β : Type} (o : Out α) (f : α → Out β) :
    (M.lift o >>= fun a => M.lift (f a)) = M.lift (o >>= f) := by
  funext s
  cases o <;> rfl

/-- The value validation as stateless code. -/
def validationOf (n : Node) (v : Value) : List Policy → Out Unit
  | [] => .ok ()
  | .minMaxValue lo hi less :: ps =>
    if (lo.map (less v)).getD false then .throw ⟨.minimum_value_not_reached, [n.tokenType]⟩
    else if (hi.map (less · v)).getD false then .throw ⟨.maximum_value_exceeded, [n.tokenType]⟩
    else validationOf n v ps
  | .validation _ f :: ps => do
    f v
    validationOf n v ps
  | _ :: ps => validationOf n v ps

theorem runValidation_eq (n : Node) (v : Value) (ps : List Policy) :
    runValidation n v ps = M.lift (validationOf n v ps) := by
  induction ps with
  | nil => rfl
  | cons p ps ih =>
    cases p <;> simp only [runValidation, validationOf] <;> try exact ih
    · split
      · rfl
      · split
        · rfl
        · exact ih
    · rw [ih, ← lift_bind_lift]

/-- The missing phases as stateless code. -/
def missingOf (n : Node) : List Policy → Option Value → Out (Option Value)
  | [], r => .ok r
  | .defaultValue v :: ps, _ => missingOf n ps (some v)
  | .required :: _, _ => .throw ⟨.missing_required_argument, [n.tokenType]⟩
  | .runtimeEnableRequired e v :: ps, _ =>
    if e then .throw ⟨.missing_required_argument, [n.tokenType]⟩ else missingOf n ps (some v)
  | _ :: ps, r => missingOf n ps r

theorem runMissing_eq (n : Node) (ps : List Policy) (r : Option Value) :
    runMissing n ps r = M.lift (missingOf n ps r) := by
  induction ps generalizing r with
  | nil => rfl
  | cons p ps ih =>
    cases p <;> simp only [runMissing, missingOf] <;> try exact ih _
    · rfl
    · split
      · rfl
      · exact ih _

/-- What a child gets if it was not given. -/
def fallbackOf (c : Node) : Out Value := do
  let r ← missingOf c c.policies none
  let v := r.getD c.vt.zero
  validationOf c v c.policies
  return v

theorem processMissing_eq (c : Node) : processMissing c = M.lift (fallbackOf c) := by
  unfold processMissing fallbackOf
  rw [runMissing_eq, ← lift_bind_lift]
  congr 1
  funext r
  simp only
  rw [runValidation_eq, ← lift_bind_lift]
  rfl

/-- The value a leaf contributes, as stateless code. -/
def leafValue (l : Leaf) : Out (Option Value) :=
  match l.node.kind with
  | .flag => .ok (some (.one (.bool true)))
  | .countingFlag => .ok (some (.one (.bool true)))
  | .arg | .multiArg | .positional | .forwarding => do
    let v ← parseValue l.node l.tokens
    validationOf l.node v l.node.policies
    return some v
  | .help => do
    let _ ← helpOutput l.node l.tokens
    return none
  | _ => .ub

/-- The calls a leaf makes when it contributes this value. -/
def leafCalls (l : Leaf) (v : Option Value) : List Call :=
  match l.node.kind with
  | .countingFlag => []
  | .help =>
    match helpOutput l.node l.tokens with
    | .ok text => [⟨l.node.uid, [.one (.str text)]⟩]
    | _ => []
  | _ => if l.node.hasRouter then [⟨l.node.uid, v.toList⟩] else []

/-- The state with more calls. -/
def St.withCalls (s : St) (cs : List Call) : St := { s with calls := s.calls ++ cs }

@[simp] theorem withCalls_nil (s : St) : s.withCalls [] = s := by simp [St.withCalls]
@[simp] theorem withCalls_calls (s : St) (cs : List Call) :
    (s.withCalls cs).calls = s.calls ++ cs := rfl
@[simp] theorem withCalls_sel (s : St) (cs : List Call) : (s.withCalls cs).sel = s.sel := rfl
theorem withCalls_append (s : St) (cs ds : List Call) :
    (s.withCalls cs).withCalls ds = s.withCalls (cs ++ ds) := by simp [St.withCalls]

theorem callIfRouter_apply (n : Node) (vs : List Value) (s : St) :
    callIfRouter n vs s = (.ok (), s.withCalls (if n.hasRouter then [⟨n.uid, vs⟩] else [])) := by
  unfold callIfRouter
  split
  · rfl
  · simp [St.withCalls]

theorem parseLeaf_apply (l : Leaf) (s : St) :
    parseLeaf l s =
      match leafValue l with
      | .ok v => (.ok v, s.withCalls (leafCalls l v))
      | .throw e => (.throw e, s)
      | .foreign => (.foreign, s)
      | .ub => (.ub, s)
      | .diverge => (.diverge, s) := by
  obtain ⟨n, ts⟩ := l
  have hv : (do
      let v ← M.lift (parseValue n ts)
      runValidation n v n.policies
      callIfRouter n [v]
      Pure.pure (some v) : M (Option Value)) s =
      match (do
        let v ← parseValue n ts
        validationOf n v n.policies
        return some v : Out (Option Value)) with
      | .ok v => (.ok v, s.withCalls (if n.hasRouter then [⟨n.uid, v.toList⟩] else []))
      | .throw e => (.throw e, s)
      | .foreign => (.foreign, s)
      | .ub => (.ub, s)
      | .diverge => (.diverge, s) := by
    cases parseValue n ts with
    | ok v =>
      rw [M.lift_ok_bind, runValidation_eq]
      simp only [Out.ok_bind]
      cases validationOf n v n.policies with
      | ok u =>
        rw [M.lift_ok_bind, M.bind_apply, callIfRouter_apply]
        rfl
      | _ => rfl
    | _ => rfl
  cases hk : n.kind
  case flag =>
    simp only [parseLeaf, leafValue, leafCalls, hk, M.bind_apply, callIfRouter_apply]
    rfl
  case countingFlag =>
    simp only [parseLeaf, leafValue, leafCalls, hk]
    simp
  case help =>
    simp only [parseLeaf, leafValue, leafCalls, hk]
    cases helpOutput n ts <;> rfl
  case arg => simp only [parseLeaf, leafValue, leafCalls, hk]; exact hv
  case multiArg => simp only [parseLeaf, leafValue, leafCalls, hk]; exact hv
  case positional => simp only [parseLeaf, leafValue, leafCalls, hk]; exact hv
  case forwarding => simp only [parseLeaf, leafValue, leafCalls, hk]; exact hv
  all_goals simp only [parseLeaf, leafValue, hk]; rfl

/-- The values given to child `i`, in the order of the command line, each with the node of the
child's subtree that it is for. -/
def ownOf (children : List Node) (i : Nat) (l : Leaf) : Option (Node × Value) :=
  match leafValue l, findChild l.node.hash children 0 with
  | .ok (some v), some (j, child, sub) =>
    if j = i ∧ child.hasNoResult = false then some (sub, v) else none
  | _, _ => none

/-- The values given to child `i`. -/
def own (children : List Node) (ls : List Leaf) (i : Nat) : List (Node × Value) :=
  ls.filterMap (ownOf children i)

/-- Combine the values given to a child; `none` if a single-use argument got a second value. -/
def gather : List (Node × Value) → Option Value → Option (Option Value)
  | [], r => some r
  | (n, v) :: more, r =>
    if n.isMultiStage then gather more (mergeValue n r v)
    else if r.isSome then none
    else gather more (some v)

/-- All the calls of leaves. -/
def allLeafCalls (ls : List Leaf) : List Call :=
  ls.flatMap fun l => match leafValue l with
    | .ok v => leafCalls l v
    | _ => []

theorem findChild_spec (hash : Nat) (cs : List Node) (k : Nat) {i : Nat} {c n : Node}
    (h : findChild hash cs k = some (i, c, n)) :
    ∃ j, i = k + j ∧ cs[j]? = some c ∧ matchChild hash c = some n ∧
      ∀ j' c', j' < j → cs[j']? = some c' → matchChild hash c' = none := by
  induction cs generalizing k with
  | nil => simp [findChild] at h
  | cons d ds ih =>
    rw [findChild] at h
    split at h
    · rename_i m hm
      simp only [Option.some.injEq, Prod.mk.injEq] at h
      obtain ⟨rfl, rfl, rfl⟩ := h
      exact ⟨0, rfl, rfl, hm, by intro j' c' hj; omega⟩
    · rename_i hn
      obtain ⟨j, h1, h2, h3, h4⟩ := ih _ h
      refine ⟨j + 1, by omega, by simpa using h2, h3, ?_⟩
      intro j' c' hj hc
      cases j' with
      | zero => simp only [List.getElem?_cons_zero, Option.some.injEq] at hc; rw [← hc]; exact hn
      | succ j' => exact h4 j' c' (by omega) (by simpa using hc)

theorem processResult_eq {rs : List (Option Value)} {i : Nat} {child sub : Node} {v : Value}
    {s s' : St} {rs' : List (Option Value)}
    (hi : i < rs.length) :
    processResult rs i child sub v s = (.ok rs', s') ↔ s' = s ∧
      ∃ r, gather (if child.hasNoResult = false then [(sub, v)] else []) rs[i] = some r ∧
        rs' = rs.set i r := by
  unfold processResult
  cases hn : child.hasNoResult
  · simp only [Bool.false_eq_true, if_false, if_true, gather]
    rw [List.getElem?_eq_getElem hi, Option.getD_some]
    cases hm : sub.isMultiStage
    · simp only [Bool.false_eq_true, if_false]
      split
      · simp
      · simp only [M.pure_apply, Prod.mk.injEq, Out.ok.injEq, Option.some.injEq]
        constructor
        · rintro ⟨rfl, rfl⟩; exact ⟨rfl, _, rfl, rfl⟩
        · rintro ⟨rfl, _, rfl, rfl⟩; exact ⟨rfl, rfl⟩
    · simp only [if_true, M.pure_apply, Prod.mk.injEq, Out.ok.injEq, Option.some.injEq]
      constructor
      · rintro ⟨rfl, rfl⟩; exact ⟨rfl, _, rfl, rfl⟩
      · rintro ⟨rfl, _, rfl, rfl⟩; exact ⟨rfl, rfl⟩
  · simp only [if_true, Bool.true_eq_false, if_false, gather, M.pure_apply, Prod.mk.injEq,
      Out.ok.injEq, Option.some.injEq]
    constructor
    · rintro ⟨rfl, rfl⟩; exact ⟨rfl, _, rfl, by rw [List.set_getElem_self]⟩
    · rintro ⟨rfl, _, rfl, rfl⟩; exact ⟨by rw [List.set_getElem_self], rfl⟩

theorem gather_append (xs ys : List (Node × Value)) (r : Option Value) :
    gather (xs ++ ys) r = (gather xs r).bind (gather ys) := by
  induction xs generalizing r with
  | nil => rfl
  | cons x xs ih =>
    obtain ⟨n, v⟩ := x
    simp only [List.cons_append, gather]
    split
    · exact ih _
    · split
      · rfl
      · exact ih _

/-- Exactly when the sub-targets of a mode can be processed, and what the result is. -/
theorem processSubs_iff (children : List Node) (ls : List Leaf) :
    ∀ (rs rs' : List (Option Value)) (s s' : St), rs.length = children.length →
      (processSubs children ls rs s = (.ok rs', s') ↔
        (∀ l ∈ ls, ∃ v, leafValue l = .ok v) ∧ s' = s.withCalls (allLeafCalls ls) ∧
        rs'.length = rs.length ∧
        ∀ (i : Nat) (h : i < rs.length) (h' : i < rs'.length),
          gather (own children ls i) rs[i] = some rs'[i]) := by
  induction ls with
  | nil =>
    intro rs rs' s s' _
    simp only [processSubs, M.pure_apply, Prod.mk.injEq, Out.ok.injEq, own, List.filterMap_nil,
      gather, Option.some.injEq, allLeafCalls, List.flatMap_nil, withCalls_nil]
    constructor
    · rintro ⟨rfl, rfl⟩; exact ⟨by simp, rfl, rfl, fun _ _ _ => rfl⟩
    · rintro ⟨-, rfl, hl, h⟩
      exact ⟨List.ext_getElem hl.symm fun i h1 h2 => h i h1 h2, rfl⟩
  | cons l ls ih =>
    intro rs rs' s s' hlen
    rw [processSubs, M.bind_apply, parseLeaf_apply]
    have hcalls : ∀ v, leafValue l = .ok v → (s.withCalls (leafCalls l v)).withCalls
        (allLeafCalls ls) = s.withCalls (allLeafCalls (l :: ls)) := by
      intro v hv
      rw [withCalls_append]
      simp only [allLeafCalls, List.flatMap_cons, hv]
    have skip : ∀ v, leafValue l = .ok v → (∀ i, ownOf children i l = none) →
        (processSubs children ls rs (s.withCalls (leafCalls l v)) = (.ok rs', s') ↔
        (∀ x ∈ l :: ls, ∃ v, leafValue x = .ok v) ∧
        s' = s.withCalls (allLeafCalls (l :: ls)) ∧
        rs'.length = rs.length ∧
        ∀ (i : Nat) (h : i < rs.length) (h' : i < rs'.length),
          gather (own children (l :: ls) i) rs[i] = some rs'[i]) := by
      intro v hv ho
      rw [ih _ _ _ _ hlen, hcalls v hv]
      simp only [List.forall_mem_cons, own, List.filterMap_cons, ho]
      constructor
      · rintro ⟨h1, h2⟩; exact ⟨⟨⟨v, hv⟩, h1⟩, h2⟩
      · rintro ⟨⟨-, h1⟩, h2⟩; exact ⟨h1, h2⟩
    cases hv : leafValue l with
    | ok ov =>
      cases ov with
      | none =>
        simp only
        exact skip none hv fun i => by simp [ownOf, hv]
      | some v =>
        simp only
        cases hf : findChild l.node.hash children 0 with
        | none =>
          simp only
          exact skip (some v) hv fun i => by simp [ownOf, hv, hf]
        | some x =>
          obtain ⟨i, child, sub⟩ := x
          simp only
          obtain ⟨j, hij, hj, -, -⟩ := findChild_spec _ _ _ hf
          have hi : i < rs.length := by
            have := (List.getElem?_eq_some_iff.1 hj).1
            omega
          have hown : ∀ k, own children (l :: ls) k =
              (if k = i then (if child.hasNoResult = false then [(sub, v)] else []) else []) ++
                own children ls k := by
            intro k
            simp only [own, List.filterMap_cons, ownOf, hv, hf]
            by_cases hk : k = i
            · subst hk
              cases child.hasNoResult <;> simp
            · have : ¬ i = k := fun h => hk h.symm
              simp [this, hk]
          rw [M.bind_eq_ok]
          constructor
          · rintro ⟨rs1, s1, h1, h2⟩
            rw [processResult_eq hi] at h1
            obtain ⟨rfl, r, hr, rfl⟩ := h1
            rw [ih _ _ _ _ (by simpa using hlen), hcalls _ hv] at h2
            obtain ⟨e1, e2, e3, e4⟩ := h2
            refine ⟨?_, e2, by simpa using e3, ?_⟩
            · simp only [List.forall_mem_cons]; exact ⟨⟨_, hv⟩, e1⟩
            · intro k hk hk'
              have := e4 k (by simpa using hk) hk'
              rw [hown, gather_append]
              by_cases hki : k = i
              · subst hki
                rw [if_pos rfl, hr]
                rw [List.getElem_set_self] at this
                exact this
              · rw [if_neg hki]
                rw [List.getElem_set_ne (fun h => hki h.symm)] at this
                exact this
          · rintro ⟨e1, e2, e3, e4⟩
            simp only [List.forall_mem_cons] at e1
            have hi' := e4 i hi (by omega)
            rw [hown, if_pos rfl, gather_append] at hi'
            cases hr : gather (if child.hasNoResult = false then [(sub, v)] else []) rs[i] with
            | none => rw [hr] at hi'; simp at hi'
            | some r =>
              rw [hr, Option.bind_some] at hi'
              refine ⟨rs.set i r, _, (processResult_eq hi).2 ⟨rfl, r, hr, rfl⟩, ?_⟩
              rw [ih _ _ _ _ (by simpa using hlen), hcalls _ hv]
              refine ⟨e1.2, e2, by simpa using e3, ?_⟩
              intro k hk hk'
              have hk2 : k < rs.length := by simpa using hk
              have := e4 k hk2 hk'
              rw [hown, gather_append] at this
              by_cases hki : k = i
              · subst hki
                rw [List.getElem_set_self]
                exact hi'
              · rw [if_neg hki] at this
                rw [List.getElem_set_ne (fun h => hki h.symm)]
                exact this
    | throw e => simp only [List.forall_mem_cons, hv]; simp
    | foreign => simp only [List.forall_mem_cons, hv]; simp
    | ub => simp only [List.forall_mem_cons, hv]; simp
    | diverge => simp only [List.forall_mem_cons, hv]; simp

/-- `fillResult` as stateless code. -/
def fillOf (c : Node) (r : Option Value) : Out (Option Value) :=
  if c.hasNoResult then .ok none
  else
    match r with
    | some v => .ok (some v)
    | none => do let v ← fallbackOf c; return some v

theorem fillResult_eq (c : Node) (r : Option Value) : fillResult c r = M.lift (fillOf c r) := by
  unfold fillResult fillOf
  split
  · rfl
  · cases r with
    | some v => rfl
    | none =>
      simp only
      rw [processMissing_eq, ← lift_bind_lift]
      rfl

theorem fillMissing_ok (cs : List Node) (rs : List (Option Value)) (hlen : rs.length = cs.length)
    (rs' : List (Option Value)) (s s' : St) :
    fillMissing cs rs s = (.ok rs', s') ↔ s' = s ∧ rs'.length = rs.length ∧
      ∀ (i : Nat) (h1 : i < cs.length) (h2 : i < rs.length) (h3 : i < rs'.length),
        fillOf cs[i] rs[i] = .ok rs'[i] := by
  induction cs generalizing rs rs' s s' with
  | nil =>
    cases rs with
    | nil =>
      simp only [fillMissing, M.pure_apply, Prod.mk.injEq, Out.ok.injEq, List.length_nil]
      constructor
      · rintro ⟨rfl, rfl⟩; exact ⟨rfl, rfl, by intro i h; omega⟩
      · rintro ⟨rfl, h, -⟩; exact ⟨(List.length_eq_zero_iff.1 h).symm, rfl⟩
    | cons _ _ => simp at hlen
  | cons c cs ih =>
    cases rs with
    | nil => simp at hlen
    | cons r rs =>
      simp only [List.length_cons, Nat.add_right_cancel_iff] at hlen
      simp only [fillMissing, M.bind_eq_ok, fillResult_eq, M.lift_apply, Prod.mk.injEq,
        M.pure_apply, Out.ok.injEq]
      constructor
      · rintro ⟨r', s1, ⟨h1, rfl⟩, rs1, s2, h2, rfl, rfl⟩
        obtain ⟨rfl, e2, e3⟩ := (ih rs hlen rs1 _ _).1 h2
        refine ⟨rfl, by simp [e2], ?_⟩
        intro i hi1 hi2 hi3
        cases i with
        | zero => exact h1
        | succ i => exact e3 i (by simpa using hi1) (by simpa using hi2) (by simpa using hi3)
      · rintro ⟨rfl, e2, e3⟩
        cases rs' with
        | nil => simp at e2
        | cons r' rs' =>
          refine ⟨r', _, ⟨e3 0 (by simp) (by simp) (by simp), rfl⟩, rs', s',
            (ih rs hlen rs' _ _).2 ⟨rfl, by simpa using e2, ?_⟩, rfl, rfl⟩
          intro i hi1 hi2 hi3
          exact e3 (i + 1) (by simpa using hi1) (by simpa using hi2) (by simpa using hi3)

/-- `validateStages` as stateless code. -/
def stagesOf (c : Node) (r : Option Value) : Out Unit :=
  if !c.hasNoResult && (c.isMultiStage || c.children.any Node.isMultiStage) then
    match r with
    | some v => validationOf c v c.policies
    | none => .ub
  else .ok ()

theorem validateStages_eq (c : Node) (r : Option Value) :
    validateStages c r = M.lift (stagesOf c r) := by
  unfold validateStages stagesOf
  split
  · cases r with
    | none => rfl
    | some v => exact runValidation_eq _ _ _
  · rfl

theorem stages_ok (cs : List Node) (rs : List (Option Value)) (hlen : rs.length = cs.length)
    (s s' : St) :
    multiStageValidation cs rs s = (.ok (), s') ↔ s' = s ∧
      ∀ (i : Nat) (h1 : i < cs.length) (h2 : i < rs.length), stagesOf cs[i] rs[i] = .ok () := by
  induction cs generalizing rs s s' with
  | nil =>
    cases rs with
    | nil =>
      simp only [multiStageValidation, M.pure_apply, Prod.mk.injEq, true_and]
      constructor
      · rintro rfl; exact ⟨rfl, by intro i h; simp at h⟩
      · rintro ⟨rfl, -⟩; rfl
    | cons _ _ => simp at hlen
  | cons c cs ih =>
    cases rs with
    | nil => simp at hlen
    | cons r rs =>
      simp only [List.length_cons, Nat.add_right_cancel_iff] at hlen
      simp only [multiStageValidation, M.bind_eq_ok, validateStages_eq, M.lift_apply, Prod.mk.injEq]
      constructor
      · rintro ⟨_, s1, ⟨h1, rfl⟩, h2⟩
        obtain ⟨rfl, e2⟩ := (ih rs hlen _ _).1 h2
        refine ⟨rfl, ?_⟩
        intro i hi1 hi2
        cases i with
        | zero => exact h1
        | succ i => exact e2 i (by simpa using hi1) (by simpa using hi2)
      · rintro ⟨rfl, e2⟩
        refine ⟨(), _, ⟨e2 0 (by simp) (by simp), rfl⟩, (ih rs hlen _ _).2 ⟨rfl, ?_⟩⟩
        intro i hi1 hi2
        exact e2 (i + 1) (by simpa using hi1) (by simpa using hi2)

theorem routerArgs_eq (cs : List Node) (rs : List (Option Value))
    (hlen : rs.length = cs.length)
    (h : ∀ (i : Nat) (h1 : i < cs.length) (h2 : i < rs.length), cs[i].hasNoResult = true →
      rs[i] = none) : routerArgs cs rs = rs.filterMap id := by
  induction cs generalizing rs with
  | nil => cases rs with
    | nil => rfl
    | cons _ _ => simp at hlen
  | cons c cs ih =>
    cases rs with
    | nil => simp at hlen
    | cons r rs =>
      simp only [List.length_cons, Nat.add_right_cancel_iff] at hlen
      have hi := ih rs hlen fun i h1 h2 hn => h (i + 1) (by simpa using h1) (by simpa using h2) hn
      rw [routerArgs]
      split
      · rename_i hn
        have : r = none := h 0 (by simp) (by simp) hn
        subst this
        simpa using hi
      · rw [hi]
        cases r <;> simp

/-- Exactly when the second stage of a mode succeeds, and what it does. -/
theorem parseMode_iff (mode : Node) (ls : List Leaf) (s s' : St) :
    parseMode mode ls s = (.ok (), s') ↔
      mode.hasRouter = true ∧ (∀ l ∈ ls, ∃ v, leafValue l = .ok v) ∧
      ∃ rs : List (Option Value), rs.length = mode.children.length ∧
        (∀ (i : Nat) (c : Node), mode.children[i]? = some c →
          ∃ g r, gather (own mode.children ls i) none = some g ∧ fillOf c g = .ok r ∧
            stagesOf c r = .ok () ∧ rs[i]? = some r) ∧
        s' = s.withCalls (allLeafCalls ls ++ [⟨mode.uid, rs.filterMap id⟩]) := by
  simp only [parseMode, M.bind_eq_ok]
  constructor
  · rintro ⟨rs0, s1, h1, rs, s2, h2, u, s3, h3, h4⟩
    have hl0 : (List.replicate mode.children.length (none : Option Value)).length =
        mode.children.length := by simp
    rw [processSubs_iff _ _ _ _ _ _ hl0] at h1
    obtain ⟨e1, rfl, e2, e3⟩ := h1
    rw [hl0] at e2
    rw [fillMissing_ok _ _ e2] at h2
    obtain ⟨rfl, f2, f3⟩ := h2
    rw [e2] at f2
    cases u
    rw [stages_ok _ _ f2] at h3
    obtain ⟨rfl, g3⟩ := h3
    have hno : ∀ (i : Nat) (h1 : i < mode.children.length) (h2 : i < rs.length),
        mode.children[i].hasNoResult = true → rs[i] = none := by
      intro i h1 h2 hn
      have := f3 i h1 (by omega) h2
      simp only [fillOf, hn, if_true, Out.ok.injEq] at this
      exact this.symm
    split at h4
    · rename_i hr
      rw [routerArgs_eq _ _ f2 hno] at h4
      simp only [callRouter, Prod.mk.injEq, true_and] at h4
      refine ⟨hr, e1, rs, f2, ?_, ?_⟩
      · intro i c hc
        obtain ⟨hi, rfl⟩ := List.getElem?_eq_some_iff.1 hc
        refine ⟨rs0[i], rs[i], ?_, f3 i hi (by omega) (by omega), g3 i hi (by omega), ?_⟩
        · have := e3 i (by simpa using hi) (by omega)
          simpa using this
        · rw [List.getElem?_eq_getElem]
      · rw [← h4, ← withCalls_append]; rfl
    · simp at h4
  · rintro ⟨hr, e1, rs, f2, h, rfl⟩
    have hl0 : (List.replicate mode.children.length (none : Option Value)).length =
        mode.children.length := by simp
    let rs0 := (List.range mode.children.length).map fun i =>
      (gather (own mode.children ls i) none).getD none
    have hrs0 : ∀ (i : Nat) (h : i < rs0.length), rs0[i] =
      (gather (own mode.children ls i) none).getD none := by
      intro i h; simp [rs0]
    have hrs0l : rs0.length = mode.children.length := by simp [rs0]
    have each : ∀ (i : Nat) (hi : i < mode.children.length) (h2 : i < rs.length)
        (h3 : i < rs0.length),
        gather (own mode.children ls i) none = some rs0[i] ∧
        fillOf mode.children[i] rs0[i] = .ok rs[i] ∧ stagesOf mode.children[i] rs[i] = .ok () := by
      intro i hi h2 h3
      obtain ⟨g, r, g1, g2, g3, g4⟩ := h i mode.children[i] (List.getElem?_eq_getElem hi)
      rw [List.getElem?_eq_getElem h2, Option.some.injEq] at g4
      subst g4
      have : rs0[i] = g := by rw [hrs0, g1]; rfl
      rw [this]
      exact ⟨g1, g2, g3⟩
    have hno : ∀ (i : Nat) (h1 : i < mode.children.length) (h2 : i < rs.length),
        mode.children[i].hasNoResult = true → rs[i] = none := by
      intro i h1 h2 hn
      have := (each i h1 h2 (by omega)).2.1
      simp only [fillOf, hn, if_true, Out.ok.injEq] at this
      exact this.symm
    refine ⟨rs0, s.withCalls (allLeafCalls ls), ?_, rs, s.withCalls (allLeafCalls ls), ?_, (),
      s.withCalls (allLeafCalls ls), ?_, ?_⟩
    · rw [processSubs_iff _ _ _ _ _ _ hl0]
      refine ⟨e1, rfl, by rw [hrs0l, hl0], ?_⟩
      intro i h1 h2
      rw [List.getElem_replicate]
      exact (each i (by omega) (by omega) h2).1
    · rw [fillMissing_ok _ _ hrs0l]
      exact ⟨rfl, by omega, fun i h1 h2 h3 => (each i h1 h3 h2).2.1⟩
    · rw [stages_ok _ _ f2]
      exact ⟨rfl, fun i h1 h2 => (each i h1 h2 (by omega)).2.2⟩
    · rw [if_pos hr, routerArgs_eq _ _ f2 hno, ← withCalls_append]; rfl

end ArgRouter
