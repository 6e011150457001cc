import Verif.Props.Terminate
import Verif.Props.Route

/-!
# C26: one router call per successful parse, none in a failed one
-/

namespace ArgRouter

namespace Spec

/-- The library's rule for routers (mode.hpp:228-231 and root.hpp:74-97): root has no router, and
neither has anything inside a mode but modes. A help node inside a mode ends the program when it is
used; such trees are excluded here. -/
def RoutersOnTop (root : Node) : Prop :=
  root.hasRouter = false ∧
  ∀ m ∈ root.nodes, m.kind = .mode → ∀ x ∈ m.nodes, x.kind ≠ .mode →
    x.hasRouter = false ∧ x.kind ≠ .help

end Spec

open Spec

namespace Props

/-- The code calls no router. -/
def Quiet {α : Type} (m : M α) : Prop := ∀ s, (m s).2.calls = s.calls

namespace Quiet

theorem pure {α : Type} (a : α) : Quiet (Pure.pure a : M α) := fun _ => rfl
theorem throw {α : Type} (e : Exc) : Quiet (M.throw e : M α) := fun _ => rfl
theorem lift {α : Type} (o : Out α) : Quiet (M.lift o) := fun _ => rfl

theorem bind {α β : Type} {m : M α} {f : α → M β} (hm : Quiet m) (hf : ∀ a, Quiet (f a)) :
    Quiet (m >>= f) := by
  intro s
  have h1 := hm s
  rw [M.bind_apply]
  match hx : m s with
  | (.ok a, s1) => rw [hx] at h1; exact (hf a s1).trans h1
  | (.throw e, s1) => rw [hx] at h1; exact h1
  | (.foreign, s1) => rw [hx] at h1; exact h1
  | (.ub, s1) => rw [hx] at h1; exact h1
  | (.diverge, s1) => rw [hx] at h1; exact h1

end Quiet

theorem quiet_leaf {cfg : Config} {n : Node} {parents : List Node} {args : List Token}
    {processed : Option Target} {validator : Validator} (hv : ∀ n, Quiet (validator n)) :
    Quiet (leafPreParse cfg n parents args processed validator) := by
  unfold leafPreParse
  refine Quiet.bind (Quiet.lift _) ?_
  rintro ⟨m, a, subs⟩
  simp only
  split
  · exact Quiet.pure _
  · refine Quiet.bind (hv n) ?_
    intro ok
    split
    · exact Quiet.pure _
    · split
      · exact Quiet.throw _
      · exact Quiet.pure _

theorem quiet_oneOfValidator {o : Node} {inner : Validator} (hi : ∀ n, Quiet (inner n)) (c : Node) :
    Quiet (oneOfValidator o inner c) := by
  unfold oneOfValidator
  refine Quiet.bind (fun _ => rfl) ?_
  intro last
  split
  · split
    · exact Quiet.throw _
    · exact hi c
  · exact Quiet.bind (fun _ => rfl) fun _ => hi c

mutual
theorem quiet_preParse (cfg : Config) (parents : List Node) (args : List Token)
    (processed : Option Target) : ∀ (n : Node) (validator : Validator),
    (∀ n, Quiet (validator n)) → Quiet (preParse cfg parents args processed n validator)
  | .mk k u h v p cs, validator, hv => by
    cases k
    case aliasGroup =>
      rw [preParse_aliasGroup]; exact quiet_group cfg parents args processed cs validator hv
    case oneOf =>
      rw [preParse_oneOf]
      exact quiet_oneOf cfg parents args processed cs _ (quiet_oneOfValidator hv)
    all_goals
      rw [preParse_leaf _ _ _ _ _ _ (by rfl)]
      exact quiet_leaf hv
theorem quiet_group (cfg : Config) (parents : List Node) (args : List Token)
    (processed : Option Target) : ∀ (ns : List Node) (validator : Validator),
    (∀ n, Quiet (validator n)) → Quiet (preParseGroup cfg parents args processed validator ns)
  | [], validator, hv => by rw [preParseGroup]; exact Quiet.pure _
  | c :: cs, validator, hv => by
    rw [preParseGroup]
    refine Quiet.bind (quiet_preParse cfg parents args processed c validator hv) ?_
    intro o
    cases o with
    | none => exact quiet_group cfg parents args processed cs validator hv
    | some r => exact Quiet.pure _
theorem quiet_oneOf (cfg : Config) (parents : List Node) (args : List Token)
    (processed : Option Target) : ∀ (ns : List Node) (validator : Validator),
    (∀ n, Quiet (validator n)) → Quiet (preParseOneOf cfg parents args processed validator ns)
  | [], validator, hv => by rw [preParseOneOf]; exact Quiet.pure _
  | c :: cs, validator, hv => by
    rw [preParseOneOf]
    refine Quiet.bind (quiet_preParse cfg parents args processed c validator hv) ?_
    intro o
    cases o with
    | none => exact quiet_oneOf cfg parents args processed cs validator hv
    | some r => exact Quiet.bind (hv c) fun _ => Quiet.pure _
end

theorem quiet_verifyMatch (already : Bool) (front : Token) (n : Node) :
    Quiet (verifyMatch already front n) := by
  unfold verifyMatch
  split
  · exact Quiet.pure _
  · split
    · split
      · exact Quiet.throw _
      · exact Quiet.pure _
    · exact Quiet.pure _

theorem quiet_modeStep (cfg : Config) (parents : List Node) (target : Target) (matched : List Bool)
    (front : Token) (args : List Token) : ∀ (cs : List Node) (i : Nat),
    Quiet (modeStep cfg parents target matched front args cs i)
  | [], _ => by rw [modeStep]; exact Quiet.pure _
  | c :: cs, i => by
    rw [modeStep]
    split
    · exact quiet_modeStep cfg parents target matched front args cs (i + 1)
    · refine Quiet.bind (quiet_preParse _ _ _ _ _ _ (quiet_verifyMatch _ _)) ?_
      intro o
      cases o with
      | none => exact quiet_modeStep cfg parents target matched front args cs (i + 1)
      | some r => exact Quiet.pure _

theorem quiet_modeLoop (cfg : Config) (mode : Node) (parents : List Node) :
    ∀ (fuel : Nat) (target : Target) (matched : List Bool) (args : List Token),
    Quiet (modeLoop cfg mode parents fuel target matched args)
  | fuel, target, matched, [] => by cases fuel <;> (rw [modeLoop]; exact Quiet.pure _)
  | 0, _, _, _ :: _ => by rw [modeLoop]; exact Quiet.lift _
  | fuel + 1, target, matched, front :: rest => by
    rw [modeLoop]
    refine Quiet.bind (quiet_modeStep _ _ _ _ _ _ _ _) ?_
    intro o
    cases o with
    | none =>
      simp only
      split
      · exact Quiet.throw _
      · exact Quiet.lift _
    | some x => exact quiet_modeLoop cfg mode parents fuel _ _ _

theorem quiet_modeBody (cfg : Config) (mode : Node) (parents : List Node) (args : List Token)
    {validator : Validator} (hv : ∀ n, Quiet (validator n)) :
    Quiet (modeBody cfg mode parents validator args) := by
  rw [modeBody]
  refine Quiet.bind (hv _) ?_
  intro ok
  split
  · exact Quiet.pure _
  · exact Quiet.bind (quiet_modeLoop _ _ _ _ _ _ _) fun _ => Quiet.pure _

mutual
theorem quiet_preParseMode (cfg : Config) (validator : Validator) (hv : ∀ n, Quiet (validator n))
    (args : List Token) : ∀ (n : Node) (parents : List Node),
    Quiet (preParseMode cfg parents args validator n)
  | .mk k u h v p cs, parents => by
    rw [preParseMode]
    split
    · exact quiet_modeBody _ _ _ _ hv
    · refine Quiet.bind (quiet_leaf hv) ?_
      intro o
      cases o with
      | none => exact Quiet.pure _
      | some x =>
        simp only
        split
        · exact quiet_modeBody _ _ _ _ hv
        · refine Quiet.bind (quiet_childModes cfg validator hv _ cs _) ?_
          intro o
          cases o with
          | none => exact quiet_modeBody _ _ _ _ hv
          | some y => exact Quiet.pure _
theorem quiet_childModes (cfg : Config) (validator : Validator) (hv : ∀ n, Quiet (validator n))
    (args : List Token) : ∀ (ns : List Node) (parents : List Node),
    Quiet (preParseChildModes cfg parents args validator ns)
  | [], _ => by rw [preParseChildModes]; exact Quiet.pure _
  | .mk k u h v p cs :: ns, parents => by
    rw [preParseChildModes]
    split
    · refine Quiet.bind (quiet_preParseMode cfg validator hv args _ parents) ?_
      intro o
      cases o with
      | none => exact quiet_childModes cfg validator hv args ns parents
      | some y => exact Quiet.pure _
    · exact quiet_childModes cfg validator hv args ns parents
end

theorem quiet_offerTo (cfg : Config) (root : Node) (args : List Token) (c : Node) :
    Quiet (offerTo cfg root args c) := by
  unfold offerTo
  split
  · exact quiet_preParseMode _ _ (fun _ => Quiet.pure _) _ _ _
  · exact quiet_preParse _ _ _ _ _ _ fun _ => Quiet.pure _

theorem quiet_parseLeaf (l : Leaf) (h : l.node.hasRouter = false ∧ l.node.kind ≠ .help) :
    Quiet (parseLeaf l) := by
  intro s
  rw [parseLeaf_apply]
  cases hv : leafValue l with
  | ok v =>
    simp only [leafCalls]
    split
    · simp
    · rename_i hk; exact absurd hk h.2
    · rw [h.1]; simp
  | throw e => rfl
  | foreign => rfl
  | ub => rfl
  | diverge => rfl

theorem quiet_processSubs (children : List Node) (ls : List Leaf)
    (h : ∀ l ∈ ls, l.node.kind ≠ .mode → l.node.hasRouter = false ∧ l.node.kind ≠ .help) :
    ∀ rs, Quiet (processSubs children ls rs) := by
  induction ls with
  | nil => intro rs; exact Quiet.pure _
  | cons l ls ih =>
    intro rs
    have ih := ih fun x hx => h x (List.mem_cons_of_mem _ hx)
    rw [processSubs]
    refine Quiet.bind ?_ ?_
    · by_cases hk : l.node.kind = .mode
      · intro s
        simp [parseLeaf, hk]
      · exact quiet_parseLeaf l (h l List.mem_cons_self hk)
    · intro o
      cases o with
      | none => exact ih rs
      | some v =>
        simp only
        split
        · exact ih rs
        · refine Quiet.bind ?_ fun rs' => ih rs'
          unfold processResult
          split
          · exact Quiet.pure _
          · simp only
            split
            · exact Quiet.pure _
            · split
              · exact Quiet.throw _
              · exact Quiet.pure _

theorem quiet_fillMissing (cs : List Node) : ∀ (rs : List (Option Value)),
    Quiet (fillMissing cs rs) := by
  induction cs with
  | nil => intro rs; cases rs <;> (rw [fillMissing]; exact Quiet.pure _; simp)
  | cons c cs ih =>
    intro rs
    cases rs with
    | nil => rw [fillMissing]; exact Quiet.pure _; simp
    | cons r rs =>
      rw [fillMissing, fillResult_eq]
      exact Quiet.bind (Quiet.lift _) fun _ => Quiet.bind (ih rs) fun _ => Quiet.pure _

theorem quiet_stages (cs : List Node) : ∀ (rs : List (Option Value)),
    Quiet (multiStageValidation cs rs) := by
  induction cs with
  | nil => intro rs; cases rs <;> (rw [multiStageValidation]; exact Quiet.pure _; simp)
  | cons c cs ih =>
    intro rs
    cases rs with
    | nil => rw [multiStageValidation]; exact Quiet.pure _; simp
    | cons r rs =>
      rw [multiStageValidation, validateStages_eq]
      exact Quiet.bind (Quiet.lift _) fun _ => ih rs

/-- The code calls one router if it succeeds, and none if it fails. -/
def OneCall {α : Type} (m : M α) : Prop := ∀ s,
  (∃ a s' c, m s = (.ok a, s') ∧ s'.calls = s.calls ++ [c]) ∨
    ((∀ a, (m s).1 ≠ .ok a) ∧ (m s).2.calls = s.calls)

theorem OneCall.after {α β : Type} {m : M α} {f : α → M β} (hm : Quiet m)
    (hf : ∀ a, OneCall (f a)) : OneCall (m >>= f) := by
  intro s
  have h1 := hm s
  simp only [M.bind_apply]
  match hx : m s with
  | (.ok a, s1) =>
    rw [hx] at h1
    simp only at h1
    rcases hf a s1 with ⟨b, s', c, e1, e2⟩ | ⟨e1, e2⟩
    · exact .inl ⟨b, s', c, e1, by rw [e2, h1]⟩
    · exact .inr ⟨e1, by rw [e2, h1]⟩
  | (.throw e, s1) => rw [hx] at h1; exact .inr ⟨by simp, h1⟩
  | (.foreign, s1) => rw [hx] at h1; exact .inr ⟨by simp, h1⟩
  | (.ub, s1) => rw [hx] at h1; exact .inr ⟨by simp, h1⟩
  | (.diverge, s1) => rw [hx] at h1; exact .inr ⟨by simp, h1⟩

theorem oneCall_parseMode (mode : Node) (ls : List Leaf)
    (h : ∀ l ∈ ls, l.node.kind ≠ .mode → l.node.hasRouter = false ∧ l.node.kind ≠ .help) :
    OneCall (parseMode mode ls) := by
  unfold parseMode
  refine OneCall.after (quiet_processSubs _ _ h _) fun rs => ?_
  refine OneCall.after (quiet_fillMissing _ _) fun rs => ?_
  refine OneCall.after (quiet_stages _ _) fun _ => ?_
  intro s
  split
  · exact .inl ⟨(), _, _, rfl, rfl⟩
  · exact .inr ⟨by simp, rfl⟩

/-- In a tree that follows the rule for routers, no argument recognised by a mode routes by itself. -/
theorem subs_silent {cfg : Config} {root c : Node} {args rest : List Token} {t : Target}
    {s s' : St} (hr : RoutersOnTop root) (hc : c ∈ root.children) (hk : c.kind = .mode)
    (h : offerTo cfg root args c s = (.ok (some (t, rest)), s')) :
    t.node.kind = .mode ∧
    ∀ l ∈ t.subs, l.node.kind ≠ .mode → l.node.hasRouter = false ∧ l.node.kind ≠ .help := by
  have hcn := child_mem_nodes hc
  unfold offerTo at h
  rw [if_pos (by simp [hk])] at h
  obtain ⟨-, above, e2, e3, e4⟩ := preParseMode_spec _ _ _ _ _ _ _ _ _ h
  have ht := hcn _ e2.1
  have htk := e2.2 hk
  refine ⟨htk, ?_⟩
  intro l hl hlk
  rcases e4 l hl with h1 | ⟨n, hn, m, hm, hx⟩
  · exact hr.2 _ ht htk _ h1 hlk
  · rcases List.mem_cons.1 (nearest_mem hm) with rfl | h2
    · exact hr.2 _ ht htk _ (nodes_trans _ _ hn _ hx) hlk
    · rcases List.mem_cons.1 h2 with rfl | h3
      · exact hr.2 _ ht htk _ hx hlk
      · rcases e3 m h3 with h4 | h4
        · exact hr.2 _ (hcn _ h4.1) (h4.2 hk) _ hx hlk
        · simp only [List.mem_singleton] at h4
          subst h4
          have := List.find?_some hm
          rw [hr.1] at this
          cases this

theorem rootLoop_calls (cfg : Config) (root : Node) (args : List Token) (hr : RoutersOnTop root)
    (cs : List Node) (hcs : ∀ c ∈ cs, c ∈ root.children) (s : St) :
    (∃ s' calls, rootLoop cfg root args cs s = (.ok true, s') ∧ s'.calls = s.calls ++ calls ∧
        calls.length ≤ 1 ∧
        ((∀ c ∈ cs, ∀ x ∈ c.nodes, c.kind ≠ .mode → x.kind = .help ∨
          (x.hasRouter = true ∧ x.kind ≠ .countingFlag)) → calls.length = 1)) ∨
      ((rootLoop cfg root args cs s).1 ≠ .ok true ∧
        (rootLoop cfg root args cs s).2.calls = s.calls) := by
  induction cs generalizing s with
  | nil => exact .inr ⟨by simp [rootLoop], rfl⟩
  | cons c cs ih =>
    have hc := hcs c List.mem_cons_self
    have ih := ih fun x hx => hcs x (List.mem_cons_of_mem _ hx)
    have hq := quiet_offerTo cfg root args c s
    rw [rootLoop, M.bind_apply]
    match ho : offerTo cfg root args c s with
    | (.ok none, s1) =>
      rw [ho] at hq
      simp only at hq
      rcases ih s1 with ⟨s', calls, e1, e2, e3, e4⟩ | ⟨e1, e2⟩
      · exact .inl ⟨s', calls, e1, by rw [e2, hq], e3, fun h => e4 fun x hx => h x
          (List.mem_cons_of_mem _ hx)⟩
      · exact .inr ⟨e1, by rw [e2, hq]⟩
    | (.ok (some (t, rest)), s1) =>
      rw [ho] at hq
      simp only at hq ⊢
      split
      · exact .inr ⟨by simp, hq⟩
      · by_cases hk : c.kind = .mode
        · obtain ⟨htk, hsub⟩ := subs_silent hr hc hk ho
          have hrun : runTarget t = parseMode t.node t.subs := by
            unfold runTarget
            rw [if_pos (by simp [htk])]
          rw [hrun]
          rcases oneCall_parseMode t.node t.subs hsub s1 with ⟨a, s', call, e1, e2⟩ | ⟨e1, e2⟩
          · left
            refine ⟨s', [call], ?_, by rw [e2, hq], by simp, fun _ => rfl⟩
            rw [M.bind_ok e1]; rfl
          · right
            rw [M.bind_apply]
            match hx : parseMode t.node t.subs s1 with
            | (.ok a, s2) => rw [hx] at e1; exact absurd rfl (e1 a)
            | (.throw e, s2) => rw [hx] at e2; exact ⟨by simp, by simpa [hq] using e2⟩
            | (.foreign, s2) => rw [hx] at e2; exact ⟨by simp, by simpa [hq] using e2⟩
            | (.ub, s2) => rw [hx] at e2; exact ⟨by simp, by simpa [hq] using e2⟩
            | (.diverge, s2) => rw [hx] at e2; exact ⟨by simp, by simpa [hq] using e2⟩
        · have hpp : preParse cfg [root] args none c alwaysTrue s = (.ok (some (t, rest)), s1) := by
            unfold offerTo at ho
            rw [if_neg (by simp [hk])] at ho
            exact ho
          obtain ⟨m, hm, -, ⟨v, s2, s3, hlf⟩, -⟩ := match_leaf _ _ _ _ hpp
          have hn : t.node = m := (leafPreParse_node hlf).1
          by_cases hmk : t.node.kind = .mode
          · -- a mode inside a group: it has no sub-targets of its own tree
            have hsub : ∀ l ∈ t.subs, l.node.kind ≠ .mode →
                l.node.hasRouter = false ∧ l.node.kind ≠ .help := by
              intro l hl hlk
              obtain ⟨x, hx, hx2⟩ := leaf_sub_nodes hlf l hl
              rcases List.mem_cons.1 (nearest_mem hx) with rfl | h2
              · exact hr.2 _ (child_mem_nodes hc _ hm) (by rw [← hn]; exact hmk) _ hx2 hlk
              · simp only [List.mem_singleton] at h2
                subst h2
                have := List.find?_some hx
                rw [hr.1] at this
                cases this
            have hrun : runTarget t = parseMode t.node t.subs := by
              unfold runTarget
              rw [if_pos (by simp [hmk])]
            rw [hrun]
            rcases oneCall_parseMode t.node t.subs hsub s1 with ⟨a, s', call, e1, e2⟩ | ⟨e1, e2⟩
            · left
              refine ⟨s', [call], ?_, by rw [e2, hq], by simp, fun _ => rfl⟩
              rw [M.bind_ok e1]; rfl
            · right
              rw [M.bind_apply]
              match hx : parseMode t.node t.subs s1 with
              | (.ok a, s2) => rw [hx] at e1; exact absurd rfl (e1 a)
              | (.throw e, s2) => rw [hx] at e2; exact ⟨by simp, by simpa [hq] using e2⟩
              | (.foreign, s2) => rw [hx] at e2; exact ⟨by simp, by simpa [hq] using e2⟩
              | (.ub, s2) => rw [hx] at e2; exact ⟨by simp, by simpa [hq] using e2⟩
              | (.diverge, s2) => rw [hx] at e2; exact ⟨by simp, by simpa [hq] using e2⟩
          · have hrun : runTarget t = (parseLeaf ⟨t.node, t.tokens⟩ >>= fun _ => pure ()) := by
              unfold runTarget
              rw [if_neg (by simp [hmk])]
            rw [hrun, M.bind_assoc, M.bind_apply, parseLeaf_apply]
            cases hv : leafValue ⟨t.node, t.tokens⟩ with
            | ok v =>
              left
              refine ⟨s1.withCalls (leafCalls ⟨t.node, t.tokens⟩ v),
                leafCalls ⟨t.node, t.tokens⟩ v, rfl, by simp [hq], ?_, ?_⟩
              · simp only [leafCalls]
                split
                · simp
                · split <;> simp
                · split <;> simp
              · intro hall
                have hhelp : t.node.kind = .help →
                    (leafCalls ⟨t.node, t.tokens⟩ v).length = 1 := by
                  intro h1
                  simp only [leafValue, h1, bind, Out.bind] at hv
                  simp only [leafCalls, h1]
                  split at hv
                  · rename_i h2; rw [h2]; rfl
                  all_goals cases hv
                rcases hall c List.mem_cons_self t.node (by rw [hn]; exact hm) hk with h1 | ⟨h1, h2⟩
                · exact hhelp h1
                · by_cases h3 : t.node.kind = .help
                  · exact hhelp h3
                  · simp only [leafCalls, h1]
                    cases h4 : t.node.kind <;> first | rfl | exact absurd h4 h2 | exact absurd h4 h3
            | throw e => exact .inr ⟨by simp, hq⟩
            | foreign => exact .inr ⟨by simp, hq⟩
            | ub => exact .inr ⟨by simp, hq⟩
            | diverge => exact .inr ⟨by simp, hq⟩
    | (.throw e, s1) => rw [ho] at hq; exact .inr ⟨by simp, hq⟩
    | (.foreign, s1) => rw [ho] at hq; exact .inr ⟨by simp, hq⟩
    | (.ub, s1) => rw [ho] at hq; exact .inr ⟨by simp, hq⟩
    | (.diverge, s1) => rw [ho] at hq; exact .inr ⟨by simp, hq⟩

/-- C26: a parse that fails (or does not end) calls no router; a parse that succeeds calls at most
one. -/
theorem C26_at_most_one (cfg : Config) (root : Node) (args : List Bytes) (s s' : St)
    (o : Out Unit) (hr : RoutersOnTop root) (h : parseArgs cfg root args s = (o, s')) :
    (o = .ok () ∧ (s'.calls = s.calls ∨ ∃ c, s'.calls = s.calls ++ [c])) ∨
    (o ≠ .ok () ∧ s'.calls = s.calls) := by
  unfold parseArgs rootParse at h
  rw [M.bind_apply] at h
  have hl := rootLoop_calls cfg root (args.map (Token.mk .none)) hr root.children (fun _ h => h) s
  rcases hl with ⟨s1, calls, e1, e2, e3, -⟩ | ⟨e1, e2⟩
  · rw [e1] at h
    simp only [if_true, M.pure_apply, Prod.mk.injEq] at h
    obtain ⟨rfl, rfl⟩ := h
    refine .inl ⟨rfl, ?_⟩
    match calls, e3 with
    | [], _ => left; simpa using e2
    | [c], _ => exact .inr ⟨c, e2⟩
  · right
    match hx : rootLoop cfg root (args.map (Token.mk .none)) root.children s with
    | (.ok true, s1) => rw [hx] at e1; exact absurd rfl e1
    | (.ok false, s1) =>
      rw [hx] at h e2
      simp only [Bool.false_eq_true, if_false] at h e2
      split at h
      · simp only [M.throw_apply, Prod.mk.injEq] at h
        obtain ⟨rfl, rfl⟩ := h
        exact ⟨by simp, e2⟩
      · simp only [M.lift_apply, Prod.mk.injEq] at h
        obtain ⟨rfl, rfl⟩ := h
        exact ⟨unknownArgument_ne_ok _ _ _ _, e2⟩
    | (.throw e, s1) =>
      rw [hx] at h e2
      simp only [Prod.mk.injEq] at h e2
      obtain ⟨rfl, rfl⟩ := h
      exact ⟨by simp, e2⟩
    | (.foreign, s1) =>
      rw [hx] at h e2
      simp only [Prod.mk.injEq] at h e2
      obtain ⟨rfl, rfl⟩ := h
      exact ⟨by simp, e2⟩
    | (.ub, s1) =>
      rw [hx] at h e2
      simp only [Prod.mk.injEq] at h e2
      obtain ⟨rfl, rfl⟩ := h
      exact ⟨by simp, e2⟩
    | (.diverge, s1) =>
      rw [hx] at h e2
      simp only [Prod.mk.injEq] at h e2
      obtain ⟨rfl, rfl⟩ := h
      exact ⟨by simp, e2⟩

/-- C26 (exactly one): if moreover everything on top that is not a mode has a router or is the help
(root.hpp:74-97), a successful parse calls exactly one router. -/
theorem C26_exactly_one (cfg : Config) (root : Node) (args : List Bytes) (s s' : St)
    (hr : RoutersOnTop root)
    (htop : ∀ c ∈ root.children, ∀ x ∈ c.nodes, c.kind ≠ .mode → x.kind = .help ∨
      (x.hasRouter = true ∧ x.kind ≠ .countingFlag))
    (h : parseArgs cfg root args s = (.ok (), s')) :
    ∃ c, s'.calls = s.calls ++ [c] := by
  unfold parseArgs rootParse at h
  rw [M.bind_eq_ok] at h
  obtain ⟨done, s1, h1, h2⟩ := h
  have hl := rootLoop_calls cfg root (args.map (Token.mk .none)) hr root.children (fun _ h => h) s
  rcases hl with ⟨s2, calls, e1, e2, e3, e4⟩ | ⟨e1, e2⟩
  · rw [h1] at e1
    simp only [Prod.mk.injEq, Out.ok.injEq] at e1
    obtain ⟨rfl, rfl⟩ := e1
    simp only [if_true, M.pure_apply, Prod.mk.injEq] at h2
    obtain ⟨-, rfl⟩ := h2
    match calls, e4 htop with
    | [c], _ => exact ⟨c, e2⟩
  · rw [h1] at e1
    cases done
    · simp only [Bool.false_eq_true, if_false] at h2
      split at h2
      · simp [M.throw] at h2
      · simp only [M.lift_apply, Prod.mk.injEq] at h2
        exact absurd h2.1 (unknownArgument_ne_ok _ _ _ _)
    · exact absurd rfl e1

/-- The example tree follows the rule. -/
theorem tool_routers : RoutersOnTop toolRoot := by
  refine ⟨rfl, ?_⟩
  intro m hm hk x hx hxk
  simp only [toolRoot, toolMode, toolFlag, toolVerbose, toolNum, toolOut, mkRoot, mkMode, mkFlag,
    mkCountingFlag, mkArg, nodes_mk, nodesList, List.flatMap_cons,
    List.flatMap_nil, List.append_nil, List.mem_cons, List.mem_append, List.not_mem_nil,
    or_false] at hm
  rcases hm with rfl | rfl | rfl | rfl | rfl | rfl <;> simp only [Node.kind, reduceCtorEq] at hk
  simp only [nodes_mk, nodesList, List.flatMap_cons,
    List.flatMap_nil, List.append_nil, List.mem_cons, List.mem_append, List.not_mem_nil,
    or_false] at hx
  rcases hx with rfl | rfl | rfl | rfl | rfl
  · exact absurd rfl hxk
  all_goals exact ⟨by decide, by simp [Node.kind]⟩

example : (∀ c ∈ toolRoot.children, ∀ x ∈ c.nodes, c.kind ≠ .mode → x.kind = .help ∨
      (x.hasRouter = true ∧ x.kind ≠ .countingFlag)) := by
  intro c hc x _ hk
  simp only [toolRoot, mkRoot, Node.children, List.mem_singleton] at hc
  subst hc
  exact absurd rfl hk

end Props

end ArgRouter
