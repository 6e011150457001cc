import Verif.Lemmas.Measure
import Verif.Props.Groups

/-!
# Lemmas about the argument loop of a mode
-/

namespace ArgRouter

open Props Spec

theorem oneOfValidator_true {o : Node} {inner : Validator} {c : Node} {s s' : St} {v : Bool}
    (h : oneOfValidator o inner c s = (.ok v, s')) : ∃ s1, inner c s1 = (.ok v, s') := by
  rw [oneOfValidator_apply] at h
  split at h
  · split at h
    · cases h
    · exact ⟨_, h⟩
  · exact ⟨_, h⟩

theorem self_mem_nodes (n : Node) : n ∈ n.nodes := by
  obtain ⟨k, u, h, v, p, cs⟩ := n
  rw [nodes_mk]; exact List.mem_cons_self

mutual
theorem nodes_trans (a c : Node) (hc : c ∈ a.nodes) : ∀ d ∈ c.nodes, d ∈ a.nodes := by
  match a with
  | .mk k u h v p cs =>
    rw [nodes_mk] at hc ⊢
    rcases List.mem_cons.1 hc with rfl | hc2
    · rw [nodes_mk]; exact fun d hd => hd
    · exact fun d hd => List.mem_cons_of_mem _ (nodesList_trans cs c hc2 d hd)
theorem nodesList_trans (as : List Node) (c : Node) (hc : c ∈ nodesList as) :
    ∀ d ∈ c.nodes, d ∈ nodesList as := by
  match as with
  | [] => simp [nodesList] at hc
  | a :: as =>
    simp only [nodesList, List.flatMap_cons, List.mem_append] at hc ⊢
    rcases hc with hc | hc
    · exact fun d hd => .inl (nodes_trans a c hc d hd)
    · exact fun d hd => .inr (nodesList_trans as c hc d hd)
end

theorem child_mem_nodes {n c : Node} (h : c ∈ n.children) : ∀ d ∈ c.nodes, d ∈ n.nodes := by
  obtain ⟨k, u, hh, v, p, cs⟩ := n
  rw [nodes_mk]
  exact fun d hd => List.mem_cons_of_mem _ (List.mem_flatMap.2 ⟨c, h, hd⟩)

/-- What is known of a matching leaf `m` below a node offered with `validator`. -/
def LeafMatch (cfg : Config) (parents : List Node) (args : List Token) (processed : Option Target)
    (validator : Validator) (t : Target) (rest : List Token) (m : Node) : Prop :=
  m.isGroup = false ∧ (∃ v s s', leafPreParse cfg m parents args processed v s =
      (.ok (some (t, rest)), s')) ∧ ∃ s s', validator m s = (.ok true, s')

mutual
theorem match_leaf {cfg : Config} {parents : List Node} {args : List Token}
    {processed : Option Target} {t : Target} {rest : List Token} :
    ∀ (n : Node) (validator : Validator) (s s' : St),
    preParse cfg parents args processed n validator s = (.ok (some (t, rest)), s') →
    ∃ m ∈ n.nodes, LeafMatch cfg parents args processed validator t rest m
  | .mk k u h v p cs, validator, s, s', hm => by
    by_cases hg : (Node.mk k u h v p cs).isGroup = true
    · rw [nodes_mk]
      have hk : k = .aliasGroup ∨ k = .oneOf := by
        cases k <;> simp [Node.isGroup, Node.kind] at hg ⊢
      rcases hk with rfl | rfl
      · rw [preParse_aliasGroup] at hm
        obtain ⟨m, h1, h2⟩ := match_group cs validator s s' hm
        exact ⟨m, List.mem_cons_of_mem _ h1, h2⟩
      · rw [preParse_oneOf] at hm
        obtain ⟨m, h1, h2, h3, s1, s2, h4⟩ := match_oneOf cs _ s s' hm
        obtain ⟨s3, h5⟩ := oneOfValidator_true h4
        exact ⟨m, List.mem_cons_of_mem _ h1, h2, h3, s3, s2, h5⟩
    · have hg' : (Node.mk k u h v p cs).isGroup = false := by simpa using hg
      rw [preParse_leaf _ _ _ _ _ _ hg'] at hm
      exact ⟨_, self_mem_nodes _, hg', ⟨_, _, _, hm⟩, s, s', (leafPreParse_node hm).2⟩
theorem match_group {cfg : Config} {parents : List Node} {args : List Token}
    {processed : Option Target} {t : Target} {rest : List Token} :
    ∀ (ns : List Node) (validator : Validator) (s s' : St),
    preParseGroup cfg parents args processed validator ns s = (.ok (some (t, rest)), s') →
    ∃ m ∈ nodesList ns, LeafMatch cfg parents args processed validator t rest m
  | [], validator, s, s', h => by simp [preParseGroup] at h
  | c :: cs, validator, s, s', h => by
    rw [preParseGroup, M.bind_eq_ok] at h
    obtain ⟨o, s1, h1, h2⟩ := h
    simp only [nodesList, List.flatMap_cons, List.mem_append]
    cases o with
    | none =>
      obtain ⟨m, h3, h4⟩ := match_group cs validator s1 s' h2
      exact ⟨m, .inr h3, h4⟩
    | some x =>
      simp only [M.pure_apply, Prod.mk.injEq, Out.ok.injEq, Option.some.injEq] at h2
      obtain ⟨rfl, rfl⟩ := h2
      obtain ⟨m, h3, h4⟩ := match_leaf c validator s s1 h1
      exact ⟨m, .inl h3, h4⟩
theorem match_oneOf {cfg : Config} {parents : List Node} {args : List Token}
    {processed : Option Target} {t : Target} {rest : List Token} :
    ∀ (ns : List Node) (validator : Validator) (s s' : St),
    preParseOneOf cfg parents args processed validator ns s = (.ok (some (t, rest)), s') →
    ∃ m ∈ nodesList ns, LeafMatch cfg parents args processed validator t rest m
  | [], validator, s, s', h => by simp [preParseOneOf] at h
  | c :: cs, validator, s, s', h => by
    rw [preParseOneOf, M.bind_eq_ok] at h
    obtain ⟨o, s1, h1, h2⟩ := h
    simp only [nodesList, List.flatMap_cons, List.mem_append]
    cases o with
    | none =>
      obtain ⟨m, h3, h4⟩ := match_oneOf cs validator s1 s' h2
      exact ⟨m, .inr h3, h4⟩
    | some x =>
      simp only [M.bind_eq_ok, M.pure_apply, Prod.mk.injEq, Out.ok.injEq, Option.some.injEq] at h2
      obtain ⟨_, s2, -, rfl, rfl⟩ := h2
      obtain ⟨m, h3, h4⟩ := match_leaf c validator s s1 h1
      exact ⟨m, .inl h3, h4⟩
end

/-- The child that a pass over the children of a mode selects. -/
theorem modeStep_index {cfg : Config} {parents : List Node} {target : Target}
    {matched : List Bool} {front : Token} {args : List Token} (cs : List Node) (i : Nat) {j : Nat}
    {t : Target} {rest : List Token} {s s' : St}
    (h : modeStep cfg parents target matched front args cs i s = (.ok (some (j, t, rest)), s')) :
    ∃ k c s1, j = i + k ∧ cs[k]? = some c ∧ c.kind ≠ .mode ∧
      preParse cfg parents args (some target) c
        (verifyMatch (matched[j]?.getD false) front) s1 = (.ok (some (t, rest)), s') := by
  induction cs generalizing i s with
  | nil => simp [modeStep] at h
  | cons c cs ih =>
    rw [modeStep] at h
    split at h
    · obtain ⟨k, d, s1, hj, hd, h1, h2⟩ := ih _ h
      exact ⟨k + 1, d, s1, by omega, by simpa using hd, h1, h2⟩
    · rename_i hk
      rw [M.bind_eq_ok] at h
      obtain ⟨o, s1, h1, h2⟩ := h
      cases o with
      | none =>
        obtain ⟨k, d, s1, hj, hd, h1, h2⟩ := ih _ h2
        exact ⟨k + 1, d, s1, by omega, by simpa using hd, h1, h2⟩
      | some x =>
        obtain ⟨t', args'⟩ := x
        simp only [M.pure_apply, Prod.mk.injEq, Out.ok.injEq, Option.some.injEq] at h2
        obtain ⟨⟨rfl, rfl, rfl⟩, rfl⟩ := h2
        exact ⟨0, c, s, by omega, rfl, by simpa using hk, h1⟩

theorem verifyMatch_true {already : Bool} {front : Token} {n : Node} {s s' : St}
    (h : verifyMatch already front n s = (.ok true, s')) :
    s' = s ∧ (n.isMultiStage = true ∨ already = false) := by
  unfold verifyMatch at h
  split at h
  · rename_i hm
    simp only [M.pure_apply, Prod.mk.injEq] at h
    exact ⟨h.2.symm, .inl hm⟩
  · split at h
    · split at h
      · simp [M.throw] at h
      · rename_i ha
        simp only [M.pure_apply, Prod.mk.injEq] at h
        exact ⟨h.2.symm, .inr (by simpa using ha)⟩
    · simp only [M.pure_apply, Prod.mk.injEq, Out.ok.injEq, Bool.not_eq_true'] at h
      exact ⟨h.2.symm, .inr h.1⟩

theorem ends_modeStep (cfg : Config) (parents : List Node) (target : Target) (matched : List Bool)
    (front : Token) (args : List Token) (cs : List Node) (i : Nat) :
    Ends (modeStep cfg parents target matched front args cs i) := by
  induction cs generalizing i with
  | nil => exact Ends.pure _
  | cons c cs ih =>
    rw [modeStep]
    split
    · exact ih _
    · refine Ends.bind' (ends_preParse _ _ _ _ _ _ (ends_verifyMatch _ _)) ?_
      intro o
      cases o with
      | none => exact ih _
      | some x => exact Ends.pure _

end ArgRouter
