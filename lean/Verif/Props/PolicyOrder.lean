import Verif.Props.Depend
import Verif.Spec.Redeclared

/-!
# C17 – the order in which policies are declared
-/

namespace ArgRouter

/-- The node with its policies declared in another way. -/
def Node.withPolicies (n : Node) (ps : List Policy) : Node :=
  .mk n.kind n.uid n.hash n.vt ps n.children

/-- A target for another node with the same tokens and sub-targets. -/
def Target.forNode (n : Node) (t : Target) : Target := { t with node := n }

namespace Props

open Spec

theorem kind_inj {l : List Policy} (hd : (l.map Policy.kindNo).Nodup) {p q : Policy} (hp : p ∈ l)
    (hq : q ∈ l) (h : p.kindNo = q.kindNo) : p = q := by
  induction l with
  | nil => cases hp
  | cons x xs ih =>
    simp only [List.map_cons, List.nodup_cons, List.mem_map, not_exists, not_and] at hd
    rcases List.mem_cons.1 hp with e1 | hp2
    · rcases List.mem_cons.1 hq with e2 | hq2
      · rw [e1, e2]
      · exact absurd (by rw [← h, e1]) (hd.1 q hq2)
    · rcases List.mem_cons.1 hq with e2 | hq2
      · exact absurd (by rw [h, e2]) (hd.1 p hp2)
      · exact ih hd.2 hp2 hq2

theorem findSome_perm {α β : Type} {l l' : List α} (f : α → Option β) (hp : l.Perm l')
    (h1 : ∀ x ∈ l, ∀ y ∈ l, (f x).isSome → (f y).isSome → x = y) :
    l.findSome? f = l'.findSome? f := by
  cases h : l.findSome? f with
  | none =>
    rw [List.findSome?_eq_none_iff] at h
    symm
    rw [List.findSome?_eq_none_iff]
    intro x hx
    exact h x (hp.mem_iff.2 hx)
  | some v =>
    obtain ⟨x, hx, hv⟩ := List.exists_of_findSome?_eq_some h
    cases h' : l'.findSome? f with
    | none =>
      rw [List.findSome?_eq_none_iff] at h'
      rw [h' x (hp.mem_iff.1 hx)] at hv
      cases hv
    | some w =>
      obtain ⟨y, hy, hw⟩ := List.exists_of_findSome?_eq_some h'
      have := h1 x hx y (hp.mem_iff.2 hy) (by simp [hv]) (by simp [hw])
      subst this
      rw [← hv, ← hw]

/-- Two nodes that agree on everything matching looks at. -/
structure SameFacts (n n' : Node) : Prop where
  long : n.longName = n'.longName
  short : n.shortName = n'.shortName
  none : n.noneName = n'.noneName
  display : n.displayName = n'.displayName
  error : n.errorName = n'.errorName
  count : n.minMaxCount = n'.minMaxCount
  marker : n.hasTokenEndMarker = n'.hasTokenEndMarker
  router : n.hasRouter = n'.hasRouter

namespace SameFacts

variable {n n' : Node} (h : SameFacts n n')
include h

theorem isNamed : n.isNamed = n'.isNamed := by simp only [Node.isNamed, h.long, h.short, h.none]
theorem tokenType : n.tokenType = n'.tokenType := by
  simp only [Node.tokenType, h.long, h.short, h.none, h.display, h.error]
theorem getToken (cfg : Config) : n.getToken cfg = n'.getToken cfg := by
  funext s; simp only [Node.getToken, h.long, h.short]
theorem matchToken : n.matchToken = n'.matchToken := by
  funext t; simp only [Node.matchToken, h.long, h.short, h.none]

theorem phase (cfg : Config) (parents : List Node) (processed : Option Target) (p : Policy)
    (hr : ∀ refs, p = .alias refs → n.hasRouter = false) :
    p.phase cfg n parents processed = p.phase cfg n' parents processed := by
  funext a subs
  cases p with
  | valueSeparator s =>
    simp only [Policy.phase, valueSeparatorPhase, h.matchToken, h.tokenType]
  | shortFormExpander =>
    simp only [Policy.phase, shortFormExpanderPhase, h.getToken, h.short]
  | tokenEndMarker m => simp only [Policy.phase, tokenEndMarkerPhase, h.isNamed]
  | minMaxCount mn mx =>
    simp only [Policy.phase, minMaxCountPhase, h.isNamed, h.marker, h.tokenType]
  | alias refs =>
    have hr' := hr refs rfl
    have : nearestModeLike (n :: parents) = nearestModeLike (n' :: parents) := by
      simp [nearestModeLike, List.find?_cons, hr', ← h.router]
    simp only [Policy.phase, aliasPhase, this, h.count, h.tokenType, h.matchToken, h.getToken]
  | dependent refs => rfl
  | _ => rfl

theorem runPhases (cfg : Config) (parents : List Node) (processed : Option Target)
    (ps : List Policy) (hr : ∀ refs, .alias refs ∈ ps → n.hasRouter = false) (m : PreResult)
    (a : Adapter) (subs : List Leaf) :
    runPhases cfg n parents processed ps m a subs =
      ArgRouter.runPhases cfg n' parents processed ps m a subs := by
  induction ps generalizing m a subs with
  | nil => rfl
  | cons p ps ih =>
    have ih := ih fun refs hm => hr refs (List.mem_cons_of_mem _ hm)
    have hp := h.phase cfg parents processed p
      (by rintro refs rfl; exact hr refs List.mem_cons_self)
    simp only [ArgRouter.runPhases, hp]
    split
    · split
      · rfl
      · rfl
      · congr 1
        funext x
        exact ih _ _ _
    · exact ih _ _ _

theorem checkLabel (cfg : Config) (m : PreResult) (a : Adapter) :
    checkLabel cfg n m a = ArgRouter.checkLabel cfg n' m a := by
  simp only [ArgRouter.checkLabel, h.isNamed, h.getToken, h.matchToken]

end SameFacts

theorem sameFacts_perm {n : Node} {ps : List Policy} (hp : n.policies.Perm ps)
    (hd : (n.policies.map Policy.kindNo).Nodup) : SameFacts n (n.withPolicies ps) := by
  have key := fun {p q} => kind_inj (p := p) (q := q) hd
  constructor
  case marker =>
    simp only [Node.hasTokenEndMarker, Node.withPolicies]
    exact hp.any_eq
  case router =>
    simp only [Node.hasRouter, Node.withPolicies]
    exact hp.any_eq
  all_goals
    refine findSome_perm _ hp ?_
    intro x hx y hy h1 h2
    refine key hx hy ?_
    cases x <;> simp at h1 <;> cases y <;> simp at h2 <;> rfl

/-- C17: take any node in which no kind of policy is given twice, and declare its policies in any
other order: on every command line, with every history and validator (that does not tell the two
apart), the node matches in the same cases, takes the same tokens, leaves the same tokens, fails
with the same errors. (A node with an alias must not itself be the routing node, which the library
rejects.) -/
theorem C17_policy_order (cfg : Config) (n : Node) (ps : List Policy) (parents : List Node)
    (args : List Token) (processed : Option Target) (validator : Validator) (s : St)
    (hperm : n.policies.Perm ps) (hkinds : (n.policies.map Policy.kindNo).Nodup)
    (halias : ∀ refs, .alias refs ∈ n.policies → n.hasRouter = false)
    (hv : validator (n.withPolicies ps) = validator n) :
    leafPreParse cfg (n.withPolicies ps) parents args processed validator s =
      match leafPreParse cfg n parents args processed validator s with
      | (.ok (some (t, rest)), s') => (.ok (some (t.forNode (n.withPolicies ps), rest)), s')
      | r => r := by
  have hsf := sameFacts_perm hperm hkinds
  have hphases : (n.withPolicies ps).phases = n.phases := by
    refine (sortPolicies_of_perm (hperm.filter _) ?_).symm
    -- the mattering policies have distinct kinds, hence distinct priorities
    have hk : ((ps.filter Policy.matters).map Policy.kindNo).Nodup := by
      have h1 : (ps.map Policy.kindNo).Nodup := (hperm.map _).nodup_iff.1 hkinds
      exact h1.sublist (List.Sublist.map _ List.filter_sublist)
    have hm : ∀ p ∈ ps.filter Policy.matters, p.matters = true :=
      fun p hp => (List.mem_filter.1 hp).2
    show ((ps.filter Policy.matters).map Policy.priority).Nodup
    generalize ps.filter Policy.matters = l at hk hm
    induction l with
    | nil => simp
    | cons p l ih =>
      simp only [List.map_cons, List.nodup_cons, List.mem_map, not_exists, not_and] at hk ⊢
      refine ⟨?_, ih hk.2 fun q hq => hm q (List.mem_cons_of_mem _ hq)⟩
      intro q hq he
      refine hk.1 q hq ?_
      have hpm := hm p List.mem_cons_self
      have hqm := hm q (List.mem_cons_of_mem _ hq)
      cases p <;> simp [Policy.matters] at hpm <;> cases q <;> simp [Policy.matters] at hqm <;>
        simp [Policy.priority] at he <;> rfl
  rw [leafPreParse_eq, leafPreParse_eq, hphases]
  have hrun := hsf.runPhases cfg parents processed n.phases
    (fun refs hm => halias refs (List.mem_filter.1 (mem_sortPolicies.1 hm)).1)
  simp only [← hrun, M.bind_apply, M.lift_apply]
  cases runPhases cfg n parents processed n.phases (.ok .validNode) ⟨[], args⟩ [] with
  | ok r =>
    obtain ⟨m, a, subs⟩ := r
    simp only [leafTail, ← hsf.checkLabel]
    cases checkLabel cfg n m a with
    | none => rfl
    | some a' =>
      simp only [M.bind_apply, hv]
      match validator n s with
      | (.throw e, s) => rfl
      | (.foreign, s) => rfl
      | (.ub, s) => rfl
      | (.diverge, s) => rfl
      | (.ok false, s) => rfl
      | (.ok true, s) =>
        cases m with
        | error e => rfl
        | ok act =>
          simp only [Bool.not_true, Bool.false_eq_true, if_false, M.pure_apply, ← hsf.isNamed]
          rfl
  | throw e => rfl
  | foreign => rfl
  | ub => rfl
  | diverge => rfl

example : exNode.policies.Perm exNode.policies.reverse ∧
    (exNode.policies.map Policy.kindNo).Nodup ∧
    (∀ refs, .alias refs ∈ exNode.policies → exNode.hasRouter = false) :=
  ⟨(List.reverse_perm _).symm, by decide +kernel, by simp [exNode, Node.policies]⟩

end Props

end ArgRouter
