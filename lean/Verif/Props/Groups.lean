import Verif.Props.Depend

/-!
# C14, C16 – `one_of` and `alias_group`
-/

namespace ArgRouter

namespace Spec

/-- The children answer "no match" one after the other, taking the state from `s` to `s'`. -/
def AllPass (offer : Node → M (Option (Target × List Token))) : List Node → St → St → Prop
  | [], s, s' => s' = s
  | c :: cs, s, s' => ∃ s1, offer c s = (.ok none, s1) ∧ AllPass offer cs s1 s'

end Spec

namespace Props

open Spec

/-! ## C16 -/

theorem group_iff (cfg : Config) (parents : List Node) (args : List Token)
    (processed : Option Target) (validator : Validator) (cs : List Node) (s s' : St)
    (o : Out (Option (Target × List Token))) (ho : o ≠ .ok none) :
    preParseGroup cfg parents args processed validator cs s = (o, s') ↔
      ∃ pre c post s1, cs = pre ++ c :: post ∧
        AllPass (fun c => preParse cfg parents args processed c validator) pre s s1 ∧
        preParse cfg parents args processed c validator s1 = (o, s') := by
  induction cs generalizing s with
  | nil =>
    constructor
    · intro h
      simp only [preParseGroup, M.pure_apply, Prod.mk.injEq] at h
      exact absurd h.1.symm ho
    · rintro ⟨pre, c, post, _, h, -⟩
      simp at h
  | cons c cs ih =>
    rw [preParseGroup, M.bind_apply]
    have hfwd : ∀ (o' : Out (Option (Target × List Token))) s1, o' ≠ .ok none →
        preParse cfg parents args processed c validator s = (o', s1) →
        ((o', s1) = (o, s') ↔
        ∃ pre c' post s1, c :: cs = pre ++ c' :: post ∧
          AllPass (fun c => preParse cfg parents args processed c validator) pre s s1 ∧
          preParse cfg parents args processed c' validator s1 = (o, s')) := by
      intro o' s1 ho' he
      constructor
      · intro h
        rw [← h]
        exact ⟨[], c, cs, s, rfl, rfl, he⟩
      · rintro ⟨pre, c', post, s2, h1, h2, h3⟩
        cases pre with
        | nil =>
          simp only [List.nil_append, List.cons.injEq] at h1
          obtain ⟨rfl, rfl⟩ := h1
          have h2' : s2 = s := h2
          subst h2'
          rw [← he, h3]
        | cons x xs =>
          simp only [List.cons_append, List.cons.injEq] at h1
          obtain ⟨rfl, rfl⟩ := h1
          obtain ⟨s3, h4, -⟩ := h2
          replace h4 : preParse cfg parents args processed c validator s = _ := h4
          rw [he] at h4
          simp only [Prod.mk.injEq] at h4
          exact absurd h4.1 ho'
    match hp : preParse cfg parents args processed c validator s with
    | (.ok (some r), s1) => exact hfwd _ _ (by simp) hp
    | (.throw e, s1) => exact hfwd (.throw e) _ (by simp) hp
    | (.foreign, s1) => exact hfwd .foreign _ (by simp) hp
    | (.ub, s1) => exact hfwd .ub _ (by simp) hp
    | (.diverge, s1) => exact hfwd .diverge _ (by simp) hp
    | (.ok none, s1) =>
      simp only
      rw [ih]
      constructor
      · rintro ⟨pre, c', post, s2, rfl, h2, h3⟩
        exact ⟨c :: pre, c', post, s2, rfl, ⟨s1, hp, h2⟩, h3⟩
      · rintro ⟨pre, c', post, s2, h1, h2, h3⟩
        cases pre with
        | nil =>
          simp only [List.nil_append, List.cons.injEq] at h1
          obtain ⟨rfl, rfl⟩ := h1
          have h2' : s2 = s := h2
          subst h2'
          rw [hp] at h3
          simp only [Prod.mk.injEq] at h3
          exact absurd h3.1.symm ho
        | cons x xs =>
          simp only [List.cons_append, List.cons.injEq] at h1
          obtain ⟨rfl, rfl⟩ := h1
          obtain ⟨s3, h4, h5⟩ := h2
          simp only [hp, Prod.mk.injEq, true_and] at h4
          subst h4
          exact ⟨xs, c', post, s2, rfl, h5, h3⟩

/-- C16: an `alias_group` gives any outcome other than "no match" exactly if its first child (in
declaration order) that does not answer "no match" gives that outcome. -/
theorem C16_first_child (cfg : Config) (parents : List Node) (args : List Token)
    (processed : Option Target) (validator : Validator) (u h : Nat) (v : ValueType)
    (p : List Policy) (cs : List Node) (s s' : St) (o : Out (Option (Target × List Token)))
    (ho : o ≠ .ok none) :
    preParse cfg parents args processed (.mk .aliasGroup u h v p cs) validator s = (o, s') ↔
      ∃ pre c post s1, cs = pre ++ c :: post ∧
        AllPass (fun c => preParse cfg parents args processed c validator) pre s s1 ∧
        preParse cfg parents args processed c validator s1 = (o, s') := by
  rw [preParse_aliasGroup]
  exact group_iff cfg parents args processed validator cs s s' o ho

/-- C16: an `alias_group` does not match exactly if none of its children does. -/
theorem C16_no_child (cfg : Config) (parents : List Node) (args : List Token)
    (processed : Option Target) (validator : Validator) (u h : Nat) (v : ValueType)
    (p : List Policy) (cs : List Node) (s s' : St) :
    preParse cfg parents args processed (.mk .aliasGroup u h v p cs) validator s =
      (.ok none, s') ↔
      AllPass (fun c => preParse cfg parents args processed c validator) cs s s' := by
  rw [preParse_aliasGroup]
  induction cs generalizing s with
  | nil =>
    simp only [preParseGroup, M.pure_apply, Prod.mk.injEq, true_and, AllPass]
    exact eq_comm
  | cons c cs ih =>
    rw [preParseGroup, M.bind_eq_ok]
    simp only [AllPass]
    constructor
    · rintro ⟨o, s1, h1, h2⟩
      cases o with
      | none => exact ⟨s1, h1, (ih s1).1 h2⟩
      | some r => simp at h2
    · rintro ⟨s1, h1, h2⟩
      exact ⟨none, s1, h1, (ih s1).2 h2⟩

/-- `--foo VALUE` or `--bar`. -/
def exGroup : Node := .mk .aliasGroup 10 10 ⟨false, .one (.bool false), fun s => .ok (.str s)⟩ []
  [keyArg, aFlag]

example : taken (preParse .default [tlsMode] [⟨.none, b "--aa"⟩] none exGroup alwaysTrue .fresh) =
    .ok (some ([], [])) := by decide +kernel

/-! ## C14 -/

/-- The code never changes or forgets a selection once made. -/
def Sticky {α : Type} (m : M α) : Prop :=
  ∀ s uid h, s.lastTypeId uid = some h → (m s).2.lastTypeId uid = some h

namespace Sticky

theorem pure {α : Type} (a : α) : Sticky (Pure.pure a : M α) := fun _ _ _ h => h
theorem lift {α : Type} (o : Out α) : Sticky (M.lift o) := fun _ _ _ h => h
theorem throw {α : Type} (e : Exc) : Sticky (M.throw e : M α) := fun _ _ _ h => h

theorem bind {α β : Type} {m : M α} {f : α → M β} (hm : Sticky m) (hf : ∀ a, Sticky (f a)) :
    Sticky (m >>= f) := by
  intro s uid h hs
  rw [M.bind_apply]
  have := hm s uid h hs
  match hx : m s with
  | (.ok a, s1) => rw [hx] at this; exact hf a s1 uid h this
  | (.throw e, s1) => rw [hx] at this; exact this
  | (.foreign, s1) => rw [hx] at this; exact this
  | (.ub, s1) => rw [hx] at this; exact this
  | (.diverge, s1) => rw [hx] at this; exact this

end Sticky

theorem oneOfValidator_apply (o : Node) (inner : Validator) (c : Node) (s : St) :
    oneOfValidator o inner c s =
      match s.lastTypeId o.uid with
      | some h =>
        if h ≠ c.hash then (.throw ⟨.one_of_selected_type_mismatch, [o.tokenType]⟩, s)
        else inner c s
      | none => inner c { s with sel := (o.uid, c.hash) :: s.sel } := by
  show (match s.lastTypeId o.uid with
      | some h =>
        if h ≠ c.hash then M.throw ⟨.one_of_selected_type_mismatch, [o.tokenType]⟩
        else inner c
      | none => do
        (fun s => (.ok (), { s with sel := (o.uid, c.hash) :: s.sel }) : M Unit)
        inner c : M Bool) s = _
  cases s.lastTypeId o.uid with
  | none => rfl
  | some h =>
    simp only
    split <;> rfl

theorem sticky_oneOfValidator {o : Node} {inner : Validator} (hi : ∀ n, Sticky (inner n)) (c : Node) :
    Sticky (oneOfValidator o inner c) := by
  intro s uid h hs
  rw [oneOfValidator_apply]
  cases hl : s.lastTypeId o.uid with
  | some x =>
    simp only
    split
    · exact hs
    · exact hi c s uid h hs
  | none =>
    refine hi c _ uid h ?_
    have hne : uid ≠ o.uid := by
      rintro rfl; rw [hs] at hl; cases hl
    simp only [St.lastTypeId, List.lookup_cons]
    rw [show (uid == o.uid) = false by simpa using hne]
    exact hs

theorem sticky_leaf {cfg : Config} {n : Node} {parents : List Node} {args : List Token}
    {processed : Option Target} {validator : Validator} (hv : ∀ n, Sticky (validator n)) :
    Sticky (leafPreParse cfg n parents args processed validator) := by
  unfold leafPreParse
  refine Sticky.bind (Sticky.lift _) ?_
  rintro ⟨m, a, subs⟩
  simp only
  split
  · exact Sticky.pure _
  · refine Sticky.bind (hv n) ?_
    intro ok
    split
    · exact Sticky.pure _
    · split
      · exact Sticky.throw _
      · exact Sticky.pure _

mutual
theorem sticky_preParse (cfg : Config) (parents : List Node) (args : List Token)
    (processed : Option Target) : ∀ (n : Node) (validator : Validator),
    (∀ n, Sticky (validator n)) → Sticky (preParse cfg parents args processed n validator)
  | .mk k u h v p cs, validator, hv => by
    cases k
    case aliasGroup =>
      rw [preParse_aliasGroup]; exact sticky_group cfg parents args processed cs validator hv
    case oneOf =>
      rw [preParse_oneOf]
      exact sticky_oneOf cfg parents args processed cs _ (sticky_oneOfValidator hv)
    all_goals
      rw [preParse_leaf _ _ _ _ _ _ (by rfl)]
      exact sticky_leaf hv
theorem sticky_group (cfg : Config) (parents : List Node) (args : List Token)
    (processed : Option Target) : ∀ (ns : List Node) (validator : Validator),
    (∀ n, Sticky (validator n)) → Sticky (preParseGroup cfg parents args processed validator ns)
  | [], validator, hv => by rw [preParseGroup]; exact Sticky.pure _
  | c :: cs, validator, hv => by
    rw [preParseGroup]
    refine Sticky.bind (sticky_preParse cfg parents args processed c validator hv) ?_
    intro o
    cases o with
    | none => exact sticky_group cfg parents args processed cs validator hv
    | some r => exact Sticky.pure _
theorem sticky_oneOf (cfg : Config) (parents : List Node) (args : List Token)
    (processed : Option Target) : ∀ (ns : List Node) (validator : Validator),
    (∀ n, Sticky (validator n)) → Sticky (preParseOneOf cfg parents args processed validator ns)
  | [], validator, hv => by rw [preParseOneOf]; exact Sticky.pure _
  | c :: cs, validator, hv => by
    rw [preParseOneOf]
    refine Sticky.bind (sticky_preParse cfg parents args processed c validator hv) ?_
    intro o
    cases o with
    | none => exact sticky_oneOf cfg parents args processed cs validator hv
    | some r => exact Sticky.bind (hv c) fun _ => Sticky.pure _
end

theorem sticky_verifyMatch (already : Bool) (front : Token) (n : Node) :
    Sticky (verifyMatch already front n) := by
  unfold verifyMatch
  split
  · exact Sticky.pure _
  · split
    · split
      · exact Sticky.throw _
      · exact Sticky.pure _
    · exact Sticky.pure _

/-- What it means that the validator of a `one_of` accepts a child. -/
theorem oneOfValidator_ok {o : Node} {inner : Validator} (hi : ∀ n, Sticky (inner n)) {c : Node}
    {s s' : St} {x : Bool} (h : oneOfValidator o inner c s = (.ok x, s')) :
    (s.lastTypeId o.uid = none ∨ s.lastTypeId o.uid = some c.hash) ∧
    s'.lastTypeId o.uid = some c.hash := by
  rw [oneOfValidator_apply] at h
  cases hl : s.lastTypeId o.uid with
  | some y =>
    rw [hl] at h
    simp only at h
    split at h
    · simp at h
    · rename_i hy
      have hy : y = c.hash := by simpa using hy
      subst hy
      refine ⟨.inr rfl, ?_⟩
      have := hi c s _ _ hl
      rw [h] at this; exact this
  | none =>
    rw [hl] at h
    refine ⟨.inl rfl, ?_⟩
    have := hi c { s with sel := (o.uid, c.hash) :: s.sel } o.uid c.hash
      (by simp [St.lastTypeId])
    simp only at h
    rw [h] at this; exact this

/-- C14, one step: if a `one_of` whose alternatives are plain arguments matches, it does so through
one of its alternatives; if an alternative had been used before it is that one; and from now on it
is that one. -/
theorem C14_step (cfg : Config) (parents : List Node) (args rest : List Token)
    (processed : Option Target) (validator : Validator) (o : Node) (s s' : St) (t : Target)
    (hk : o.kind = .oneOf) (hc : ∀ c ∈ o.children, c.isGroup = false)
    (hv : ∀ n, Sticky (validator n))
    (h : preParse cfg parents args processed o validator s = (.ok (some (t, rest)), s')) :
    t.node ∈ o.children ∧
    (s.lastTypeId o.uid = none ∨ s.lastTypeId o.uid = some t.node.hash) ∧
    s'.lastTypeId o.uid = some t.node.hash := by
  obtain ⟨k, u, hh, v, p, cs⟩ := o
  simp only [Node.kind] at hk
  subst hk
  rw [preParse_oneOf] at h
  generalize ho : Node.mk Kind.oneOf u hh v p cs = o at h ⊢
  have hcs : ∀ c ∈ cs, c ∈ o.children := by rw [← ho]; exact fun c h => h
  have hcs' : ∀ c ∈ cs, c.isGroup = false := hc
  clear hc ho
  induction cs generalizing s with
  | nil => simp [preParseOneOf] at h
  | cons c cs ih =>
    rw [preParseOneOf, M.bind_eq_ok] at h
    obtain ⟨r, s1, h1, h2⟩ := h
    have hst := sticky_preParse cfg parents args processed c _ (sticky_oneOfValidator (o := o) hv) s
    rw [h1] at hst
    cases r with
    | none =>
      obtain ⟨i1, i2, i3⟩ := ih s1 h2 (fun c hc => hcs c (List.mem_cons_of_mem _ hc))
        (fun c hc => hcs' c (List.mem_cons_of_mem _ hc))
      refine ⟨i1, ?_, i3⟩
      cases hl : s.lastTypeId o.uid with
      | none => exact .inl rfl
      | some y =>
        rw [hst _ _ hl] at i2
        simpa using i2
    | some r =>
      simp only [M.bind_eq_ok, M.pure_apply, Prod.mk.injEq, Out.ok.injEq, Option.some.injEq] at h2
      obtain ⟨x, s2, h3, rfl, rfl⟩ := h2
      rw [preParse_leaf _ _ _ _ _ _ (hcs' c List.mem_cons_self)] at h1
      obtain ⟨e1, e2⟩ := leafPreParse_node h1
      simp only at e1
      rw [e1]
      obtain ⟨f1, -⟩ := oneOfValidator_ok hv e2
      obtain ⟨-, f2⟩ := oneOfValidator_ok hv h3
      exact ⟨hcs c List.mem_cons_self, f1, f2⟩

/-- C14: an alternative that recognises its label while another one has been used is rejected with
`one_of_selected_type_mismatch`, here for alternatives governed by their value counts. The earlier
alternatives of the group do not recognise the command line. -/
theorem C14_rejected (cfg : Config) (parents : List Node) (label : Token) (rest : List Token)
    (processed : Option Target) (validator : Validator) (u hh : Nat) (v : ValueType)
    (p : List Policy) (pre post : List Node) (c : Node) (mn mx used : Nat) (s : St)
    (hpre : ∀ d ∈ pre, d.isGroup = false ∧ d.isNamed = true ∧ ¬ IsLabel cfg d label ∧
      ∃ mn mx, MatchPolicies d [.minMaxCount mn mx])
    (hc : c.isGroup = false) (hn : c.isNamed = true) (hp : MatchPolicies c [.minMaxCount mn mx])
    (hmx : mx ≤ sizeMax) (hlen : rest.length + 1 < 2 ^ 63) (hl : IsLabel cfg c label)
    (hused : s.lastTypeId u = some used) (hother : used ≠ c.hash) :
    preParse cfg parents (label :: rest) processed
        (.mk .oneOf u hh v p (pre ++ c :: post)) validator s =
      (.throw ⟨.one_of_selected_type_mismatch,
        [(Node.mk .oneOf u hh v p (pre ++ c :: post)).tokenType]⟩, s) := by
  rw [preParse_oneOf]
  generalize ho : Node.mk Kind.oneOf u hh v p (pre ++ c :: post) = o
  have hu : o.uid = u := by rw [← ho]; rfl
  clear ho
  induction pre with
  | nil =>
    rw [List.nil_append, preParseOneOf, M.bind_apply, preParse_leaf _ _ _ _ _ _ hc,
      C07_named cfg c mn mx parents label rest processed _ hp hn hmx hlen hl]
    have : oneOfValidator o validator c s =
        (.throw ⟨.one_of_selected_type_mismatch, [o.tokenType]⟩, s) := by
      rw [oneOfValidator_apply, hu, hused]
      simp only
      rw [if_pos hother]
    simp only [guarded, M.bind_apply, this]
  | cons d ds ih =>
    obtain ⟨g1, g2, g3, mn', mx', g4⟩ := hpre d List.mem_cons_self
    rw [List.cons_append, preParseOneOf, preParse_leaf _ _ _ _ _ _ g1,
      C07_named_no_label cfg d mn' mx' parents (label :: rest) processed _ g4 g2
        (by simpa using g3)]
    simp only [M.pure_bind]
    exact ih (fun x hx => hpre x (List.mem_cons_of_mem _ hx))

/-- The plain arguments a child of a mode stands for. -/
def alternatives (c : Node) : List Node := if c.isGroup then c.children else [c]

/-- The children of a mode are plain arguments and groups of plain arguments; no aliases; no two
arguments have the same type hash; no two children are the same object. -/
structure PlainMode (children : List Node) : Prop where
  flat : ∀ c ∈ children, ∀ d ∈ c.children, d.isGroup = false
  noAlias : ∀ c ∈ children, ∀ d ∈ alternatives c, ∀ refs, .alias refs ∉ d.policies
  hashes : ((children.flatMap alternatives).map Node.hash).Nodup
  uids : (children.map Node.uid).Nodup

theorem phase_no_alias {cfg : Config} {n : Node} {parents : List Node} {processed : Option Target}
    {p : Policy} {a a' : Adapter} {subs subs' : List Leaf} {r : PreResult}
    (hp : ∀ refs, p ≠ .alias refs)
    (h : p.phase cfg n parents processed a subs = .ok (r, a', subs')) : subs' = subs := by
  cases p
  case alias refs => exact absurd rfl (hp refs)
  case valueSeparator sep =>
    simp only [Policy.phase, Out.bind_eq_ok, Prod.exists, Out.pure_eq, Out.ok.injEq,
      Prod.mk.injEq] at h
    obtain ⟨_, _, _, _, _, h⟩ := h; exact h.symm
  case shortFormExpander =>
    simp only [Policy.phase, Out.bind_eq_ok, Prod.exists, Out.pure_eq, Out.ok.injEq,
      Prod.mk.injEq] at h
    obtain ⟨_, _, _, _, _, h⟩ := h; exact h.symm
  case tokenEndMarker =>
    simp only [Policy.phase, Out.bind_eq_ok, Prod.exists, Out.pure_eq, Out.ok.injEq,
      Prod.mk.injEq] at h
    obtain ⟨_, _, _, _, _, h⟩ := h; exact h.symm
  case dependent refs =>
    simp only [Policy.phase, Out.bind_eq_ok, Prod.exists, Out.pure_eq, Out.ok.injEq,
      Prod.mk.injEq] at h
    obtain ⟨_, _, _, _, _, h⟩ := h; exact h.symm
  all_goals
    simp only [Policy.phase, Out.ok.injEq, Prod.mk.injEq] at h
    exact h.2.2.symm

theorem runPhases_no_alias {cfg : Config} {n : Node} {parents : List Node}
    {processed : Option Target} (ps : List Policy) (hps : ∀ refs, .alias refs ∉ ps)
    {m r : PreResult} {a a' : Adapter} {subs subs' : List Leaf}
    (h : runPhases cfg n parents processed ps m a subs = .ok (r, a', subs')) : subs' = subs := by
  induction ps generalizing m a subs with
  | nil =>
    simp only [runPhases, Out.ok.injEq, Prod.mk.injEq] at h
    exact h.2.2.symm
  | cons p ps ih =>
    have ihp := fun {m a subs} => ih (m := m) (a := a) (subs := subs)
      fun refs hq => hps refs (List.mem_cons_of_mem _ hq)
    have hp : ∀ refs, p ≠ .alias refs := by
      rintro refs rfl; exact hps refs List.mem_cons_self
    simp only [runPhases] at h
    split at h
    · match m with
      | .error e =>
        simp only [Out.ok.injEq, Prod.mk.injEq] at h
        exact h.2.2.symm
      | .ok .skipNode =>
        simp only [Out.ok.injEq, Prod.mk.injEq] at h
        exact h.2.2.symm
      | .ok .validNode =>
        simp only [Out.bind_eq_ok, Prod.exists] at h
        obtain ⟨m1, a1, s1, h1, h2⟩ := h
        rw [ihp h2, phase_no_alias hp h1]
      | .ok .skipNodeButUseSubTargets =>
        simp only [Out.bind_eq_ok, Prod.exists] at h
        obtain ⟨m1, a1, s1, h1, h2⟩ := h
        rw [ihp h2, phase_no_alias hp h1]
    · exact ihp h

theorem leaf_subs {cfg : Config} {n : Node} {parents : List Node} {args : List Token}
    {processed : Option Target} {validator : Validator} {s s' : St} {r : Target × List Token}
    (hp : ∀ refs, .alias refs ∉ n.policies)
    (h : leafPreParse cfg n parents args processed validator s = (.ok (some r), s')) :
    r.1.subs = [] := by
  simp only [leafPreParse, M.bind_eq_ok, M.lift_apply, Prod.exists, Prod.mk.injEq] at h
  obtain ⟨m, a, subs, s1, ⟨h1, rfl⟩, h2⟩ := h
  have hsubs := runPhases_no_alias _ (fun refs hm => hp refs (mem_sortPolicies.1 hm)) h1
  subst hsubs
  cases hc : checkLabel cfg n m a with
  | none => rw [hc] at h2; simp at h2
  | some a' =>
    rw [hc] at h2
    simp only [M.bind_eq_ok] at h2
    obtain ⟨ok, s2, h3', h3⟩ := h2
    cases ok
    · simp at h3
    · cases m with
      | error e => simp at h3
      | ok act =>
        simp only [Bool.not_true, Bool.false_eq_true, if_false, M.pure_apply, Prod.mk.injEq,
          Out.ok.injEq, Option.some.injEq] at h3
        obtain ⟨rfl, rfl⟩ := h3
        rfl

/-- A matching child of a plain mode matches through one of the arguments it stands for. -/
theorem child_match {cfg : Config} {c : Node} {parents : List Node} {args : List Token}
    {processed : Option Target} {validator : Validator} {s s' : St} {r : Target × List Token}
    (hflat : ∀ d ∈ c.children, d.isGroup = false)
    (hp : ∀ d ∈ alternatives c, ∀ refs, .alias refs ∉ d.policies)
    (h : preParse cfg parents args processed c validator s = (.ok (some r), s')) :
    r.1.node ∈ alternatives c ∧ r.1.subs = [] := by
  by_cases hg : c.isGroup = true
  · have halt : alternatives c = c.children := by simp [alternatives, hg]
    rw [halt] at hp ⊢
    obtain ⟨k, u, hh, v, p, cs⟩ := c
    have hk : k = .aliasGroup ∨ k = .oneOf := by
      cases k <;> simp [Node.isGroup, Node.kind] at hg ⊢
    have key : ∀ (ds : List Node), (∀ d ∈ ds, d ∈ cs) → ∀ validator s,
        preParseGroup cfg parents args processed validator ds s = (.ok (some r), s') ∨
        preParseOneOf cfg parents args processed validator ds s = (.ok (some r), s') →
        r.1.node ∈ cs ∧ r.1.subs = [] := by
      intro ds
      induction ds with
      | nil =>
        rintro _ validator s (h | h)
        · simp [preParseGroup] at h
        · simp [preParseOneOf] at h
      | cons d ds ih =>
        intro hds validator s h
        have hd := hds d List.mem_cons_self
        have leaf : ∀ {x s1}, preParse cfg parents args processed d validator s =
            (.ok (some x), s1) → x.1.node ∈ cs ∧ x.1.subs = [] := by
          intro x s1 h1
          rw [preParse_leaf _ _ _ _ _ _ (hflat d hd)] at h1
          exact ⟨by rw [(leafPreParse_node h1).1]; exact hd, leaf_subs (hp d hd) h1⟩
        rcases h with h | h
        · rw [preParseGroup, M.bind_eq_ok] at h
          obtain ⟨o, s1, h1, h2⟩ := h
          cases o with
          | none => exact ih (fun x hx => hds x (List.mem_cons_of_mem _ hx)) validator s1 (.inl h2)
          | some x =>
            simp only [M.pure_apply, Prod.mk.injEq, Out.ok.injEq, Option.some.injEq] at h2
            obtain ⟨rfl, rfl⟩ := h2
            exact leaf h1
        · rw [preParseOneOf, M.bind_eq_ok] at h
          obtain ⟨o, s1, h1, h2⟩ := h
          cases o with
          | none => exact ih (fun x hx => hds x (List.mem_cons_of_mem _ hx)) validator s1 (.inr h2)
          | some x =>
            simp only [M.bind_eq_ok, M.pure_apply, Prod.mk.injEq, Out.ok.injEq,
              Option.some.injEq] at h2
            obtain ⟨_, s2, -, rfl, rfl⟩ := h2
            exact leaf h1
    rcases hk with rfl | rfl
    · rw [preParse_aliasGroup] at h
      exact key cs (fun _ h => h) _ _ (.inl h)
    · rw [preParse_oneOf] at h
      exact key cs (fun _ h => h) _ _ (.inr h)
  · have hg : c.isGroup = false := by simpa using hg
    have halt : alternatives c = [c] := by simp [alternatives, hg]
    rw [halt] at hp ⊢
    rw [preParse_leaf _ _ _ _ _ _ hg] at h
    exact ⟨by rw [(leafPreParse_node h).1]; exact List.mem_cons_self,
      leaf_subs (hp c List.mem_cons_self) h⟩

/-- One pass over the children: what a match says about the `one_of` objects. -/
theorem modeStep_spec {cfg : Config} {parents : List Node} {target : Target}
    {matched : List Bool} {front : Token} {args : List Token} (cs : List Node) (i j : Nat)
    {t : Target} {rest : List Token} {s s' : St}
    (h : modeStep cfg parents target matched front args cs i s = (.ok (some (j, t, rest)), s')) :
    ∃ c ∈ cs, ∃ s1, (∀ uid h, s.lastTypeId uid = some h → s1.lastTypeId uid = some h) ∧
      preParse cfg parents args (some target) c
        (verifyMatch (matched[j]?.getD false) front) s1 = (.ok (some (t, rest)), s') := by
  induction cs generalizing i s with
  | nil => simp [modeStep] at h
  | cons c cs ih =>
    rw [modeStep] at h
    split at h
    · obtain ⟨d, hd, s1, h1, h2⟩ := ih _ h
      exact ⟨d, List.mem_cons_of_mem _ hd, s1, h1, h2⟩
    · rw [M.bind_eq_ok] at h
      obtain ⟨o, s1, h1, h2⟩ := h
      have hst := sticky_preParse cfg parents args (some target) c _
        (sticky_verifyMatch (matched[i]?.getD false) front) s
      rw [h1] at hst
      cases o with
      | none =>
        obtain ⟨d, hd, s2, h3, h4⟩ := ih _ h2
        exact ⟨d, List.mem_cons_of_mem _ hd, s2, fun u x hx => h3 u x (hst u x hx), h4⟩
      | some x =>
        obtain ⟨t', args'⟩ := x
        simp only [M.pure_apply, Prod.mk.injEq, Out.ok.injEq, Option.some.injEq] at h2
        obtain ⟨⟨rfl, rfl, rfl⟩, rfl⟩ := h2
        exact ⟨c, List.mem_cons_self, s, fun u x hx => hx, h1⟩

theorem hash_alternatives {cs : List Node} (hd : ((cs.flatMap alternatives).map Node.hash).Nodup)
    {c d : Node} (hc : c ∈ cs) (hd' : d ∈ cs) {x : Node} (hx : x ∈ alternatives c)
    (hx' : x ∈ alternatives d) (hu : (cs.map Node.uid).Nodup) : c = d := by
  induction cs with
  | nil => cases hc
  | cons y ys ih =>
    simp only [List.flatMap_cons, List.map_append, List.nodup_append, List.map_cons,
      List.nodup_cons] at hd hu
    obtain ⟨-, h2, h3⟩ := hd
    have hmem : ∀ {z}, z ∈ ys → x ∈ alternatives z →
        x.hash ∈ (ys.flatMap alternatives).map Node.hash := by
      intro z hz hxz
      exact List.mem_map.2 ⟨x, List.mem_flatMap.2 ⟨z, hz, hxz⟩, rfl⟩
    rcases List.mem_cons.1 hc with rfl | hc2
    · rcases List.mem_cons.1 hd' with rfl | hd2
      · rfl
      · exact absurd rfl (h3 _ (List.mem_map.2 ⟨x, hx, rfl⟩) _ (hmem hd2 hx'))
    · rcases List.mem_cons.1 hd' with rfl | hd2
      · exact absurd rfl (h3 _ (List.mem_map.2 ⟨x, hx', rfl⟩) _ (hmem hc2 hx))
      · exact ih h2 hc2 hd2 hu.2

theorem unknownArgument_ne_ok {α : Type} (cfg : Config) (n : Node) (t : Token) (v : α) :
    unknownArgument cfg n t ≠ .ok v := by
  intro hv
  simp only [unknownArgument, Out.bind_eq_ok] at hv
  obtain ⟨a, -, hv⟩ := hv
  revert hv
  cases a <;> simp

theorem nodup_map_inj {α β : Type} {l : List α} {f : α → β} (hd : (l.map f).Nodup) {p q : α}
    (hp : p ∈ l) (hq : q ∈ l) (h : f p = f q) : p = q := by
  induction l with
  | nil => cases hp
  | cons x xs ih =>
    simp only [List.map_cons, List.nodup_cons, List.mem_map, not_exists, not_and] at hd
    rcases List.mem_cons.1 hp with e1 | hp2
    · rcases List.mem_cons.1 hq with e2 | hq2
      · rw [e1, e2]
      · exact absurd (by rw [← h, e1]) (hd.1 q hq2)
    · rcases List.mem_cons.1 hq with e2 | hq2
      · exact absurd (by rw [h, e2]) (hd.1 p hp2)
      · exact ih hd.2 hp2 hq2

theorem oneOf_subs (cfg : Config) (mode : Node) (parents : List Node) (fuel : Nat)
    (matched : List Bool) (args rest : List Token) (t : Target) (s s' : St) (o : Node)
    (hplain : PlainMode mode.children) (ho : o ∈ mode.children) (hk : o.kind = .oneOf)
    (h : modeLoop cfg mode parents fuel ⟨mode, [], []⟩ matched args s = (.ok (t, rest), s')) :
    (∀ l ∈ t.subs, l.node ∈ o.children → s'.lastTypeId o.uid = some l.node.hash) ∧
    (∀ uid h, s.lastTypeId uid = some h → s'.lastTypeId uid = some h) := by
  have gen : ∀ fuel target matched args s,
      (∀ l ∈ target.subs, l.node ∈ o.children → s.lastTypeId o.uid = some l.node.hash) →
      modeLoop cfg mode parents fuel target matched args s = (.ok (t, rest), s') →
      (∀ l ∈ t.subs, l.node ∈ o.children → s'.lastTypeId o.uid = some l.node.hash) ∧
      (∀ uid h, s.lastTypeId uid = some h → s'.lastTypeId uid = some h) := by
    intro fuel
    induction fuel with
    | zero =>
      intro target matched args s hinv h
      cases args with
      | nil =>
        simp only [modeLoop, M.pure_apply, Prod.mk.injEq, Out.ok.injEq] at h
        obtain ⟨⟨rfl, rfl⟩, rfl⟩ := h
        exact ⟨hinv, fun _ _ h => h⟩
      | cons x xs => simp [modeLoop] at h
    | succ fuel ih =>
      intro target matched args s hinv h
      cases args with
      | nil =>
        simp only [modeLoop, M.pure_apply, Prod.mk.injEq, Out.ok.injEq] at h
        obtain ⟨⟨rfl, rfl⟩, rfl⟩ := h
        exact ⟨hinv, fun _ _ h => h⟩
      | cons front more =>
        rw [modeLoop, M.bind_eq_ok] at h
        obtain ⟨r, s1, h1, h2⟩ := h
        cases r with
        | none =>
          simp only at h2
          split at h2
          · simp at h2
          · simp only [M.lift_apply, Prod.mk.injEq] at h2
            exact absurd h2.1 (unknownArgument_ne_ok _ _ _ _)
        | some r =>
          obtain ⟨j, t1, rest1⟩ := r
          simp only at h2
          obtain ⟨c, hc, s0, hst, hpp⟩ := modeStep_spec _ _ _ h1
          have hst' := sticky_preParse cfg (mode :: parents) (front :: more) (some target) c _
            (sticky_verifyMatch (matched[j]?.getD false) front) s0
          rw [hpp] at hst'
          obtain ⟨m1, m2⟩ := child_match (hplain.flat c hc) (hplain.noAlias c hc) hpp
          simp only at m1 m2
          have holdkeep : ∀ l ∈ target.subs, l.node ∈ o.children →
              s1.lastTypeId o.uid = some l.node.hash :=
            fun l hl hn => hst' _ _ (hst _ _ (hinv l hl hn))
          suffices hnew : _ from
            have ih' := ih _ _ _ _ hnew h2
            ⟨ih'.1, fun u x hx => ih'.2 u x (hst' _ _ (hst _ _ hx))⟩
          intro l hl hn
          rcases List.mem_append.1 hl with hl | hl
          · exact holdkeep l hl hn
          · have hl' : l = ⟨t1.node, t1.tokens⟩ := by
              simp only [flattenMatch, m2, List.isEmpty_nil, if_true, List.mem_singleton] at hl
              exact hl
            subst hl'
            simp only at hn ⊢
            have hoa : alternatives o = o.children := by simp [alternatives, Node.isGroup, hk]
            have hco : c = o := hash_alternatives hplain.hashes hc ho m1 (by rw [hoa]; exact hn)
              hplain.uids
            subst hco
            exact (C14_step _ _ _ _ _ _ _ _ _ _ hk (hplain.flat c hc)
              (sticky_verifyMatch _ _) hpp).2.2
  exact gen fuel _ _ _ _ (by simp) h

/-- C14: after pre-parsing any command line with a mode of plain arguments and groups, all the
sub-targets that belong to a given `one_of` belong to one and the same alternative of it; and that
is also the alternative used earlier, if there was one. -/
theorem C14_one_alternative_partial (cfg : Config) (mode : Node) (parents : List Node) (fuel : Nat)
    (matched : List Bool) (args rest : List Token) (t : Target) (s s' : St) (o : Node)
    (hplain : PlainMode mode.children) (ho : o ∈ mode.children) (hk : o.kind = .oneOf)
    (h : modeLoop cfg mode parents fuel ⟨mode, [], []⟩ matched args s = (.ok (t, rest), s')) :
    (∀ l ∈ t.subs, ∀ l' ∈ t.subs, l.node ∈ o.children → l'.node ∈ o.children →
      l.node = l'.node) ∧
    (∀ l ∈ t.subs, l.node ∈ o.children → ∀ used, s.lastTypeId o.uid = some used →
      l.node.hash = used) := by
  obtain ⟨h1, h2⟩ := oneOf_subs cfg mode parents fuel matched args rest t s s' o hplain ho hk h
  constructor
  · intro l hl l' hl' hn hn'
    have e : l.node.hash = l'.node.hash := by
      have := h1 l hl hn
      rw [h1 l' hl' hn'] at this
      exact (Option.some.inj this).symm
    have hoa : alternatives o = o.children := by simp [alternatives, Node.isGroup, hk]
    have hm : ∀ x ∈ o.children, x ∈ mode.children.flatMap alternatives := by
      intro x hx
      exact List.mem_flatMap.2 ⟨o, ho, by rw [hoa]; exact hx⟩
    exact nodup_map_inj hplain.hashes (hm _ hn) (hm _ hn') e
  · intro l hl hn used hu
    have := h1 l hl hn
    rw [h2 _ _ hu] at this
    exact (Option.some.inj this).symm

/-- Two alternatives. -/
def xFlag : Node := .mk .flag 12 12 ⟨false, .one (.bool false), fun s => .ok (.str s)⟩
  [.defaultValue (.one (.bool false)), .minMaxCount 0 0, .longName (b "xx")] []
def exOneOf : Node := .mk .oneOf 7 7 ⟨false, .one (.bool false), fun s => .ok (.str s)⟩
  [.displayName (b "Choice"), .required] [certArg, xFlag]
def oneOfMode : Node := .mk .mode 8 8 ⟨false, .one (.bool false), fun s => .ok (.str s)⟩
  [.router] [exOneOf, bFlag]
def oneOfRoot : Node := .mk .root 9 9 ⟨false, .one (.bool false), fun s => .ok (.str s)⟩
  [] [oneOfMode]

example : PlainMode oneOfMode.children ∧ exOneOf ∈ oneOfMode.children ∧ exOneOf.kind = .oneOf ∧
    (modeLoop .default oneOfMode [oneOfRoot] 5 ⟨oneOfMode, [], []⟩ [false, false]
      [⟨.none, b "--cert"⟩, ⟨.none, b "x"⟩, ⟨.none, b "--bb"⟩] .fresh).2.lastTypeId 7 =
        some certArg.hash := by
  refine ⟨⟨?_, ?_, by decide +kernel, by decide +kernel⟩, by simp [oneOfMode, Node.children],
    rfl, by decide +kernel⟩
  · simp [oneOfMode, Node.children, exOneOf, certArg, xFlag, bFlag, Node.isGroup, Node.kind]
  · simp [oneOfMode, Node.children, exOneOf, certArg, xFlag, bFlag, alternatives, Node.isGroup,
      Node.kind, Node.policies]

example : ((parseArgs .default oneOfRoot [b "--cert", b "x", b "--xx"] .fresh).1) =
    .throw ⟨.one_of_selected_type_mismatch, [⟨.none, b "Choice"⟩]⟩ := by decide +kernel

/-- An alias for one alternative. -/
def xAlias : Node := .mk .flag 13 13 ⟨false, .one (.bool false), fun s => .ok (.str s)⟩
  [.defaultValue (.one (.bool false)), .minMaxCount 0 0, .longName (b "yy"),
    .alias [.long (b "xx")]] []
def oneOfAliasRoot : Node := .mk .root 9 9 ⟨false, .one (.bool false), fun s => .ok (.str s)⟩
  [] [.mk .mode 8 8 ⟨false, .one (.bool false), fun s => .ok (.str s)⟩ [.router] [exOneOf, xAlias]]

/-- C14 is false with aliases: `--yy`, an alias for the alternative `--xx`, is not rejected as
another alternative after `--cert`: the parse fails later and with another error. -/
theorem C14_alias_false :
    (parseArgs .default oneOfAliasRoot [b "--cert", b "x", b "--yy"] .fresh).1 =
      .throw ⟨.argument_has_already_been_set, [⟨.long, b "xx"⟩]⟩ := by
  decide +kernel

/-- A `one_of` whose first alternative is an `alias_group`. -/
def nestedOneOf : Node := .mk .oneOf 7 7 ⟨false, .one (.bool false), fun s => .ok (.str s)⟩
  [.displayName (b "Choice"), .required]
  [.mk .aliasGroup 14 14 ⟨false, .one (.bool false), fun s => .ok (.str s)⟩
    [.displayName (b "Group")] [certArg, bFlag], xFlag]
def nestedOneOfRoot : Node := .mk .root 9 9 ⟨false, .one (.bool false), fun s => .ok (.str s)⟩
  [] [.mk .mode 8 8 ⟨false, .one (.bool false), fun s => .ok (.str s)⟩ [.router] [nestedOneOf]]

/-- C14 is false for nested groups: with an `alias_group` as one alternative, using only that
alternative, once, on a fresh tree is rejected as a use of two alternatives. -/
theorem C14_nested_false :
    (parseArgs .default nestedOneOfRoot [b "--bb"] .fresh).1 =
      .throw ⟨.one_of_selected_type_mismatch, [⟨.none, b "Choice"⟩]⟩ := by
  decide +kernel

end Props

end ArgRouter
