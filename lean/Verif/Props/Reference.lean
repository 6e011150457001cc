import Verif.Spec.Reference
import Verif.Props.Compile
import Verif.Props.Conditions
import Verif.Props.Uax29
import Verif.Props.Utf8

/-!
# C101 – a program compiles exactly if it keeps the rules of the reference
-/

namespace ArgRouter.Props

open Spec Spec.Uax29

section
variable {cfg : Config} {n : Node} {parents : List Node}

theorem preParse_iff (p : Policy) : p.hasPreParsePhase = true ↔ TakesPart p .preParse := by
  constructor
  · intro h; cases p <;> simp [Policy.hasPreParsePhase] at h <;> constructor
  · intro h; cases h <;> rfl

theorem parse_iff (p : Policy) : p.hasParsePhase = true ↔ TakesPart p .parse := by
  constructor
  · intro h; cases p <;> simp [Policy.hasParsePhase] at h <;> constructor
  · intro h; cases h <;> rfl

theorem validation_iff (p : Policy) : p.hasValidationPhase = true ↔ TakesPart p .validation := by
  constructor
  · intro h; cases p <;> simp [Policy.hasValidationPhase] at h <;> constructor
  · intro h; cases h <;> rfl

theorem routing_iff (p : Policy) : p.hasRoutingPhase = true ↔ TakesPart p .routing := by
  constructor
  · intro h; cases p <;> simp [Policy.hasRoutingPhase] at h <;> constructor
  · intro h; cases h <;> rfl

theorem missing_iff (p : Policy) : p.hasMissingPhase = true ↔ TakesPart p .missing := by
  constructor
  · intro h; cases p <;> simp [Policy.hasMissingPhase] at h <;> constructor
  · intro h; cases h <;> rfl

theorem any_preParse : n.policies.any Policy.hasPreParsePhase = true ↔ Has n .preParse := by
  simp [Has, preParse_iff]
theorem any_parse : n.policies.any Policy.hasParsePhase = true ↔ Has n .parse := by
  simp [Has, parse_iff]
theorem any_validation : n.policies.any Policy.hasValidationPhase = true ↔ Has n .validation := by
  simp [Has, validation_iff]
theorem any_routing : n.policies.any Policy.hasRoutingPhase = true ↔ Has n .routing := by
  simp [Has, routing_iff]
theorem any_missing : n.policies.any Policy.hasMissingPhase = true ↔ Has n .missing := by
  simp [Has, missing_iff]

theorem findSome_isSome {α β : Type} (l : List α) (f : α → Option β) :
    (l.findSome? f).isSome = true ↔ ∃ x ∈ l, (f x).isSome = true := by
  rw [List.findSome?_isSome_iff]

theorem long_iff : n.longName.isSome = true ↔ HasOne n Policy.longName := by
  rw [Node.longName, findSome_isSome]
  constructor
  · rintro ⟨p, hp, h⟩; cases p <;> simp at h; exact ⟨_, hp⟩
  · rintro ⟨s, hs⟩; exact ⟨_, hs, rfl⟩
theorem short_iff : n.shortName.isSome = true ↔ HasOne n Policy.shortName := by
  rw [Node.shortName, findSome_isSome]
  constructor
  · rintro ⟨p, hp, h⟩; cases p <;> simp at h; exact ⟨_, hp⟩
  · rintro ⟨s, hs⟩; exact ⟨_, hs, rfl⟩
theorem none_iff : n.noneName.isSome = true ↔ HasOne n Policy.noneName := by
  rw [Node.noneName, findSome_isSome]
  constructor
  · rintro ⟨p, hp, h⟩; cases p <;> simp at h; exact ⟨_, hp⟩
  · rintro ⟨s, hs⟩; exact ⟨_, hs, rfl⟩
theorem display_iff : n.displayName.isSome = true ↔ HasOne n Policy.displayName := by
  rw [Node.displayName, findSome_isSome]
  constructor
  · rintro ⟨p, hp, h⟩; cases p <;> simp at h; exact ⟨_, hp⟩
  · rintro ⟨s, hs⟩; exact ⟨_, hs, rfl⟩
theorem error_iff : n.errorName.isSome = true ↔ HasOne n Policy.errorName := by
  rw [Node.errorName, findSome_isSome]
  constructor
  · rintro ⟨p, hp, h⟩; cases p <;> simp at h; exact ⟨_, hp⟩
  · rintro ⟨s, hs⟩; exact ⟨_, hs, rfl⟩
theorem isNone_iff {α : Type} {o : Option α} {p : Prop} (h : o.isSome = true ↔ p) :
    o.isNone = true ↔ ¬ p := by
  rw [← h]; cases o <;> simp
theorem description_iff : n.hasDescription = true ↔ HasOne n Policy.description := by
  rw [Node.hasDescription, List.any_eq_true]
  constructor
  · rintro ⟨p, hp, h⟩; cases p <;> simp at h; exact ⟨_, hp⟩
  · rintro ⟨s, hs⟩; exact ⟨_, hs, rfl⟩
theorem merging_iff : n.isMultiStage = true ↔ Merging n := by
  rw [Node.isMultiStage, List.any_eq_true]
  constructor
  · rintro ⟨p, hp, h⟩; cases p <;> simp at h; exact ⟨_, hp⟩
  · rintro ⟨s, hs⟩; exact ⟨_, hs, rfl⟩
theorem noValue_iff : n.hasNoResult = true ↔ NoValue n := by
  rw [Node.hasNoResult, List.any_eq_true]
  constructor
  · rintro ⟨p, hp, h⟩
    cases p <;> simp at h
    · exact .inr ⟨_, hp⟩
    · exact .inl hp
  · rintro (h | ⟨s, hs⟩)
    · exact ⟨_, h, rfl⟩
    · exact ⟨_, hs, rfl⟩
theorem router_iff : n.hasRouter = true ↔ .router ∈ n.policies := by
  rw [Node.hasRouter, List.any_eq_true]
  constructor
  · rintro ⟨p, hp, h⟩; cases p <;> simp at h; exact hp
  · intro h; exact ⟨_, h, rfl⟩
theorem required_iff : n.isRequired = true ↔ .required ∈ n.policies := by
  rw [Node.isRequired, Node.has, List.any_eq_true]
  constructor
  · rintro ⟨p, hp, h⟩
    cases p with
    | required => exact hp
    | other t =>
      rcases t with _ | _ | t <;> simp [Policy.kind] at h
    | _ => simp [Policy.kind] at h
  · intro h; exact ⟨_, h, rfl⟩
theorem routes_iff : Has n .routing ↔ .router ∈ n.policies := by
  constructor
  · rintro ⟨p, hp, h⟩; cases h; exact hp
  · intro h; exact ⟨_, h, .router⟩

theorem named_iff : n.isNamed = true ↔ OnCommandLine n := by
  simp only [Node.isNamed, Bool.or_eq_true, long_iff, short_iff, none_iff, OnCommandLine,
    LongOrShort]
theorem label_or : n.hasLabel = true ↔ LongOrShort n := by
  simp only [Node.hasLabel, Bool.or_eq_true, long_iff, short_iff, LongOrShort]
theorem countIs_iff (k : Nat) : n.countIs k = true ↔ Fixed n k := by
  simp [Node.countIs, Fixed]

theorem no_eq {b : Bool} {p : Prop} (h : b = true ↔ p) : (!b) = true ↔ ¬ p := by
  rw [← h]; cases b <;> simp

theorem valueNode_iff : multiArgBaseAsserts n = true ↔ ValueNode n := by
  simp only [multiArgBaseAsserts, Bool.and_eq_true, Bool.or_eq_true, List.isEmpty_iff,
    no_eq (countIs_iff 0), named_iff, display_iff]
  constructor
  · rintro ⟨⟨⟨h1, h2⟩, h3⟩, h4⟩
    obtain ⟨⟨mn, mx⟩, h2⟩ := Option.isSome_iff_exists.1 h2
    exact ⟨h1, ⟨mn, mx, h2⟩, h3, h4⟩
  · rintro ⟨h1, ⟨mn, mx, h2⟩, h3, h4⟩
    exact ⟨⟨⟨h1, by simp [h2]⟩, h3⟩, h4⟩

theorem groupNode_iff : basicOneOfAsserts n = true ↔ GroupNode n := by
  simp only [basicOneOfAsserts, Bool.and_eq_true, decide_eq_true_eq, List.any_eq_true (l := n.children),
    no_eq noValue_iff, no_eq named_iff, no_eq description_iff, any_missing, Node.noPhase,
    List.all_cons, List.all_nil, Bool.and_true, no_eq any_preParse, no_eq any_parse,
    no_eq any_routing]
  constructor
  · rintro ⟨⟨⟨⟨⟨h1, h2⟩, h3⟩, h4⟩, h5⟩, h6⟩; exact ⟨h1, h2, h3, h4, h5, h6⟩
  · rintro ⟨h1, h2, h3, h4, h5, h6⟩; exact ⟨⟨⟨⟨⟨h1, h2⟩, h3⟩, h4⟩, h5⟩, h6⟩

/-! ### Policies -/

theorem countOk_iff (s : Bytes) (f : Nat → Bool) :
    countOk s f = true ↔ ∃ k, Characters s k ∧ f k = true := by
  unfold countOk Utf8.gCount Characters
  cases Utf8.graphemes s with
  | ok gs => simp
  | _ => simp

theorem noWhitespace_iff (s : Bytes) : noWhitespace s = true ↔ NoBlanks s := by
  unfold noWhitespace NoBlanks
  cases Utf8.containsWhitespace s <;> simp

theorem policy_iff (p : Policy) : policyAsserts cfg p = true ↔ PolicyRule cfg p := by
  constructor
  · intro h
    cases p
    case longName s =>
      simp only [policyAsserts, Bool.and_eq_true, countOk_iff, noWhitespace_iff,
        decide_eq_true_eq] at h
      obtain ⟨⟨k, h1, h2⟩, h3⟩ := h; exact .longName h1 h2 h3
    case noneName s =>
      simp only [policyAsserts, Bool.and_eq_true, countOk_iff, noWhitespace_iff,
        decide_eq_true_eq] at h
      obtain ⟨⟨k, h1, h2⟩, h3⟩ := h; exact .noneName h1 h2 h3
    case shortName s =>
      simp only [policyAsserts, Bool.and_eq_true, countOk_iff, beq_iff_eq, bne_iff_ne] at h
      obtain ⟨⟨k, h1, rfl⟩, h3⟩ := h; exact .shortName h1 h3
    case valueSeparator s =>
      simp only [policyAsserts, Bool.and_eq_true, countOk_iff, beq_iff_eq,
        Bool.not_eq_true'] at h
      obtain ⟨⟨k, h1, rfl⟩, h3⟩ := h; exact .valueSeparator h1 h3
    case tokenEndMarker s =>
      simp only [policyAsserts, Bool.and_eq_true, countOk_iff, noWhitespace_iff,
        decide_eq_true_eq] at h
      obtain ⟨⟨k, h1, h2⟩, h3⟩ := h; exact .tokenEndMarker h1 h2 h3
    case displayName s => exact .displayName (by simpa [policyAsserts] using h)
    case errorName s => exact .errorName (by simpa [policyAsserts] using h)
    case description s => exact .description (by simpa [policyAsserts] using h)
    case minMaxCount mn mx => exact .minMaxCount (by simpa [policyAsserts] using h)
    case alias refs => cases refs; · simp [policyAsserts] at h
                       exact .alias
    case dependent refs => cases refs; · simp [policyAsserts] at h
                           exact .dependent
    all_goals constructor
  · intro h
    cases h with
    | longName h1 h2 h3 =>
      simp only [policyAsserts, Bool.and_eq_true, countOk_iff, noWhitespace_iff,
        decide_eq_true_eq]
      exact ⟨⟨_, h1, h2⟩, h3⟩
    | noneName h1 h2 h3 =>
      simp only [policyAsserts, Bool.and_eq_true, countOk_iff, noWhitespace_iff,
        decide_eq_true_eq]
      exact ⟨⟨_, h1, h2⟩, h3⟩
    | shortName h1 h2 =>
      simp only [policyAsserts, Bool.and_eq_true, countOk_iff, beq_iff_eq, bne_iff_ne]
      exact ⟨⟨_, h1, rfl⟩, h2⟩
    | valueSeparator h1 h2 =>
      simp only [policyAsserts, Bool.and_eq_true, countOk_iff, beq_iff_eq, Bool.not_eq_true']
      exact ⟨⟨_, h1, rfl⟩, h2⟩
    | tokenEndMarker h1 h2 h3 =>
      simp only [policyAsserts, Bool.and_eq_true, countOk_iff, noWhitespace_iff,
        decide_eq_true_eq]
      exact ⟨⟨_, h1, h2⟩, h3⟩
    | displayName h => simpa [policyAsserts] using h
    | errorName h => simpa [policyAsserts] using h
    | description h => simpa [policyAsserts] using h
    | minMaxCount h => simpa [policyAsserts] using h
    | _ => rfl

/-! ### Names of aliases and dependencies -/

/-- What a node contributes to the owners of the names. -/
def shareOf (refs : List NameRef) (m : Node) : List Node :=
  (m.nameRefs.filter (refs.contains ·)).map fun _ => m

mutual
theorem owners_perm (refs : List NameRef) :
    ∀ m : Node, (m.owners refs).Perm (m.nodes.flatMap (shareOf refs))
  | .mk k u h v p cs => by
    rw [nodes_mk, Node.owners, List.flatMap_cons]
    exact List.perm_append_comm.trans ((ownersList_perm refs cs).append_left _)
theorem ownersList_perm (refs : List NameRef) :
    ∀ cs : List Node, (Node.ownersList refs cs).Perm ((nodesList cs).flatMap (shareOf refs))
  | [] => by simp [Node.ownersList, nodesList]
  | c :: cs => by
    simp only [Node.ownersList, nodesList, List.flatMap_cons, List.flatMap_append]
    exact (owners_perm refs c).append (ownersList_perm refs cs)
end

theorem mem_shareOf {refs : List NameRef} {m x : Node} :
    x ∈ shareOf refs m ↔ x = m ∧ NamedIn refs m := by
  simp only [shareOf, List.mem_map, List.mem_filter, List.contains_iff_mem, NamedIn]
  constructor
  · rintro ⟨r, h, rfl⟩; exact ⟨rfl, r, h⟩
  · rintro ⟨rfl, r, h⟩; exact ⟨r, h, rfl⟩

theorem pairwise_distinct {α : Type} {R : α → α → Prop} (hsym : ∀ a c, R a c → R c a) :
    ∀ {l : List α}, l.Nodup → (l.Pairwise R ↔ ∀ a ∈ l, ∀ c ∈ l, a ≠ c → R a c)
  | [], _ => by simp
  | x :: l, h => by
    obtain ⟨hx, hl⟩ := List.nodup_cons.1 h
    rw [List.pairwise_cons, pairwise_distinct hsym hl]
    constructor
    · rintro ⟨h1, h2⟩ a ha c hc hne
      rcases List.mem_cons.1 ha with rfl | ha'
      · rcases List.mem_cons.1 hc with rfl | hc
        · exact absurd rfl hne
        · exact h1 c hc
      · rcases List.mem_cons.1 hc with rfl | hc
        · exact hsym _ _ (h1 a ha')
        · exact h2 a ha' c hc hne
    · intro h'
      refine ⟨fun c hc => h' x (by simp) c (by simp [hc]) ?_, fun a ha c hc => h' a (by simp [ha]) c
        (by simp [hc])⟩
      rintro rfl; exact hx hc

theorem length_share {refs : List NameRef} : ∀ {l : List Node},
    (∀ m ∈ l, (shareOf refs m).length ≤ 1) →
    (l.flatMap (shareOf refs)).length = l.countP fun m => !(shareOf refs m).isEmpty
  | [], _ => rfl
  | m :: l, h => by
    rw [List.flatMap_cons, List.length_append, length_share fun x hx => h x (by simp [hx]),
      List.countP_cons]
    have := h m (by simp)
    cases hs : shareOf refs m with
    | nil => simp
    | cons x xs => rw [hs] at this; simp at this; simp [this]; omega

theorem share_once {refs : List NameRef} {m : Node} : (shareOf refs m).length ≤ 1 ↔
    ∀ (i j : Nat) (r s : NameRef), m.nameRefs[i]? = some r → m.nameRefs[j]? = some s → r ∈ refs →
      s ∈ refs → i = j := by
  rw [shareOf, List.length_map, ← List.countP_eq_length_filter, countP_le_one]
  simp

theorem share_named {refs : List NameRef} {m : Node} :
    (!(shareOf refs m).isEmpty) = true ↔ NamedIn refs m := by
  cases hs : shareOf refs m with
  | nil =>
    have : ¬ m ∈ shareOf refs m := by simp [hs]
    rw [mem_shareOf] at this
    simpa using this
  | cons x xs =>
    have : x ∈ shareOf refs m := by simp [hs]
    simpa using (mem_shareOf.1 this).2

theorem share_pairwise {refs : List NameRef} {m : Node} :
    (shareOf refs m).Pairwise (fun x y => x.hash ≠ y.hash) ↔ (shareOf refs m).length ≤ 1 := by
  cases hs : shareOf refs m with
  | nil => simp
  | cons x xs =>
    cases xs with
    | nil => simp
    | cons y ys =>
      have hx : x ∈ shareOf refs m := by simp [hs]
      have hy : y ∈ shareOf refs m := by simp [hs]
      rw [(mem_shareOf.1 hx).1, (mem_shareOf.1 hy).1]
      simp

theorem resolves_iff (mode : Node) (refs : List NameRef) :
    (linkTargets mode refs).isSome = true ↔ NamesFound mode refs := by
  obtain ⟨ps, hsorted, hps, hw⟩ := C72_nodes mode
  have hmap : mode.nodes.map some = ps.map (nodeAt mode) := by
    have := congrArg (List.map Prod.fst) hw
    simpa [Node.nodes, Function.comp_def] using this
  have hperm := owners_perm refs mode
  have hsome : (linkTargets mode refs).isSome = true ↔
      (mode.owners refs).length = refs.length ∧ ((mode.owners refs).map Node.hash).Nodup := by
    unfold linkTargets; split
    · rename_i h; simp [h]
    · rename_i h; simp [h]
  have hnodup : ((mode.owners refs).map Node.hash).Nodup ↔
      (∀ m ∈ mode.nodes, (shareOf refs m).length ≤ 1) ∧
        mode.nodes.Pairwise fun x y => NamedIn refs x → NamedIn refs y → x.hash ≠ y.hash := by
    rw [List.Nodup, List.pairwise_map, hperm.pairwise_iff (fun h => Ne.symm h),
      List.pairwise_flatMap]
    simp only [share_pairwise, mem_shareOf]
    have : (fun a₁ a₂ : Node => ∀ (x : Node), x = a₁ ∧ NamedIn refs a₁ → ∀ (y : Node),
        y = a₂ ∧ NamedIn refs a₂ → x.hash ≠ y.hash) =
        fun x y => NamedIn refs x → NamedIn refs y → x.hash ≠ y.hash := by
      funext x y
      refine propext ⟨fun h hx hy => h x ⟨rfl, hx⟩ y ⟨rfl, hy⟩, ?_⟩
      rintro h x' ⟨rfl, hx⟩ y' ⟨rfl, hy⟩
      exact h hx hy
    rw [this]
  have hpn : ps.Nodup := by
    refine hsorted.imp fun {x y} h => ?_
    rintro rfl; exact List.lt_irrefl x h
  have hpos : (mode.nodes.Pairwise fun x y => NamedIn refs x → NamedIn refs y → x.hash ≠ y.hash) ↔
      ∀ (p q : List Nat) (m m' : Node), nodeAt mode p = some m → nodeAt mode q = some m' →
        NamedIn refs m → NamedIn refs m' → m.hash = m'.hash → p = q := by
    have h1 : (mode.nodes.Pairwise fun x y => NamedIn refs x → NamedIn refs y → x.hash ≠ y.hash) ↔
        (mode.nodes.map some).Pairwise fun x y => ∀ a c, x = some a → y = some c →
          NamedIn refs a → NamedIn refs c → a.hash ≠ c.hash := by
      rw [List.pairwise_map]; simp
    rw [h1, hmap, List.pairwise_map, pairwise_distinct ?_ hpn]
    · constructor
      · intro h p q m m' hp hq hm hm' he
        by_cases hpq : p = q
        · exact hpq
        · exact absurd he (h p ((hps p).2 ⟨m, hp⟩) q ((hps q).2 ⟨m', hq⟩) hpq m m' hp hq hm hm')
      · intro h p _ q _ hpq a c ha hc hna hnc he
        exact hpq (h p q a c ha hc hna hnc he)
    · intro p q h a c ha hc hna hnc he
      exact h c a hc ha hnc hna he.symm
  let g : List Nat → Bool := fun p => match nodeAt mode p with
    | some m => !(shareOf refs m).isEmpty
    | none => false
  have hg : ∀ p, p ∈ ps.filter g ↔ ∃ m, nodeAt mode p = some m ∧ NamedIn refs m := by
    intro p
    rw [List.mem_filter, hps]
    constructor
    · rintro ⟨⟨m, hm⟩, h⟩
      simp only [g, hm] at h
      exact ⟨m, hm, share_named.1 h⟩
    · rintro ⟨m, hm, h⟩
      refine ⟨⟨m, hm⟩, ?_⟩
      simp only [g, hm]
      exact share_named.2 h
  have hlen : (∀ m ∈ mode.nodes, (shareOf refs m).length ≤ 1) →
      (mode.owners refs).length = (ps.filter g).length := by
    intro h
    rw [hperm.length_eq, length_share h, ← List.countP_eq_length_filter]
    have h2 : mode.nodes.countP (fun m => !(shareOf refs m).isEmpty) =
        (mode.nodes.map some).countP fun o => match o with
          | some m => !(shareOf refs m).isEmpty
          | none => false := by
      rw [List.countP_map]; rfl
    rw [h2, hmap, List.countP_map]
    rfl
  rw [hsome, hnodup, hpos]
  constructor
  · rintro ⟨h1, h2, h3⟩
    refine ⟨⟨ps.filter g, hpn.filter _, by rw [← hlen h2, h1], hg⟩, h3, ?_⟩
    intro p m i j r s hp
    exact share_once.1 (h2 m (mem_nodes.2 ⟨p, hp⟩)) i j r s
  · rintro ⟨⟨ps', hn', hl', hm'⟩, h2, h3⟩
    have ho : ∀ m ∈ mode.nodes, (shareOf refs m).length ≤ 1 := by
      intro m hm
      obtain ⟨p, hp⟩ := mem_nodes.1 hm
      exact share_once.2 fun i j r s => h3 p m i j r s hp
    refine ⟨?_, ho, h2⟩
    rw [hlen ho, ← hl']
    exact Nat.le_antisymm
      (length_le_of_nodup_subset _ _ (hpn.filter _) fun p hp => (hm' p).2 ((hg p).1 hp))
      (length_le_of_nodup_subset _ _ hn' fun p hp => (hg p).2 ((hm' p).1 hp))

theorem allFound_iff {k : LinkKind} {mode : Node} : Resolved k mode n ↔ AllFound k mode n := by
  simp only [Resolved, AllFound, resolves_iff]

/-! ### Policies in their nodes -/

theorem modeOf_iff {ns : List Node} {mode : Node} :
    nearestModeLike ns = some mode ↔ ModeOf ns mode := by
  rw [nearestModeLike, List.find?_eq_some_iff_append]
  simp only [ModeOf, router_iff, no_eq router_iff]
  constructor
  · rintro ⟨h1, pre, post, h2, h3⟩; exact ⟨pre, post, h2, h1, h3⟩
  · rintro ⟨pre, post, h2, h1, h3⟩; exact ⟨h1, pre, post, h2, h3⟩

theorem modeOf_unique {ns : List Node} {m m' : Node} (h : ModeOf ns m) (h' : ModeOf ns m') :
    m = m' := by
  have := (modeOf_iff.2 h).symm.trans (modeOf_iff.2 h')
  simpa using this

theorem fixedCountOf_iff {m : Node} {k : Nat} : fixedCountOf m = some k ↔ Fixed m k := by
  unfold fixedCountOf Fixed
  cases h : m.minMaxCount with
  | none => simp
  | some mm =>
    obtain ⟨mn, mx⟩ := mm
    simp only [Option.some.injEq, Prod.mk.injEq]
    split
    · rename_i e; subst e; simp
    · rename_i e
      constructor
      · intro h; cases h
      · rintro ⟨rfl, rfl⟩; exact absurd rfl e

/-- What the cycle check accepts leads to names that are found only. -/
theorem accept_resolved {k : LinkKind} {mode : Node} {self : List NameRef} : ∀ (fuel : Nat)
    (queue : List Node), cyclicCheck k mode self fuel queue = .accept →
    ∀ x ∈ queue, Resolved k mode x
  | 0, _, h => by simp [cyclicCheck] at h
  | fuel + 1, [], _ => by simp
  | fuel + 1, x :: rest, h => by
    simp only [cyclicCheck] at h
    cases hl : x.links k with
    | none =>
      simp only [hl] at h
      intro y hy
      rcases List.mem_cons.1 hy with rfl | hy
      · intro m refs hm hr
        rcases hm with rfl | hm
        · rw [← links_iff, hl] at hr; cases hr
        · cases hm with
          | step hs => obtain ⟨_, hr', _⟩ := hs; rw [← links_iff, hl] at hr'; cases hr'
          | cons hs _ => obtain ⟨_, hr', _⟩ := hs; rw [← links_iff, hl] at hr'; cases hr'
      · exact accept_resolved fuel rest h y hy
    | some refs =>
      simp only [hl] at h
      split at h
      · cases h
      · cases ht : linkTargets mode refs with
        | none => simp [ht] at h
        | some ts =>
          simp only [ht] at h
          have ih := accept_resolved fuel (rest ++ ts) h
          intro y hy
          rcases List.mem_cons.1 hy with rfl | hy
          · have hstep : ∀ z, Leads k mode y z → Resolved k mode z := by
              rintro z ⟨refs', hr, hm, hn⟩
              rw [← links_iff, hl, Option.some.injEq] at hr; subst hr
              exact ih z (List.mem_append_right _ ((mem_linkTargets ht z).2 ⟨hm, hn⟩))
            intro m refs' hm hr
            rcases hm with rfl | hm
            · rw [← links_iff, hl, Option.some.injEq] at hr; subst hr; rw [ht]; rfl
            · cases hm with
              | step hs => exact hstep m hs m refs' (.inl rfl) hr
              | cons hs hc => exact hstep _ hs m refs' (.inr hc) hr
          · exact ih y (List.mem_append_left _ hy)

theorem link_resolved {k : LinkKind} {mode : Node} {self : List NameRef} {fuel : Nat}
    (hn : n.links k = some self) (h : linkCheck fuel k mode self = .accept) :
    Resolved k mode n := by
  unfold linkCheck at h
  cases ht : linkTargets mode self with
  | none => simp [ht] at h
  | some ts =>
    simp only [ht] at h
    intro m refs hm hr
    have hstep : ∀ z, Leads k mode n z → Resolved k mode z := by
      rintro z ⟨refs', hr, hm, hz⟩
      rw [← links_iff, hn, Option.some.injEq] at hr; subst hr
      exact accept_resolved fuel ts h z ((mem_linkTargets ht z).2 ⟨hm, hz⟩)
    rcases hm with rfl | hm
    · rw [← links_iff, hn, Option.some.injEq] at hr; subst hr; rw [ht]; rfl
    · cases hm with
      | step hs => exact hstep m hs m refs (.inl rfl) hr
      | cons hs hc => exact hstep _ hs m refs (.inr hc) hr

theorem link_iff {k : LinkKind} {mode : Node} {self : List NameRef}
    (hn : n.links k = some self) :
    (∃ fuel, linkCheck fuel k mode self = .accept) ↔ AllFound k mode n ∧ Acyclic k mode n := by
  constructor
  · rintro ⟨fuel, h⟩
    exact ⟨allFound_iff.1 (link_resolved hn h), C73_sound (links_iff.1 hn) h⟩
  · rintro ⟨h1, h2⟩
    exact C73_complete (links_iff.1 hn) (allFound_iff.2 h1) h2.2

theorem link_mono {k : LinkKind} {mode : Node} {self : List NameRef} {d d' : Nat} (hd : d ≤ d')
    (h : linkCheck d k mode self = .accept) : linkCheck d' k mode self = .accept := by
  obtain ⟨e, rfl⟩ := Nat.exists_eq_add_of_le hd
  induction e with
  | zero => exact h
  | succ e ih => exact C73_stable (by decide) (ih (by omega))

theorem aliasCheck_iff {mode owner : Node} {self : List NameRef} {d : Nat} :
    aliasCheck d mode owner self = .accept ↔ linkCheck d .alias mode self = .accept ∧
      ∃ k, Fixed owner k ∧ ∀ m, Leads.IsNodeOf mode m → (∃ r, r ∈ self ∧ r ∈ m.nameRefs) →
        Fixed m k := by
  unfold aliasCheck linkCheck
  cases hc : fixedCountOf owner with
  | none =>
    have : ∀ k, ¬ Fixed owner k := fun k h => by rw [← fixedCountOf_iff, hc] at h; cases h
    simp [this]
  | some count =>
    rw [fixedCountOf_iff] at hc
    cases ht : linkTargets mode self with
    | none => simp
    | some ts =>
      simp only []
      have hall : (ts.all fun t => fixedCountOf t == some count) = true ↔
          ∃ k, Fixed owner k ∧ ∀ m, Leads.IsNodeOf mode m → (∃ r, r ∈ self ∧ r ∈ m.nameRefs) →
            Fixed m k := by
        simp only [List.all_eq_true, beq_iff_eq, fixedCountOf_iff]
        constructor
        · intro h
          exact ⟨count, hc, fun m h1 h2 => h m ((mem_linkTargets ht m).2 ⟨h1, h2⟩)⟩
        · rintro ⟨k, hk, h⟩ m hm
          obtain ⟨h1, h2⟩ := (mem_linkTargets ht m).1 hm
          have : k = count := by
            unfold Fixed at hk hc; rw [hc] at hk; simp at hk; exact hk.symm
          exact this ▸ h m h1 h2
      rw [← hall]
      cases cyclicCheck .alias mode self d ts with
      | accept => simp
      | reject => simp
      | endless => simp

theorem owner_mono {d d' : Nat} (hd : d ≤ d') {p : Policy}
    (h : ownerAsserts cfg d n parents p = true) : ownerAsserts cfg d' n parents p = true := by
  cases p with
  | alias refs =>
    simp only [ownerAsserts, Bool.and_eq_true] at h ⊢
    refine ⟨h.1, ?_⟩
    have h2 := h.2
    cases hm : nearestModeLike (n :: parents) with
    | none => simp [hm] at h2
    | some mode =>
      simp only [hm, beq_iff_eq, aliasCheck_iff] at h2 ⊢
      exact ⟨link_mono hd h2.1, h2.2⟩
  | dependent refs =>
    simp only [ownerAsserts] at h ⊢
    cases hm : nearestModeLike parents with
    | none => simp [hm] at h
    | some mode =>
      simp only [hm, beq_iff_eq] at h ⊢
      exact link_mono hd h
  | _ => exact h

theorem owner_iff (h1 : OneLink n) {p : Policy} (hp : p ∈ n.policies) :
    (∃ d, ownerAsserts cfg d n parents p = true) ↔ OwnerRule cfg n parents p := by
  constructor
  · rintro ⟨d, h⟩
    cases p
    case shortFormExpander =>
      simp only [ownerAsserts, Bool.and_eq_true, bne_iff_ne] at h
      cases hs : n.shortName with
      | none => simp [hs] at h
      | some s =>
        simp only [hs, countOk_iff, beq_iff_eq] at h
        obtain ⟨⟨k, hk, rfl⟩, hne⟩ := h
        exact .shortFormExpander hs hk hne
    case valueSeparator s =>
      simp only [ownerAsserts, countIs_iff] at h; exact .valueSeparator h
    case tokenEndMarker s =>
      simp only [ownerAsserts] at h
      cases hm : n.minMaxCount with
      | none => simp [hm] at h
      | some mm =>
        obtain ⟨mn, mx⟩ := mm
        simp only [hm, Bool.and_eq_true, bne_iff_ne, no_eq merging_iff] at h
        exact .tokenEndMarker hm h.1 fun f hf => h.2 ⟨f, hf⟩
    case runtimeEnable e =>
      simp only [ownerAsserts, no_eq required_iff] at h; exact .runtimeEnable h
    case runtimeEnableRequired e v =>
      simp only [ownerAsserts, no_eq required_iff] at h; exact .runtimeEnableRequired h
    case alias refs =>
      simp only [ownerAsserts, Bool.and_eq_true, Node.noPhase, List.all_cons, List.all_nil,
        Bool.and_true, no_eq any_parse, no_eq any_validation, no_eq any_routing] at h
      obtain ⟨⟨ha, hv, hr⟩, h⟩ := h
      cases hm : nearestModeLike (n :: parents) with
      | none => simp [hm] at h
      | some mode =>
        simp only [hm, beq_iff_eq, aliasCheck_iff] at h
        obtain ⟨hl, k, hk, hall⟩ := h
        have hnr : n.hasRouter = false := by
          have : ¬ n.hasRouter = true := by rw [router_iff, ← routes_iff]; exact hr
          simpa using this
        rw [nearestModeLike, List.find?_cons, hnr] at hm
        have hlk := links_iff.2 (h1 .alias refs hp)
        obtain ⟨hf, hc⟩ := (link_iff hlk).1 ⟨d, hl⟩
        refine .alias ha hv hr (modeOf_iff.1 hm) hf hc hk ?_
        rintro m ⟨refs', hr', hm', hn'⟩
        rw [← links_iff, hlk, Option.some.injEq] at hr'; subst hr'
        exact hall m hm' hn'
    case dependent refs =>
      simp only [ownerAsserts] at h
      cases hm : nearestModeLike parents with
      | none => simp [hm] at h
      | some mode =>
        simp only [hm, beq_iff_eq] at h
        obtain ⟨hf, hc⟩ := (link_iff (links_iff.2 (h1 .dependent refs hp))).1 ⟨d, h⟩
        exact .dependent (modeOf_iff.1 hm) hf hc
    all_goals (apply OwnerRule.free <;> intros <;> simp)
  · intro h
    cases h with
    | shortFormExpander hs hk hne =>
      refine ⟨0, ?_⟩
      simp only [ownerAsserts, Bool.and_eq_true, bne_iff_ne, hs, countOk_iff, beq_iff_eq]
      exact ⟨⟨_, hk, rfl⟩, hne⟩
    | valueSeparator h => exact ⟨0, by simp only [ownerAsserts, countIs_iff]; exact h⟩
    | tokenEndMarker hm hne h =>
      refine ⟨0, ?_⟩
      simp only [ownerAsserts, hm, Bool.and_eq_true, bne_iff_ne, no_eq merging_iff]
      exact ⟨hne, fun ⟨f, hf⟩ => h f hf⟩
    | runtimeEnable h => exact ⟨0, by simp only [ownerAsserts, no_eq required_iff]; exact h⟩
    | runtimeEnableRequired h => exact ⟨0, by simp only [ownerAsserts, no_eq required_iff]; exact h⟩
    | @alias refs mode k ha hv hr hm hf hc hk hall =>
      have hlk := links_iff.2 (h1 .alias refs hp)
      obtain ⟨d, hd⟩ := (link_iff hlk).2 ⟨hf, hc⟩
      refine ⟨d, ?_⟩
      have hnr : n.hasRouter = false := by
        have : ¬ n.hasRouter = true := by rw [router_iff, ← routes_iff]; exact hr
        simpa using this
      have hm' : nearestModeLike (n :: parents) = some mode := by
        rw [nearestModeLike, List.find?_cons, hnr]; exact modeOf_iff.2 hm
      simp only [ownerAsserts, Bool.and_eq_true, Node.noPhase, List.all_cons, List.all_nil,
        Bool.and_true, no_eq any_parse, no_eq any_validation, no_eq any_routing, hm', beq_iff_eq,
        aliasCheck_iff]
      exact ⟨⟨ha, hv, hr⟩, hd, k, hk, fun m h1 h2 => hall m ⟨refs, links_iff.1 hlk, h1, h2⟩⟩
    | @dependent refs mode hm hf hc =>
      obtain ⟨d, hd⟩ := (link_iff (links_iff.2 (h1 .dependent refs hp))).2 ⟨hf, hc⟩
      refine ⟨d, ?_⟩
      simp only [ownerAsserts, modeOf_iff.2 hm, hd]
      rfl
    | free h1 h2 h3 h4 h5 h6 h7 =>
      refine ⟨0, ?_⟩
      cases p
      case shortFormExpander => exact absurd rfl h3
      case valueSeparator s => exact absurd rfl (h1 s)
      case tokenEndMarker s => exact absurd rfl (h2 s)
      case runtimeEnable e => exact absurd rfl (h4 e)
      case runtimeEnableRequired e v => exact absurd rfl (h5 e v)
      case alias refs => exact absurd rfl (h6 refs)
      case dependent refs => exact absurd rfl (h7 refs)
      all_goals rfl

/-! ### Classes -/

theorem label_not : ¬ LongOrShort n ↔ ¬ HasOne n Policy.longName ∧ ¬ HasOne n Policy.shortName := by
  simp [LongOrShort]

theorem named_not : ¬ OnCommandLine n ↔
    (¬ HasOne n Policy.longName ∧ ¬ HasOne n Policy.shortName) ∧ ¬ HasOne n Policy.noneName := by
  simp [OnCommandLine, LongOrShort]

theorem anonymous_iff : n.isAnonymous = true ↔ ¬ HasOne n Policy.noneName := by
  rw [Node.isAnonymous]; exact isNone_iff none_iff

local macro "to_rules" loc:(Lean.Parser.Tactic.location)? : tactic =>
  `(tactic| simp only [Node.noPhase, List.all_cons, List.all_nil, Bool.and_true, no_eq any_preParse,
      no_eq any_parse, no_eq any_validation, no_eq any_routing, no_eq any_missing,
      isNone_iff long_iff, isNone_iff short_iff, isNone_iff none_iff, isNone_iff display_iff,
      isNone_iff error_iff, display_iff, label_or, valueNode_iff, groupNode_iff, Bool.and_eq_true,
      List.isEmpty_iff, no_eq named_iff, no_eq description_iff, no_eq List.isEmpty_iff,
      no_eq (countIs_iff 1)] $[$loc]?)

theorem class_iff : classAsserts n parents = true ↔ ClassRule n parents := by
  constructor
  · intro h
    unfold classAsserts at h
    split at h <;> to_rules at h
    · rename_i hk
      exact .flag hk h.1.1.1.1 h.1.1.1.2 h.1.1.2 h.1.2 h.2.1 h.2.2
    · rename_i hk
      exact .countingFlag hk h.1.1.1.1 h.1.1.1.2 h.1.1.2 h.1.2 h.2.1 h.2.2
    · rename_i hk
      exact .arg hk h.1.1 h.1.2 h.2
    · rename_i hk
      obtain ⟨⟨⟨⟨⟨h1, h2⟩, h3⟩, h4⟩, h5⟩, h6⟩ := h
      obtain ⟨mn, mx, hm⟩ := h1.counts
      simp only [hm, decide_eq_true_eq] at h5
      exact .multiArg hk h1 h2 h3 hm (fun ⟨e1, e2⟩ => h4 (by rw [Fixed, hm, e1, e2])) h5 h6
    · rename_i hk
      obtain ⟨⟨⟨⟨⟨h1, h2⟩, h3⟩, h4⟩, h5⟩, h6⟩ := h
      exact .positional hk h1 h2 (named_not.2 ⟨⟨h3, h4⟩, h5⟩) h6
    · rename_i hk
      obtain ⟨⟨⟨⟨h1, h2⟩, h3⟩, h4⟩, h5⟩ := h
      exact .forwarding hk h1 h2 (label_not.2 ⟨h3, h4⟩) h5
    · rename_i hk
      refine .aliasGroup hk h.1 fun c hc hm hv hva => ?_
      have := List.all_eq_true.1 h.2 c hc
      rw [no_eq (p := (Merging c ∧ ¬ NoValue c) ∧ Has c .validation) (by
        simp only [Bool.and_eq_true, merging_iff, no_eq noValue_iff, any_validation])] at this
      exact this ⟨⟨hm, hv⟩, hva⟩
    · rename_i hk
      refine .oneOf hk h.1.1 (fun c hc => ?_) h.2
      have := List.all_eq_true.1 h.1.2 c hc
      rwa [no_eq merging_iff] at this
    · rename_i hk
      obtain ⟨⟨⟨⟨⟨⟨⟨⟨⟨⟨h1, h2⟩, h3⟩, h4⟩, h5⟩, h6⟩, h7⟩, h8⟩, h9⟩, h10⟩, h11⟩ := h
      have h9' : ∀ c ∈ n.children, c.kind ≠ .mode → .router ∉ c.policies := by
        intro c hc hne
        have := List.all_eq_true.1 h9 c hc
        simp only [Bool.or_eq_true, beq_iff_eq, no_eq router_iff] at this
        exact this.resolve_left hne
      by_cases ha : n.isAnonymous = true
      · simp only [ha, Bool.not_true, Bool.false_or, no_eq description_iff, List.all_eq_true,
          bne_iff_ne, decide_eq_true_eq, Bool.false_and, Bool.or_false, router_iff] at h5 h7 h10 h11
        exact .anonymousMode hk h1 (anonymous_iff.1 ha) (label_not.2 ⟨h2, h3⟩) h4 h5
          (fun c hc => ⟨h7 c hc, h9' c hc (h7 c hc)⟩) h8.1 h8.2.1 h8.2.2 h10 h11
      · have hn : HasOne n Policy.noneName := by
          rw [anonymous_iff] at ha; exact Classical.not_not.1 ha
        simp only [ha, Bool.false_or, isNone_iff error_iff, Bool.not_false, Bool.true_and,
          Bool.or_eq_true, router_iff, List.all_eq_true, beq_iff_eq] at h6 h11
        exact .namedMode hk h1 hn (label_not.2 ⟨h2, h3⟩) h4 h6 h9' h8.1 h8.2.1 h8.2.2 h11
    · rename_i hk
      obtain ⟨⟨⟨⟨⟨h1, h2⟩, h3⟩, h4⟩, h5⟩, h6⟩ := h
      exact .help hk h1 h2 h3 h4 h5 h6.1 h6.2.1 h6.2.2
    · rename_i hk
      obtain ⟨⟨⟨⟨⟨⟨⟨⟨h1, h2⟩, h3⟩, h4⟩, h5⟩, h6⟩, h7⟩, h8⟩, h9⟩ := h
      refine .root hk h1 ?_ h3 h4 h5 h6 ?_ h8 ?_
      · intro ph
        cases ph
        · exact h2.1
        · exact h2.2.1
        · exact h2.2.2.1
        · exact h2.2.2.2.1
        · exact h2.2.2.2.2
      · exact has_iff.1 h7
      · intro c hc
        have := List.all_eq_true.1 h9 c hc
        simpa only [Bool.or_eq_true, noValue_iff, router_iff] using this
  · intro h
    unfold classAsserts
    cases h with
    | flag hk h1 h2 h3 h4 h5 h6 => simp only [hk]; to_rules; exact ⟨⟨⟨⟨h1, h2⟩, h3⟩, h4⟩, h5, h6⟩
    | countingFlag hk h1 h2 h3 h4 h5 h6 => simp only [hk]; to_rules; exact ⟨⟨⟨⟨h1, h2⟩, h3⟩, h4⟩, h5, h6⟩
    | arg hk h1 h2 h3 => simp only [hk]; to_rules; exact ⟨⟨h1, h2⟩, h3⟩
    | multiArg hk h1 h2 h3 hm h4 h5 h6 =>
      simp only [hk, hm]
      to_rules
      simp only [decide_eq_true_eq]
      refine ⟨⟨⟨⟨⟨h1, h2⟩, h3⟩, fun hf => h4 ?_⟩, h5⟩, h6⟩
      rw [Fixed, hm] at hf; simpa using hf
    | positional hk h1 h2 h3 h4 =>
      simp only [hk]
      to_rules
      obtain ⟨⟨h5, h6⟩, h7⟩ := named_not.1 h3
      exact ⟨⟨⟨⟨⟨h1, h2⟩, h5⟩, h6⟩, h7⟩, h4⟩
    | forwarding hk h1 h2 h3 h4 =>
      simp only [hk]
      to_rules
      obtain ⟨h5, h6⟩ := label_not.1 h3
      exact ⟨⟨⟨⟨h1, h2⟩, h5⟩, h6⟩, h4⟩
    | aliasGroup hk h1 h2 =>
      simp only [hk]
      to_rules
      refine ⟨h1, List.all_eq_true.2 fun c hc => ?_⟩
      rw [no_eq (p := (Merging c ∧ ¬ NoValue c) ∧ Has c .validation) (by
        simp only [Bool.and_eq_true, merging_iff, no_eq noValue_iff, any_validation])]
      exact fun ⟨⟨hm, hv⟩, hva⟩ => h2 c hc hm hv hva
    | oneOf hk h1 h2 h3 =>
      simp only [hk]
      to_rules
      refine ⟨⟨h1, List.all_eq_true.2 fun c hc => ?_⟩, h3⟩
      rw [no_eq merging_iff]; exact h2 c hc
    | anonymousMode hk h1 hn h2 h3 h4 h5 h6 h7 h8 h9 h10 =>
      simp only [hk]
      to_rules
      obtain ⟨h11, h12⟩ := label_not.1 h2
      have ha := anonymous_iff.2 hn
      simp only [ha, Bool.not_true, Bool.false_or, no_eq description_iff, List.all_eq_true,
        bne_iff_ne, decide_eq_true_eq, Bool.false_and, Bool.or_false, router_iff, Bool.or_eq_true,
        beq_iff_eq, no_eq router_iff, Bool.true_or, and_true]
      refine ⟨⟨⟨⟨⟨⟨⟨⟨⟨h1, h11⟩, h12⟩, h3⟩, h4⟩, fun c hc => (h5 c hc).1⟩, h6, h7, h8⟩,
        fun c hc => .inr (h5 c hc).2⟩, h9⟩, h10⟩
    | namedMode hk h1 hn h2 h3 h4 h5 h6 h7 h8 h9 =>
      simp only [hk]
      to_rules
      obtain ⟨h11, h12⟩ := label_not.1 h2
      have ha : n.isAnonymous = false := by
        have : ¬ n.isAnonymous = true := by rw [anonymous_iff]; exact fun h => h hn
        simpa using this
      simp only [ha, Bool.not_false, Bool.true_or, Bool.false_or, isNone_iff error_iff,
        List.all_eq_true, Bool.or_eq_true, beq_iff_eq, no_eq router_iff, router_iff, Bool.true_and,
        and_true]
      refine ⟨⟨⟨⟨⟨⟨⟨h1, h11⟩, h12⟩, h3⟩, h4⟩, h6, h7, h8⟩, fun c hc => ?_⟩, h9⟩
      by_cases hm : c.kind = .mode
      · exact .inl hm
      · exact .inr (h5 c hc hm)
    | help hk h1 h2 h3 h4 h5 h6 h7 h8 =>
      simp only [hk]; to_rules; exact ⟨⟨⟨⟨⟨h1, h2⟩, h3⟩, h4⟩, h5⟩, h6, h7, h8⟩
    | root hk h1 h2 h3 h4 h5 h6 h7 h8 h9 =>
      simp only [hk]
      to_rules
      refine ⟨⟨⟨⟨⟨⟨⟨⟨h1, h2 _, h2 _, h2 _, h2 _, h2 _⟩, h3⟩, h4⟩, h5⟩, h6⟩, ?_⟩, h8⟩,
        List.all_eq_true.2 fun c hc => ?_⟩
      · exact has_iff.2 h7
      · simpa only [Bool.or_eq_true, noValue_iff, router_iff] using h9 c hc

/-! ### Nodes and trees -/

theorem atMostOne_iff (f : Policy → Bool) (ph : Phase) (h : ∀ p, f p = true ↔ TakesPart p ph) :
    n.atMostOne f = true ↔ AtMostOne n ph := by
  simp only [Node.atMostOne, decide_eq_true_eq, countP_le_one, AtMostOne, h]

theorem node_mono {d d' : Nat} (hd : d ≤ d') (h : nodeAsserts cfg d n parents = true) :
    nodeAsserts cfg d' n parents = true := by
  simp only [nodeAsserts, Bool.and_eq_true, List.all_eq_true] at h ⊢
  exact ⟨h.1, fun p hp => ⟨(h.2 p hp).1, owner_mono hd (h.2 p hp).2⟩⟩

theorem common_depth {α : Type} {P : Nat → α → Prop} (mono : ∀ d d' x, d ≤ d' → P d x → P d' x) :
    ∀ l : List α, (∀ x ∈ l, ∃ d, P d x) → ∃ d, ∀ x ∈ l, P d x
  | [], _ => ⟨0, by simp⟩
  | x :: l, h => by
    obtain ⟨d1, h1⟩ := h x (by simp)
    obtain ⟨d2, h2⟩ := common_depth mono l fun y hy => h y (by simp [hy])
    refine ⟨max d1 d2, fun y hy => ?_⟩
    rcases List.mem_cons.1 hy with rfl | hy
    · exact mono _ _ _ (Nat.le_max_left ..) h1
    · exact mono _ _ _ (Nat.le_max_right ..) (h2 y hy)

theorem node_iff (h1 : OneLink n) : (∃ d, nodeAsserts cfg d n parents = true) ↔
    classPolicies n = true ∧ NodeRule cfg n parents := by
  have hval : (match n.kind with
     | .arg | .multiArg | .positional | .forwarding =>
       n.atMostOne Policy.hasParsePhase && n.atMostOne Policy.hasMissingPhase
     | _ => true) = true ↔
      ((n.kind = .arg ∨ n.kind = .multiArg ∨ n.kind = .positional ∨ n.kind = .forwarding) →
        AtMostOne n .parse ∧ AtMostOne n .missing) := by
    rw [← atMostOne_iff _ _ parse_iff, ← atMostOne_iff _ _ missing_iff]
    cases n.kind <;> simp
  constructor
  · rintro ⟨d, h⟩
    simp only [nodeAsserts, Bool.and_eq_true, List.all_eq_true] at h
    obtain ⟨⟨⟨⟨hc, hcl⟩, hr⟩, hv⟩, hp⟩ := h
    exact ⟨hc, class_iff.1 hcl, (atMostOne_iff _ _ routing_iff).1 hr, hval.1 hv,
      fun p h => ⟨(policy_iff p).1 (hp p h).1, (owner_iff h1 h).1 ⟨d, (hp p h).2⟩⟩⟩
  · rintro ⟨hc, ⟨hcl, hr, hv, hp⟩⟩
    obtain ⟨d, hd⟩ := common_depth (P := fun d p => ownerAsserts cfg d n parents p = true)
      (fun d d' p hd h => owner_mono hd h) n.policies
      fun p h => (owner_iff h1 h).2 (hp p h).2
    refine ⟨d, ?_⟩
    simp only [nodeAsserts, Bool.and_eq_true, List.all_eq_true]
    exact ⟨⟨⟨⟨hc, class_iff.2 hcl⟩, (atMostOne_iff _ _ routing_iff).2 hr⟩, hval.2 hv⟩,
      fun p h => ⟨(policy_iff p).2 (hp p h).1, hd p h⟩⟩

end

theorem help_iff (root : Node) : helpAsserts root = true ↔ HelpRule root := by
  have hd : ∀ n : Node, (n.policies.all fun
      | .description d => !d.contains 9
      | _ => true) = true ↔ ∀ d, .description d ∈ n.policies → (9 : UInt8) ∉ d := by
    intro n
    rw [List.all_eq_true]
    constructor
    · intro h d hd hm
      have := h _ hd
      simp [hm] at this
    · intro h p hp
      cases p with
      | description d => simpa using h d hp
      | _ => rfl
  unfold helpAsserts HelpRule
  rw [Bool.or_eq_true, Bool.not_eq_true', List.all_eq_true]
  constructor
  · rintro (h | h) ⟨x, hx, hk⟩
    · rw [List.any_eq_false] at h
      exact absurd hk (by simpa using h x hx)
    · exact fun n hn => (hd n).1 (h n hn)
  · intro h
    by_cases he : ∃ x ∈ root.nodes, x.kind = .help
    · exact .inr fun n hn => (hd n).2 (h he n hn)
    · refine .inl ?_
      rw [List.any_eq_false]
      intro x hx hk
      exact he ⟨x, hx, by simpa using hk⟩

/-- A program compiles – provided the compiler goes far enough along the names of its aliases and
dependencies – exactly if the validator accepts it, every node keeps the rules that the reference
states for its class and its policies, and help can be shown if there is a help node. -/
theorem C101_compiles {cfg : Config} {rules : List Rule} {root : Node}
    (h1 : ∀ p n, nodeAt root p = some n → OneLink n) :
    (∃ depth, compiles cfg depth rules root = true) ↔
      root.kind = .root ∧ validate rules root = true ∧
        (∀ p n, nodeAt root p = some n → classPolicies n = true ∧
          NodeRule cfg n (lineage root p)) ∧ HelpRule root := by
  constructor
  · rintro ⟨d, h⟩
    obtain ⟨hk, hv, hn⟩ := compiles_iff_parts h
    refine ⟨hk, hv, fun p n hp => (node_iff (h1 p n hp)).1 ⟨d, hn p n hp⟩, ?_⟩
    rw [compiles, Bool.and_eq_true] at h
    exact (help_iff root).1 h.2
  · rintro ⟨hk, hv, hn, hh⟩
    have hwalk : ∀ v ∈ root.walk [], ∃ p, nodeAt root p = some v.1 ∧ v.2 = lineage root p := by
      intro v hv
      obtain ⟨ps, -, -, hw⟩ := C72_nodes root
      have : (some v.1, v.2) ∈ (root.walk []).map fun v => (some v.1, v.2) :=
        List.mem_map.2 ⟨v, hv, rfl⟩
      rw [hw] at this
      obtain ⟨p, -, e⟩ := List.mem_map.1 this
      simp only [Prod.mk.injEq] at e
      exact ⟨p, e.1, e.2.symm⟩
    obtain ⟨d, hd⟩ := common_depth (P := fun d (v : Node × List Node) =>
        nodeAsserts cfg d v.1 v.2 = true) (fun d d' v hd h => node_mono hd h) (root.walk [])
      fun v hv => by
        obtain ⟨p, hp, e⟩ := hwalk v hv
        rw [e]
        exact (node_iff (h1 p v.1 hp)).2 (hn p v.1 hp)
    refine ⟨d, ?_⟩
    simp only [compiles, Bool.and_eq_true, beq_iff_eq, List.all_eq_true]
    exact ⟨⟨⟨hk, hv⟩, hd⟩, (help_iff root).2 hh⟩

/-- Whatever the reference rules out does not compile, however far the compiler goes. -/
theorem C101_ruled_out {cfg : Config} {rules : List Rule} {root n : Node} {p : List Nat}
    (h1 : ∀ p n, nodeAt root p = some n → OneLink n) (hn : nodeAt root p = some n)
    (h : ¬ NodeRule cfg n (lineage root p)) (depth : Nat) : compiles cfg depth rules root = false := by
  rw [← Bool.not_eq_true]
  intro hc
  exact h ((C101_compiles h1).1 ⟨depth, hc⟩ |>.2.2.1 p n hn).2

/-- And what the reference allows – in every node, and in every condition of the validator – compiles. -/
theorem C101_allowed {cfg : Config} {rules : List Rule} {root : Node}
    (h1 : ∀ p n, nodeAt root p = some n → OneLink n) (hk : root.kind = .root)
    (hv : ∀ p it parents, Occurs root p it parents → ∃ i r, FirstRule rules it i r ∧
      ∀ c ∈ r.conditions, Documented root p it parents c)
    (hn : ∀ p n, nodeAt root p = some n → classPolicies n = true ∧
      NodeRule cfg n (lineage root p)) (hh : HelpRule root) :
    ∃ depth, compiles cfg depth rules root = true :=
  (C101_compiles h1).2 ⟨hk, C99_compiles rules root hv, hn, hh⟩

theorem one_part_iff {parts : List (List Char)} {cs : List Char} (hf : parts.flatten = cs)
    (hne : ∀ p ∈ parts, p ≠ []) :
    1 < parts.length ↔ ∃ i, 0 < i ∧ i < cs.length ∧ CutAt parts i := by
  constructor
  · intro h
    match parts, h with
    | x :: y :: rest, _ =>
      have hx := List.length_pos_iff.2 (hne x (by simp))
      have hy := List.length_pos_iff.2 (hne y (by simp))
      subst hf
      refine ⟨x.length, hx, ?_, 1, by simp⟩
      simp only [List.flatten_cons, List.length_append]; omega
  · rintro ⟨i, h0, hi, k, hk⟩
    subst hf
    match parts with
    | [] => simp at hi
    | [x] =>
      cases k with
      | zero => simp at hk; omega
      | succ k => simp at hk hi; omega
    | x :: y :: rest => simp

theorem whitespace_iff {cs : List Char} (h : Plain cs) :
    NoBlanks (enc cs) ↔ ∀ c ∈ cs, isUnicodeWhitespace c = false := by
  rw [NoBlanks, C39_contains_whitespace_partial cs h]
  simp

/-- C101 for names, in terms of Unicode: a long name compiles exactly if there is a place between two
user-perceived characters in it (UAX 29) and no White_Space; a short name exactly if it is not empty,
there is no such place in it, and it is not the rest of the long prefix. Missing from the full
statement: texts with characters from U+07C0 to U+07FF and from U+F000 to U+FFFF (`C101_false`), and
those with a place where the library departs from UAX 29 (`C96_exceptional`). -/
theorem C101_names_partial (cfg : Config) (cs : List Char) (h : Plain cs)
    (he : ∀ i (_ : 0 < i) (hi : i < cs.length), ¬ Exceptional (classesBefore cs i) (classOf cs[i])) :
    (policyAsserts cfg (.longName (enc cs)) = true ↔
      (∃ i, 0 < i ∧ ∃ hi : i < cs.length, joins (classesBefore cs i) (classOf cs[i]) = false) ∧
        ∀ c ∈ cs, isUnicodeWhitespace c = false) ∧
    (policyAsserts cfg (.shortName (enc cs)) = true ↔
      cs ≠ [] ∧ (∀ i, 0 < i → ∀ hi : i < cs.length,
        joins (classesBefore cs i) (classOf cs[i]) = true) ∧
        cfg.shortPrefix ++ enc cs ≠ cfg.longPrefix) := by
  obtain ⟨parts, hg, hf, hne, hcut⟩ := C96_clusters_partial cs h he
  have hch : ∀ k, Characters (enc cs) k ↔ parts.length = k := by
    intro k
    rw [Characters, hg]
    simp
  have hmany : 1 < parts.length ↔
      ∃ i, 0 < i ∧ ∃ hi : i < cs.length, joins (classesBefore cs i) (classOf cs[i]) = false := by
    rw [one_part_iff hf hne]
    constructor
    · rintro ⟨i, h0, hi, hc⟩; exact ⟨i, h0, hi, (hcut i h0 hi).1 hc⟩
    · rintro ⟨i, h0, hi, hc⟩; exact ⟨i, h0, hi, (hcut i h0 hi).2 hc⟩
  rw [policy_iff, policy_iff]
  constructor
  · rw [← hmany, ← whitespace_iff h]
    constructor
    · rintro ⟨hk, h1, h2⟩
      exact ⟨by rw [(hch _).1 hk]; assumption, by assumption⟩
    · rintro ⟨h1, h2⟩
      exact .longName ((hch _).2 rfl) h1 h2
  · have hone : parts.length = 1 ↔ cs ≠ [] ∧ ∀ i, 0 < i → ∀ hi : i < cs.length,
        joins (classesBefore cs i) (classOf cs[i]) = true := by
      have h0 : parts.length = 0 ↔ cs = [] := by
        rw [List.length_eq_zero_iff]
        constructor
        · rintro rfl; exact hf.symm
        · intro hcs
          rw [hcs] at hf
          cases parts with
          | nil => rfl
          | cons x rest =>
            have := hne x (by simp)
            simp only [List.flatten_cons, List.append_eq_nil_iff] at hf
            exact absurd hf.1 this
      constructor
      · intro h1
        refine ⟨fun hcs => (by rw [h0.2 hcs] at h1; cases h1), fun i hp hi => ?_⟩
        cases hj : joins (classesBefore cs i) (classOf cs[i]) with
        | true => rfl
        | false => have := hmany.2 ⟨i, hp, hi, hj⟩; omega
      · rintro ⟨h1, h2⟩
        have h3 : ¬ 1 < parts.length := by
          rw [hmany]
          rintro ⟨i, hp, hi, hj⟩
          rw [h2 i hp hi] at hj; cases hj
        have h4 : parts.length ≠ 0 := fun h => h1 (h0.1 h)
        omega
    rw [← and_assoc, ← hone]
    constructor
    · intro hr
      cases hr with
      | shortName h1 h2 => exact ⟨(hch _).1 h1, h2⟩
    · rintro ⟨h1, h2⟩
      exact .shortName ((hch _).2 h1) h2

namespace ReferenceEx
open CompileEx

/-- Both halves of `C101_names_partial` for a name with an accent of its own: two characters of three
code points, and one character of two. -/
example : Plain ['e', '\u0301', 'a'] ∧ Plain ['e', '\u0301'] ∧
    policyAsserts .default (.longName (enc ['e', '\u0301', 'a'])) = true ∧
    policyAsserts .default (.shortName (enc ['e', '\u0301', 'a'])) = false ∧
    policyAsserts .default (.shortName (enc ['e', '\u0301'])) = true ∧
    policyAsserts .default (.longName (enc ['e', '\u0301'])) = false ∧
    policyAsserts .default (.longName (enc ['e', ' ', 'a'])) = false := by decide +kernel

/-- A program with a flag whose long name has a space in it. -/
def spaced : Node := tree [mkFlag .default 3 3 [.longName (enc ['！', ' ', 'a'])]]

/-- One link at most, by looking. -/
def oneLinkTest (n : Node) : Bool :=
  n.policies.all fun
    | .alias refs => n.links .alias == some refs
    | .dependent refs => n.links .dependent == some refs
    | _ => true

theorem oneLink_of_test {n : Node} (h : oneLinkTest n = true) : OneLink n := by
  rw [oneLinkTest, List.all_eq_true] at h
  intro k refs hr
  rw [← links_iff]
  cases k with
  | alias => simpa using h (.alias refs) hr
  | dependent => simpa using h (.dependent refs) hr

theorem oneLinks_of_test {root : Node} (h : root.nodes.all oneLinkTest = true) :
    ∀ p n, nodeAt root p = some n → OneLink n :=
  fun p n hn => oneLink_of_test (List.all_eq_true.1 h n (mem_nodes.2 ⟨p, hn⟩))

/-- The hypotheses of the C101 theorems are met by a program with nested modes, an alias, a dependent
argument with a separator, a flag with short-form expansion and a positional argument, which compiles;
so every node of it is as the reference says. -/
example : (∀ p n, nodeAt safeRoot p = some n → OneLink n) ∧
    ∀ p n, nodeAt safeRoot p = some n → NodeRule .default n (lineage safeRoot p) := by
  have h := oneLinks_of_test (root := safeRoot) (by decide +kernel)
  exact ⟨h, fun p n hn => (((C101_compiles (rules := defaultRules) h).1 ⟨100, by decide +kernel⟩).2.2.1 p n hn).2⟩

/-- The hypothesis of `C101_ruled_out` is met by a flag with a long name of one character. -/
example : ¬ NodeRule .default (mkFlag .default 3 3 [.longName (b "a")]) [] := by
  intro h
  have := (policy_iff _).2 (h.policies (.longName (b "a")) (by simp [mkFlag, Node.policies])).1
  revert this; decide +kernel

end ReferenceEx

open ReferenceEx

/-- C101 as stated is false: a flag with a space in its long name compiles. (The reference: a long name
"cannot contain any whitespace".) -/
theorem C101_false : compiles .default 100 defaultRules spaced = true ∧
    .longName (enc ['！', ' ', 'a']) ∈ (mkFlag .default 3 3 [.longName (enc ['！', ' ', 'a'])]).policies ∧
    isUnicodeWhitespace ' ' = true := by
  refine ⟨by decide +kernel, ?_, by decide +kernel⟩
  simp [mkFlag, Node.policies]

end ArgRouter.Props
