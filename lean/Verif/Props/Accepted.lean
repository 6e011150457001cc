import Verif.Props.Compile
import Verif.Lemmas.OrdinaryTest
import Verif.Props.Unique
import Verif.Props.Depend

/-!
# C92: the programs that compile are the programs specified

C76 and C88 say what an ordinary program does with a command line. Here: a program that compiles is
ordinary, except for a few unusual declarations that the library lets pass.
-/

namespace ArgRouter

open Utf8

namespace Spec

/-- What the author of a program has to see to, because the library does not. -/
structure Conventional (root : Node) : Prop where
  /-- a separator is one byte, of an argument with a long or short name that is not switched off -/
  separators : ∀ n ∈ root.nodes, ∀ s, .valueSeparator s ∈ n.policies → s.length = 1 ∧
    (∃ name, .longName name ∈ n.policies ∨ .shortName name ∈ n.policies) ∧ ¬ Disabled n
  /-- short-form expansion is left to flags -/
  expanders : ∀ n ∈ root.nodes, .shortFormExpander ∈ n.policies →
    n.kind = .flag ∨ n.kind = .countingFlag
  /-- counts are numbers of type `std::size_t`, and a positional argument with an end marker has no
  upper limit -/
  counts : ∀ n ∈ root.nodes, ∀ mn mx, .minMaxCount mn mx ∈ n.policies → mx ≤ sizeMax ∧
    ∀ m, n.kind = .positional → .tokenEndMarker m ∈ n.policies → mx = sizeMax
  /-- an alias does not need other arguments -/
  aliases : ∀ n ∈ root.nodes, ∀ r, .alias r ∈ n.policies → ∀ r', .dependent r' ∉ n.policies
  /-- modes do not have counts -/
  modes : ∀ n ∈ root.nodes, n.kind = .mode → ∀ mn mx, .minMaxCount mn mx ∉ n.policies
  /-- modes in modes are not switched off -/
  nested : ∀ n ∈ root.nodes, n.kind = .mode → ∀ c ∈ n.children, c.kind = .mode → ¬ Disabled c
  /-- the alternatives of a `one_of` have names -/
  alternatives : ∀ n ∈ root.nodes, n.kind = .oneOf → ∀ c ∈ n.children, c.kind ≠ .positional

end Spec

open Spec

namespace Props

/-! ## The policies of one node -/

/-- No two policies of a kind. -/
def OneOfEach (c : Node) : Prop :=
  ∀ (i j : Nat) (x y : Policy), c.policies[i]? = some x → c.policies[j]? = some y →
    x.kind = y.kind → i = j

theorem OneOfEach.eq {c : Node} (h : OneOfEach c) {x y : Policy} (hx : x ∈ c.policies)
    (hy : y ∈ c.policies) (hk : x.kind = y.kind) : x = y := by
  obtain ⟨i, hi⟩ := List.mem_iff_getElem?.1 hx
  obtain ⟨j, hj⟩ := List.mem_iff_getElem?.1 hy
  have := h i j x y hi hj hk
  subst this
  rw [hi] at hj
  exact Option.some.inj hj

theorem OneOfEach.pairwise {c : Node} (h : OneOfEach c) :
    c.policies.Pairwise fun x y => x.kind ≠ y.kind := by
  rw [List.pairwise_iff_getElem]
  intro i j hi hj hij hk
  have := h i j _ _ (List.getElem?_eq_getElem hi) (List.getElem?_eq_getElem hj) hk
  omega

theorem find_mem {α β : Type} {f : α → Option β} {l : List α} {v : β} (h : l.findSome? f = some v) :
    ∃ x ∈ l, f x = some v := by
  obtain ⟨x, hx, e⟩ := List.exists_of_findSome?_eq_some h
  exact ⟨x, hx, e⟩

theorem find_of_mem {c : Node} (h : OneOfEach c) {β : Type} {f : Policy → Option β} {x : Policy} {v : β}
    (hx : x ∈ c.policies) (hv : f x = some v)
    (hk : ∀ y, (f y).isSome = true → y.kind = x.kind) : c.policies.findSome? f = some v := by
  cases hf : c.policies.findSome? f with
  | none =>
    rw [List.findSome?_eq_none_iff] at hf
    rw [hf x hx] at hv; cases hv
  | some w =>
    obtain ⟨y, hy, e⟩ := find_mem hf
    have := h.eq hy hx (hk y (by simp [e]))
    subst this
    rw [e] at hv; exact hv

theorem count_of_mem {c : Node} (h : OneOfEach c) {mn mx : Nat} :
    .minMaxCount mn mx ∈ c.policies ↔ c.minMaxCount = some (mn, mx) := by
  constructor
  · intro hm
    exact find_of_mem h hm rfl (fun y hy => by cases y <;> simp_all [Policy.kind])
  · intro hm
    obtain ⟨y, hy, e⟩ := find_mem hm
    cases y <;> simp_all

/-- The shape of an argument: what the single policies say. -/
theorem shape_parts {c : Node} (h : OneOfEach c)
    (hsep : ∀ s, .valueSeparator s ∈ c.policies → s.length = 1) :
    (∀ ch, (shapeOf c).separator = some ch ↔ .valueSeparator [ch] ∈ c.policies) ∧
    ((shapeOf c).expands = true ↔ .shortFormExpander ∈ c.policies) ∧
    (∀ m, (shapeOf c).marker = some m ↔ .tokenEndMarker m ∈ c.policies) ∧
    (∀ r, (shapeOf c).aliasOf = some r ↔ .alias r ∈ c.policies) ∧
    (∀ r, (shapeOf c).needs = some r ↔ .dependent r ∈ c.policies) := by
  refine ⟨fun ch => ⟨fun hs => ?_, fun hm => ?_⟩, ⟨fun he => ?_, fun hm => ?_⟩,
    fun m => ⟨fun hs => ?_, fun hm => ?_⟩, fun m => ⟨fun hs => ?_, fun hm => ?_⟩,
    fun m => ⟨fun hs => ?_, fun hm => ?_⟩⟩
  · obtain ⟨y, hy, e⟩ := find_mem hs
    cases y with
    | valueSeparator s =>
      have h1 := hsep s hy
      match s, h1 with
      | [x], _ =>
        simp only [List.head?_cons, Option.some.injEq] at e
        subst e; exact hy
    | _ => simp at e
  · exact find_of_mem h hm rfl (fun y hy => by cases y <;> simp_all [Policy.kind])
  · obtain ⟨y, hy, e⟩ := List.any_eq_true.1 he
    cases y <;> simp_all
  · exact List.any_eq_true.2 ⟨_, hm, rfl⟩
  · obtain ⟨y, hy, e⟩ := find_mem hs
    cases y <;> simp_all
  · exact find_of_mem h hm rfl (fun y hy => by cases y <;> simp_all [Policy.kind])
  · obtain ⟨y, hy, e⟩ := find_mem hs
    cases y <;> simp_all
  · exact find_of_mem h hm rfl (fun y hy => by cases y <;> simp_all [Policy.kind])
  · obtain ⟨y, hy, e⟩ := find_mem hs
    cases y <;> simp_all
  · exact find_of_mem h hm rfl (fun y hy => by cases y <;> simp_all [Policy.kind])

theorem shape_nodup (sh : Shape) : sh.policies.Nodup := by
  cases sh with
  | mk s e m mn mx a d =>
    cases s <;> cases e <;> cases m <;> cases a <;> cases d <;> simp [Shape.policies]

/-- The policies that matter are those of the shape. -/
theorem match_shape {c : Node} (h : OneOfEach c)
    (hsep : ∀ s, .valueSeparator s ∈ c.policies → s.length = 1)
    (hcount : c.minMaxCount.isSome = true) (hon : ¬ Disabled c) :
    MatchPolicies c (shapeOf c).policies := by
  obtain ⟨h1, h2, h3, h4, h5⟩ := shape_parts h hsep
  unfold MatchPolicies
  have hnd : (c.policies.filter Policy.matters).Nodup :=
    (h.pairwise.imp (fun hk e => hk (by rw [e]))).sublist List.filter_sublist
  rw [List.perm_ext_iff_of_nodup hnd (shape_nodup _)]
  obtain ⟨⟨mn, mx⟩, hmm⟩ := Option.isSome_iff_exists.1 hcount
  have hcm := (count_of_mem h).2 hmm
  have hmin : (shapeOf c).min = mn := by simp [shapeOf, hmm]
  have hmax : (shapeOf c).max = mx := by simp [shapeOf, hmm]
  intro p
  simp only [List.mem_filter, Shape.policies, List.mem_append, List.mem_cons, List.not_mem_nil,
    or_false, Option.mem_toList, Option.map_eq_some_iff, List.mem_ite_nil_right]
  constructor
  · rintro ⟨hp, hm⟩
    cases p with
    | valueSeparator s =>
      have := hsep s hp
      match s, this with
      | [x], _ => exact .inl (.inl (.inl (.inl (.inl ⟨x, (h1 x).2 hp, rfl⟩))))
    | shortFormExpander => exact .inl (.inl (.inl (.inl (.inr ⟨h2.2 hp, rfl⟩))))
    | tokenEndMarker m => exact .inl (.inl (.inl (.inr ⟨m, (h3 m).2 hp, rfl⟩)))
    | minMaxCount a b =>
      have := (count_of_mem h).1 hp
      rw [hmm] at this
      cases this
      exact .inl (.inl (.inr (by rw [hmin, hmax])))
    | alias r => exact .inl (.inr ⟨r, (h4 r).2 hp, rfl⟩)
    | dependent r => exact .inr ⟨r, (h5 r).2 hp, rfl⟩
    | runtimeEnable e => exact absurd ⟨_, hp, by simpa [Policy.disables, Policy.matters] using hm⟩ hon
    | runtimeEnableRequired e v =>
      exact absurd ⟨_, hp, by simpa [Policy.disables, Policy.matters] using hm⟩ hon
    | _ => simp [Policy.matters] at hm
  · rintro (((((⟨x, hx, rfl⟩ | ⟨hx, rfl⟩) | ⟨x, hx, rfl⟩) | rfl) | ⟨x, hx, rfl⟩) | ⟨x, hx, rfl⟩)
    · exact ⟨(h1 x).1 hx, rfl⟩
    · exact ⟨h2.1 hx, rfl⟩
    · exact ⟨(h3 x).1 hx, rfl⟩
    · rw [hmin, hmax]; exact ⟨hcm, rfl⟩
    · exact ⟨(h4 x).1 hx, rfl⟩
    · exact ⟨(h5 x).1 hx, rfl⟩

/-! ## One node of a program that compiles -/

section
variable {cfg : Config} {depth : Nat} {root : Node}

/-- Neither root, mode nor group. -/
def LeafKind (k : Kind) : Prop := k ≠ .mode ∧ k ≠ .aliasGroup ∧ k ≠ .oneOf ∧ k ≠ .root

theorem isSome_longName {n : Node} {s : Bytes} (h : .longName s ∈ n.policies) :
    n.longName.isSome = true := by
  cases hl : n.longName with
  | some _ => rfl
  | none =>
    unfold Node.longName at hl
    rw [List.findSome?_eq_none_iff] at hl
    exact absurd (hl _ h) (by simp)

theorem isSome_shortName {n : Node} {s : Bytes} (h : .shortName s ∈ n.policies) :
    n.shortName.isSome = true := by
  cases hl : n.shortName with
  | some _ => rfl
  | none =>
    unfold Node.shortName at hl
    rw [List.findSome?_eq_none_iff] at hl
    exact absurd (hl _ h) (by simp)

/-- Every argument has counts, in the right order. -/
theorem argument_count {n : Node} {p : List Nat} (hc : compiles cfg depth defaultRules root = true)
    (hn : nodeAt root p = some n) (hk : LeafKind n.kind) :
    ∃ mn mx, n.minMaxCount = some (mn, mx) ∧ mn ≤ mx := by
  obtain ⟨-, hacc, hnodes⟩ := compiles_iff_parts hc
  obtain ⟨h1, h2, h3⟩ := nodeAsserts_parts (hnodes p n hn)
  have hs : n.minMaxCount.isSome = true := by
    obtain ⟨k1, k2, k3, k4⟩ := hk
    cases hk : n.kind <;>
      simp_all [classPolicies, classAsserts, multiArgBaseAsserts, Node.countIs]
  obtain ⟨⟨mn, mx⟩, hmm⟩ := Option.isSome_iff_exists.1 hs
  refine ⟨mn, mx, hmm, ?_⟩
  obtain ⟨y, hy, e⟩ := find_mem hmm
  have := (h3 y hy).1
  cases y <;> simp_all [policyAsserts]

/-- Only positional arguments have no name, and they take at least one value. -/
theorem argument_named {n : Node} {p : List Nat} (hc : compiles cfg depth defaultRules root = true)
    (hn : nodeAt root p = some n) (hk : LeafKind n.kind) :
    (n.kind ≠ .positional → n.isNamed = true) ∧
    (n.kind = .positional → ∃ mn mx, n.minMaxCount = some (mn, mx) ∧ 0 < mx) := by
  obtain ⟨-, hacc, hnodes⟩ := compiles_iff_parts hc
  obtain ⟨h1, h2, h3⟩ := nodeAsserts_parts (hnodes p n hn)
  refine ⟨fun hp => ?_, fun hp => ?_⟩
  · obtain ⟨k1, k2, k3, k4⟩ := hk
    cases hk : n.kind <;>
      simp_all [classPolicies, classAsserts, multiArgBaseAsserts, Node.isNamed, Node.hasLabel]
    · simpa [h2.1.2, h2.2] using h2.1.1.2
    · simpa [h2.1.1.1.1.2, h2.1.1.1.2] using h2.1.1.1.1.1.2
    · simpa [h2.1.1.1.2, h2.1.1.2, h2.1.2] using h2.1.1.1.1.2
  · obtain ⟨mn, mx, hmm, hle⟩ := argument_count hc hn hk
    refine ⟨mn, mx, hmm, Nat.pos_of_ne_zero fun h0 => ?_⟩
    subst h0
    have : mn = 0 := by omega
    subst this
    simp [classAsserts, hp, multiArgBaseAsserts, Node.countIs, hmm] at h2

/-- An argument is switched off or declared with the shape its policies say. -/
theorem argument_declared {n : Node} {p : List Nat} (hc : compiles cfg depth defaultRules root = true)
    (hu : Conventional root) (hn : nodeAt root p = some n) (hk : LeafKind n.kind) :
    Off n ∨ (Declared n (shapeOf n)) := by
  obtain ⟨-, hacc, hnodes⟩ := compiles_iff_parts hc
  obtain ⟨h1, h2, h3⟩ := nodeAsserts_parts (hnodes p n hn)
  have hmem : n ∈ root.nodes := mem_nodes.2 ⟨p, hn⟩
  have hone : OneOfEach n := fun i j x y hx hy hxy => C74_unique_policies hacc hn hx hy hxy
  have hsep := hu.separators n hmem
  obtain ⟨k1, k2, k3, k4⟩ := hk
  by_cases hoff : Disabled n
  · refine .inl ⟨hoff, ⟨k1, k2, k3⟩, fun s hs => (hsep s hs).2.2 hoff, ?_⟩
    exact hone.pairwise.imp fun hk e => hk (by rw [e.1, e.2])
  right
  obtain ⟨mn, mx, hmm, hle⟩ := argument_count hc hn ⟨k1, k2, k3, k4⟩
  have hcm := (count_of_mem hone).2 hmm
  have hmin : (shapeOf n).min = mn := by simp [shapeOf, hmm]
  have hmax : (shapeOf n).max = mx := by simp [shapeOf, hmm]
  obtain ⟨hnamed, hpos⟩ := argument_named hc hn ⟨k1, k2, k3, k4⟩
  obtain ⟨p1, p2, p3, p4, p5⟩ := shape_parts hone fun s hs => (hsep s hs).1
  -- short-form expansion belongs to flags, which take no values
  have hexp : (shapeOf n).expands = true → mn = 0 ∧ mx = 0 := by
    intro he
    rcases hu.expanders n hmem (p2.1 he) with hk | hk <;>
      simp [classPolicies, hk, Node.countIs, hmm] at h1
    · exact h1.2
    · exact h1.2
  have hsep1 : ∀ ch, (shapeOf n).separator = some ch → mn = 1 ∧ mx = 1 := by
    intro ch hs
    have := (h3 _ ((p1 ch).1 hs)).2
    simpa [ownerAsserts, Node.countIs, hmm] using this
  have hmark : ∀ m, (shapeOf n).marker = some m → mn ≠ mx := by
    intro m hs
    have := (h3 _ ((p3 m).1 hs)).2
    simp [ownerAsserts, hmm] at this
    exact this.1
  refine ⟨match_shape hone (fun s hs => (hsep s hs).1) (by simp [hmm]) hoff, ⟨k1, k2, k3⟩, ?_, ?_,
    ?_, ?_, ?_, ?_⟩
  · rw [hmax]; exact (hu.counts n hmem _ _ hcm).1
  · intro hs
    obtain ⟨ch, hs⟩ := Option.isSome_iff_exists.1 hs
    obtain ⟨-, ⟨name, hname⟩, -⟩ := hsep _ ((p1 ch).1 hs)
    have he := hsep1 ch hs
    refine ⟨?_, ?_, by rw [hmin, he.1], by rw [hmax, he.2], ?_⟩
    · unfold Node.isNamed
      rcases hname with h | h
      · simp [isSome_longName h]
      · simp [isSome_shortName h]
    · cases hnn : n.noneName with
      | none => rfl
      | some s =>
        have := (C74_exclusive hacc hn).2.1 s (mem_of_noneName hnn) name
        rcases hname with h | h
        · exact absurd h this.1
        · exact absurd h this.2.1
    · cases hx : (shapeOf n).expands with
      | false => rfl
      | true => have := hexp hx; omega
  · intro he
    have := (h3 _ (p2.1 he)).2
    simp only [ownerAsserts, Bool.and_eq_true] at this
    unfold Node.isNamed
    cases hs : n.shortName with
    | none => simp [hs] at this
    | some s => simp
  · intro hm
    obtain ⟨m, hm⟩ := Option.isSome_iff_exists.1 hm
    have hne := hmark m hm
    refine ⟨?_, ?_, fun hun => ?_⟩
    · cases hs : (shapeOf n).separator with
      | none => rfl
      | some ch => have := hsep1 ch hs; omega
    · cases hx : (shapeOf n).expands with
      | false => rfl
      | true => have := hexp hx; omega
    · rw [hmax]
      refine (hu.counts n hmem _ _ hcm).2 m ?_ ((p3 m).1 hm)
      cases hk : n.kind
      case positional => rfl
      all_goals (have := hnamed (by simp [hk]); rw [hun] at this; cases this)
  · intro hun
    rw [hmax]
    have hk : n.kind = .positional := by
      cases hk : n.kind
      case positional => rfl
      all_goals (have := hnamed (by simp [hk]); rw [hun] at this; cases this)
    obtain ⟨a, c, e, h⟩ := hpos hk
    rw [hmm] at e
    cases e
    exact h
  · intro ha
    obtain ⟨r, ha⟩ := Option.isSome_iff_exists.1 ha
    have hr := (p4 r).1 ha
    have hown := (h3 _ hr).2
    simp only [ownerAsserts, Bool.and_eq_true] at hown
    obtain ⟨ho1, ho2⟩ := hown
    have hrouter : n.hasRouter = false := by
      simp only [Node.noPhase, List.all_cons, List.all_nil, Bool.and_true, Bool.and_eq_true,
        Bool.not_eq_true'] at ho1
      have := ho1.2.2
      rw [List.any_eq_false] at this
      unfold Node.hasRouter
      rw [List.any_eq_false]
      intro q hq hh
      apply this q hq
      cases q <;> simp_all [Policy.hasRoutingPhase]
    have heq : mn = mx := by
      cases hml : nearestModeLike (n :: lineage root p) with
      | none => simp [hml] at ho2
      | some mode =>
        rw [hml] at ho2
        simp only [beq_iff_eq] at ho2
        unfold aliasCheck fixedCountOf at ho2
        rw [hmm] at ho2
        by_cases he : mn = mx
        · exact he
        · simp [he] at ho2
    refine ⟨hnamed fun hk => (C74_forbidden hacc hn).2.2 hk |>.1 r hr, by rw [hmin, hmax, heq],
      by rw [hmin, hmax, hmm], hrouter, ?_, ?_⟩
    · cases hm : (shapeOf n).marker with
      | none => rfl
      | some m => exact absurd heq (hmark m hm)
    · cases hd : (shapeOf n).needs with
      | none => rfl
      | some r' => exact absurd ((p5 r').1 hd) (hu.aliases n hmem r hr r')

/-! ## Modes -/

theorem leavesList_groupless : ∀ {cs : List Node}, (∀ c ∈ cs, c.kind ≠ .aliasGroup) →
    leavesList cs = cs
  | [], _ => rfl
  | .mk k u h v ps ds :: cs, hc => by
    have h1 := hc _ List.mem_cons_self
    rw [leavesList, leaves, if_neg (by simpa [Node.kind] using h1),
      leavesList_groupless fun c hcs => hc c (List.mem_cons_of_mem _ hcs)]
    rfl

theorem argumentsFrom_child {cs : List Node} {i : Nat} {a : Nat × Node}
    (h : a ∈ argumentsFrom i cs) :
    ∃ c, i ≤ a.1 ∧ cs[a.1 - i]? = some c ∧ c.kind ≠ .mode ∧ a.2 ∈ members c := by
  induction cs generalizing i with
  | nil => cases h
  | cons c cs ih =>
    rw [argumentsFrom] at h
    rcases List.mem_append.1 h with h | h
    · split at h
      · cases h
      · rename_i hk
        obtain ⟨x, hx, rfl⟩ := List.mem_map.1 h
        exact ⟨c, Nat.le_refl _, by simp, by simpa using hk, hx⟩
    · obtain ⟨d, hle, hd, h⟩ := ih h
      refine ⟨d, by omega, ?_, h⟩
      rw [show a.1 - i = a.1 - (i + 1) + 1 by omega, List.getElem?_cons_succ]
      exact hd

/-- Where the arguments of a mode are: they are its children, or children of a group in it. -/
theorem argument_place {m : Node} {p : List Nat} (hc : compiles cfg depth defaultRules root = true)
    (hn : nodeAt root p = some m) {a : Nat × Node}
    (ha : a ∈ arguments m) : ∃ q, nodeAt root q = some a.2 ∧
      (lineage root q = m :: lineage root p ∧ m.children[a.1]? = some a.2 ∨
        ∃ g, lineage root q = g :: m :: lineage root p ∧ m.children[a.1]? = some g ∧
          (g.kind = .oneOf ∨ g.kind = .aliasGroup) ∧ a.2 ∈ g.children ∧ g.hasRouter = false) ∧
      LeafKind a.2.kind := by
  obtain ⟨-, hacc, hnodes⟩ := compiles_iff_parts hc
  obtain ⟨c, -, hci, hck, hmem⟩ := argumentsFrom_child ha
  rw [Nat.sub_zero] at hci
  have hcm := List.mem_of_getElem? hci
  obtain ⟨q, hq, hl⟩ := lineage_child hn hcm
  have hroot : ∀ q c, nodeAt root q = some c → lineage root q ≠ [] → c.kind ≠ .root :=
    fun q c hq hl hk => hl (root_no_router hk (nodeAsserts_parts (hnodes q c hq)).2.1).2
  by_cases hg : c.kind = .oneOf ∨ c.kind = .aliasGroup
  · -- no groups, modes or roots in a group
    have hinner : ∀ d ∈ c.children, LeafKind d.kind := by
      intro d hd
      obtain ⟨r, hr, hlr⟩ := lineage_child hq hd
      have hpl := C74_places hacc hr
      have hgm : c.kind ≠ .mode := hck
      have hcr : c.kind ≠ .root := by rcases hg with h | h <;> rw [h] <;> decide
      refine ⟨fun h => ?_, fun h => ?_, fun h => ?_, hroot r d hr (by rw [hlr]; simp)⟩
      · obtain ⟨x, hx, hxk⟩ := hpl.1 h
        rw [hlr] at hx; cases hx
        exact hxk.elim hcr hgm
      · obtain ⟨x, hx, hxk⟩ := hpl.2.1 (.inr h)
        rw [hlr] at hx; cases hx
        exact hgm hxk
      · obtain ⟨x, hx, hxk⟩ := hpl.2.1 (.inl h)
        rw [hlr] at hx; cases hx
        exact hgm hxk
    have hchild : a.2 ∈ c.children := by
      rcases hg with h | h
      · rw [members, if_pos (by simp [h])] at hmem
        exact hmem
      · rw [members, if_neg (by simp [h])] at hmem
        cases c with
        | mk k u hh v ps ds =>
          simp only [Node.kind] at h
          subst h
          rw [leaves, if_pos (by decide), leavesList_groupless (cs := ds) fun d hd => (hinner d hd).2.1]
            at hmem
          exact hmem
    obtain ⟨r, hr, hlr⟩ := lineage_child hq hchild
    refine ⟨r, hr, .inr ⟨c, by rw [hlr, hl], hci, hg, hchild, ?_⟩, hinner _ hchild⟩
    have h2 := (nodeAsserts_parts (hnodes q c hq)).2.1
    have h3 : basicOneOfAsserts c = true := by
      rcases hg with h | h <;> simp only [classAsserts, h, Bool.and_eq_true] at h2
      · exact h2.1.1
      · exact h2.1
    simp only [basicOneOfAsserts, Bool.and_eq_true, Node.noPhase, List.all_cons, List.all_nil,
      Bool.and_true, Bool.not_eq_true'] at h3
    have := h3.2.2.2
    rw [List.any_eq_false] at this
    unfold Node.hasRouter
    rw [List.any_eq_false]
    intro x hx hh
    apply this x hx
    cases x <;> simp_all [Policy.hasRoutingPhase]
  · have hg1 : c.kind ≠ .oneOf := fun h => hg (.inl h)
    have hg2 : c.kind ≠ .aliasGroup := fun h => hg (.inr h)
    have : a.2 = c := by
      rw [members, if_neg (by simpa using hg1)] at hmem
      cases c with
      | mk k u hh v ps ds =>
        rw [leaves, if_neg (by simpa [Node.kind] using hg2)] at hmem
        simpa using hmem
    rw [this]
    exact ⟨q, hq, .inl ⟨hl, hci⟩, hck, hg2, hg1, hroot q c hq (by rw [hl]; simp)⟩

theorem modes_no_arguments : ∀ {cs : List Node} {i : Nat}, (∀ c ∈ cs, c.kind = .mode) →
    argumentsFrom i cs = []
  | [], _, _ => rfl
  | c :: cs, i, h => by
    rw [argumentsFrom, if_pos (by simp [h c List.mem_cons_self]),
      modes_no_arguments fun d hd => h d (List.mem_cons_of_mem _ hd)]
    rfl

theorem owners_named : ∀ (m : Node) (refs : List NameRef), m.owners refs ≠ [] →
    namedNodes m refs ≠ [] := by
  intro m refs h
  obtain ⟨d, hd⟩ := List.exists_mem_of_ne_nil _ h
  obtain ⟨hd, r, hr, hin⟩ := (mem_owners refs d m).1 hd
  refine List.ne_nil_of_mem (a := d) (List.mem_filter.2 ⟨hd, ?_⟩)
  exact List.any_eq_true.2 ⟨r, hr, by simpa using hin⟩

/-- A mode is made of the arguments specified. -/
theorem mode_ordinary {m : Node} {p : List Nat} (hc : compiles cfg depth defaultRules root = true)
    (hu : Conventional root) (hn : nodeAt root p = some m) (hk : m.kind = .mode) : Ordinary m := by
  obtain ⟨-, hacc, hnodes⟩ := compiles_iff_parts hc
  obtain ⟨-, h2, -⟩ := nodeAsserts_parts (hnodes p m hn)
  have hrouter : arguments m ≠ [] → m.hasRouter = true := by
    intro hne
    simp only [classAsserts, hk, Bool.and_eq_true, Bool.or_eq_true, List.all_eq_true,
      beq_iff_eq] at h2
    rcases h2.2 with h | h
    · exact h
    · exact absurd (modes_no_arguments h.2) hne
  refine ⟨hrouter, fun a ha => ?_, fun a ha o ho => ?_⟩
  · obtain ⟨q, hq, hl, hleaf⟩ := argument_place hc hn ha
    rcases argument_declared hc hu hq hleaf with h | h
    · exact .inl h
    refine .inr ⟨_, h, fun refs hr => owners_named _ _ ?_⟩
    have hmr := hrouter (by intro h; rw [h] at ha; cases ha)
    have hin : Policy.alias refs ∈ a.2.policies :=
      (List.mem_filter.1 (h.policies.mem_iff.2 (by simp [Shape.policies, hr]))).1
    obtain ⟨hpol, hown⟩ := (nodeAsserts_parts (hnodes q _ hq)).2.2 _ hin
    have hnr := (h.aliased (by simp [hr])).2.2.2.1
    have hnear : nearestModeLike (a.2 :: lineage root q) = some m := by
      rcases hl with ⟨hl, -⟩ | ⟨g, hl, -, -, -, hgr⟩
      · simp [nearestModeLike, hnr, hl, hmr]
      · simp [nearestModeLike, hnr, hl, hmr, hgr]
    simp only [ownerAsserts, hnear, Bool.and_eq_true, beq_iff_eq] at hown
    have hlt : linkTargets m refs ≠ none := by
      intro hlt
      have := hown.2
      unfold aliasCheck at this
      rw [hlt] at this
      split at this
      · rename_i h; cases h
      · cases this
    unfold linkTargets at hlt
    split at hlt
    · rename_i h
      intro he
      rw [he] at h
      simp only [policyAsserts, Bool.not_eq_true', List.isEmpty_eq_false_iff] at hpol
      exact hpol (List.length_eq_zero_iff.1 h.1.symm)
    · exact absurd rfl hlt
  · obtain ⟨q, hq, hl, hleaf⟩ := argument_place hc hn ha
    unfold oneOfAt at ho
    rw [Option.filter_eq_some_iff] at ho
    obtain ⟨ho, hok⟩ := ho
    have hok : o.kind = .oneOf := by simpa using hok
    refine (argument_named hc hq hleaf).1 ?_
    rcases hl with ⟨-, hi⟩ | ⟨g, -, hi, -, hin, -⟩
    · rw [ho] at hi
      cases hi
      exact absurd hok hleaf.2.2.1
    · rw [ho] at hi
      cases hi
      exact hu.alternatives o (child_mem_nodes (List.mem_of_getElem? ho) _ (self_mem_nodes o) |>
        nodes_trans root m (mem_nodes.2 ⟨p, hn⟩) _) hok _ hin

/-- The policies of a mode that is not switched off do not matter for matching; nor, otherwise, do
separators and short-form expansion. -/
theorem mode_policies {m : Node} {p : List Nat} (hc : compiles cfg depth defaultRules root = true)
    (hu : Conventional root) (hn : nodeAt root p = some m) (hk : m.kind = .mode) :
    (¬ Disabled m → MatchPolicies m []) ∧ (∀ s, .valueSeparator s ∉ m.policies) ∧
      .shortFormExpander ∉ m.policies := by
  obtain ⟨-, hacc, hnodes⟩ := compiles_iff_parts hc
  obtain ⟨-, -, h3⟩ := nodeAsserts_parts (hnodes p m hn)
  have hmem : m ∈ root.nodes := mem_nodes.2 ⟨p, hn⟩
  have hcount : m.minMaxCount = none := by
    cases hmm : m.minMaxCount with
    | none => rfl
    | some v =>
      obtain ⟨y, hy, e⟩ := find_mem hmm
      cases y with
      | minMaxCount a b => exact absurd hy (hu.modes m hmem hk a b)
      | _ => simp at e
  have hsep : ∀ s, .valueSeparator s ∉ m.policies := by
    intro s hs
    have := (h3 _ hs).2
    simp [ownerAsserts, Node.countIs, hcount] at this
  have hexp : .shortFormExpander ∉ m.policies := by
    intro he
    rcases hu.expanders m hmem he with h | h <;> rw [hk] at h <;> cases h
  refine ⟨fun hon => ?_, hsep, hexp⟩
  have hforb := (C74_forbidden hacc hn).1 hk
  have hhas := (default_mode_rule hk ((validate_iff.1 hacc).1 p m hn)).1
  have hnil : m.policies.filter Policy.matters = [] := by
    rw [List.filter_eq_nil_iff]
    intro q hq hm
    cases q with
    | valueSeparator s => exact hsep s hq
    | shortFormExpander => exact hexp hq
    | tokenEndMarker s =>
      have := (h3 _ hq).2
      simp [ownerAsserts, hcount] at this
    | minMaxCount a b => exact hu.modes m hmem hk a b hq
    | alias r => exact (hforb _ hq).2.1 r rfl
    | dependent r => exact (hforb _ hq).2.2 r rfl
    | runtimeEnable e => exact hon ⟨_, hq, by simpa [Policy.disables, Policy.matters] using hm⟩
    | runtimeEnableRequired e v =>
      exact hon ⟨_, hq, by simpa [Policy.disables, Policy.matters] using hm⟩
    | _ => simp [Policy.matters] at hm
  unfold MatchPolicies
  rw [hnil]

/-- C92, what holds: a program that compiles, of an author who keeps to the conventions, is made of
the arguments and modes whose behaviour C76 and C88 specify. -/
theorem C92_ordinary_partial (hc : compiles cfg depth defaultRules root = true)
    (hu : Conventional root) : OrdinaryProgram root := by
  obtain ⟨htop, hacc, hnodes⟩ := compiles_iff_parts hc
  have hroot := nodeAsserts_parts (hnodes [] root rfl)
  have hrr := root_no_router htop hroot.2.1
  have hrep : ∀ m ∈ root.nodes, RepeatableNamed m := fun m hm d hd =>
    compiles_repeatable hc d (nodes_trans root m hm d hd)
  intro c hcm
  obtain ⟨q, hq, hl⟩ := lineage_child (root := root) (p := []) rfl hcm
  have hcn : c ∈ root.nodes := mem_nodes.2 ⟨q, hq⟩
  by_cases hk : c.kind = .mode
  · cases hanon : c.isAnonymous with
    | true => exact .inr (.inr (.inr ⟨hk, by first | exact hanon | rfl, mode_ordinary hc hu hq hk, hrep c hcn⟩))
    | false =>
      obtain ⟨hp1, hp2, hp3⟩ := mode_policies hc hu hq hk
      by_cases hoff : Disabled c
      · exact .inr (.inl ⟨hk, hanon, hoff, hp2, hp3⟩)
      · refine .inr (.inr (.inl ⟨hk, fun d hd hdk => ?_⟩))
        obtain ⟨r, hr⟩ := mem_nodes.1 hd
        have hdr : nodeAt root (q ++ r) = some d := by rw [nodeAt_append, hq]; exact hr
        have hdn : d ∈ root.nodes := mem_nodes.2 ⟨_, hdr⟩
        refine ⟨⟨hdk, ?_, ?_⟩, mode_ordinary hc hu hdr hdk, hrep d hdn⟩
        · cases r with
          | nil =>
            simp only [nodeAt, Option.some.injEq] at hr
            subst hr; exact hanon
          | cons i r =>
            have h2 := (nodeAsserts_parts (hnodes _ d hdr)).2.1
            have hlen := lineage_length _ _ _ hdr
            have hlq := lineage_length _ _ _ hq
            rw [hl] at hlq
            simp only [List.length_append, List.length_cons] at hlen hlq
            cases ha : d.isAnonymous with
            | false => rfl
            | true =>
              simp only [classAsserts, hdk, ha, Bool.and_eq_true, Bool.or_eq_true, Bool.not_true,
                Bool.false_eq_true, false_or, decide_eq_true_eq] at h2
              have := h2.1.2
              omega
        · refine (mode_policies hc hu hdr hdk).1 ?_
          cases hlast : r.reverse with
          | nil =>
            have : r = [] := by simpa using hlast
            subst this
            simp only [nodeAt, Option.some.injEq] at hr
            subst hr; exact hoff
          | cons i l =>
            have hrl : r = l.reverse ++ [i] := by
              have := congrArg List.reverse hlast
              simpa using this
            rw [hrl, nodeAt_append] at hr
            cases hpar : nodeAt c l.reverse with
            | none => simp [hpar] at hr
            | some m =>
              rw [hpar] at hr
              simp only [Option.bind_some, nodeAt] at hr
              have hmr : nodeAt root (q ++ l.reverse) = some m := by
                rw [nodeAt_append, hq]; exact hpar
              have hdm : d ∈ m.children := by
                cases hmi : m.children[i]? with
                | none => simp [hmi] at hr
                | some x =>
                  simp only [hmi, Option.some.injEq] at hr
                  subst hr; exact List.mem_of_getElem? hmi
              have hmk : m.kind = .mode := by
                obtain ⟨t, ht, hlt⟩ := lineage_child hmr hdm
                obtain ⟨x, hx, hxk⟩ := (C74_places hacc ht).1 hdk
                rw [hlt] at hx
                cases hx
                rcases hxk with h | h
                · have h1 := (root_no_router h (nodeAsserts_parts (hnodes _ m hmr)).2.1).2
                  have h2 := lineage_length _ _ _ hmr
                  have h3 := lineage_length _ _ _ hq
                  rw [h1] at h2
                  rw [hl] at h3
                  simp only [List.length_nil, List.length_append, List.length_cons] at h2 h3
                  omega
                · exact h
              exact hu.nested m (mem_nodes.2 ⟨_, hmr⟩) hmk d hdm hdk
  · left
    have hplace := C74_places hacc hq
    have hkinds : LeafKind c.kind := by
      refine ⟨hk, fun h => ?_, fun h => ?_, fun h => ?_⟩
      · obtain ⟨m, hm, hmk⟩ := hplace.2.1 (.inr h)
        rw [hl] at hm; cases hm
        rw [htop] at hmk; cases hmk
      · obtain ⟨m, hm, hmk⟩ := hplace.2.1 (.inl h)
        rw [hl] at hm; cases hm
        rw [htop] at hmk; cases hmk
      · have := (root_no_router h (nodeAsserts_parts (hnodes q c hq)).2.1).2
        rw [hl] at this; cases this
    have hnone : nearestModeLike (lineage root q) = none := by
      rw [hl]; simp [lineage, nearestModeLike, hrr.1]
    obtain ⟨h1, h2, h3⟩ := nodeAsserts_parts (hnodes q c hq)
    have halone : ∀ refs, Policy.alias refs ∉ c.policies ∧ Policy.dependent refs ∉ c.policies :=
      fun refs => ⟨fun h => (alias_no_router (h3 _ h).2).2 hnone,
        fun h => dependent_mode (h3 _ h).2 hnone⟩
    refine ⟨(argument_named hc hq hkinds).1 fun hpos => ?_, halone, ?_⟩
    · -- a positional argument neither lacks a result nor routes
      have hres := hroot.2.1
      simp only [classAsserts, htop, Bool.and_eq_true, List.all_eq_true, Bool.or_eq_true] at hres
      have hno : c.hasNoResult = false := by
        unfold Node.hasNoResult
        rw [List.any_eq_false]
        intro x hx hh
        have hv := (validate_iff.1 hacc).1 q c hq
        simp [checkItem, defaultRules, RuleKey.matches, hpos, Condition.holds] at hv
        cases x with
        | noResult =>
          have := has_of_mem hx
          simp only [Policy.kind] at this
          rw [hv.1.2.2.1] at this; cases this
        | alias r => exact (halone r).1 hx
        | _ => simp at hh
      have hnr : c.hasRouter = false := by
        simp only [classAsserts, hpos, Bool.and_eq_true, Node.noPhase, List.all_cons, List.all_nil,
          Bool.and_true, Bool.not_eq_true'] at h2
        have := h2.2
        rw [List.any_eq_false] at this
        unfold Node.hasRouter
        rw [List.any_eq_false]
        intro x hx hh
        apply this x hx
        cases x <;> simp_all [Policy.hasRoutingPhase]
      rcases hres.2 c hcm with h | h
      · rw [hno] at h; cases h
      · rw [hnr] at h; cases h
    · rcases argument_declared hc hu hq hkinds with h | h
      · exact .inl h
      · exact .inr ⟨_, h⟩

/-- C92, what holds, with C88: given a command line whose tokens after the short prefix are text (and
not empty), where it fits into memory, such a program does what the one reading of the command line
says. -/
theorem C92_program_partial (hc : compiles cfg depth defaultRules root = true)
    (hu : Conventional root) (argv : List Bytes) (s : St)
    (htext : ∀ x ∈ argv, Readable cfg ⟨.none, x⟩)
    (hlen : (argv.map List.length).sum + argv.length < 2 ^ 63) :
    ∃ v, (∀ v', ProgramReading cfg root s.sel (argv.map (Token.mk .none)) v' ↔ v' = v) ∧
      parseArgs cfg root argv s = verdictOutcome cfg root v s := by
  have ho := C92_ordinary_partial hc hu
  obtain ⟨v, hv⟩ := C88_total cfg root s.sel (argv.map (Token.mk .none))
  refine ⟨v, fun v' => ⟨fun h => ?_, fun h => h ▸ hv⟩, ?_⟩
  · exact C88_unique cfg root s.sel argv v' v ho (fun _ => htext) hlen h hv
  · exact C88_program cfg root argv v s ho (fun _ => htext) hlen hv

end

/-! ## Examples -/

def isPrefixedName : Policy → Bool
  | .longName _ => true
  | .shortName _ => true
  | _ => false

/-- Whether one policy of the node keeps to the conventions. -/
def conventionalPolicy (n : Node) : Policy → Bool
  | .valueSeparator s => s.length == 1 && n.policies.any isPrefixedName &&
      !n.policies.any Policy.disables
  | .shortFormExpander => n.kind == .flag || n.kind == .countingFlag
  | .minMaxCount _ mx => decide (mx ≤ sizeMax) && n.kind != .mode &&
      (n.kind != .positional || !n.hasTokenEndMarker || mx == sizeMax)
  | .alias _ => n.policies.all fun | .dependent _ => false | _ => true
  | _ => true

/-- Whether the node keeps to the conventions. -/
def conventionalNode (n : Node) : Bool :=
  n.policies.all (conventionalPolicy n) &&
  (n.kind != .mode || n.children.all fun c => c.kind != .mode || !c.policies.any Policy.disables) &&
  (n.kind != .oneOf || n.children.all fun c => c.kind != .positional)

theorem conventional_of_test {root : Node} (h : root.nodes.all conventionalNode = true) :
    Conventional root := by
  have hall : ∀ n ∈ root.nodes, _ := fun n hn => List.all_eq_true.1 h n hn
  simp only [conventionalNode, Bool.and_eq_true, Bool.or_eq_true, List.all_eq_true, bne_iff_ne,
    Bool.not_eq_true', ne_eq] at hall
  have hoff : ∀ n : Node, n.policies.any Policy.disables = false → ¬ Disabled n := by
    rintro n h1 ⟨q, hq, h2⟩
    rw [List.any_eq_false] at h1
    exact h1 q hq h2
  refine ⟨?_, ?_, ?_, ?_, ?_, ?_, ?_⟩
  · intro n hn s hs
    have := (hall n hn).1.1 _ hs
    simp only [conventionalPolicy, Bool.and_eq_true, beq_iff_eq, Bool.not_eq_true'] at this
    refine ⟨this.1.1, ?_, hoff n this.2⟩
    obtain ⟨q, hq, h⟩ := List.any_eq_true.1 this.1.2
    cases q with
    | longName l => exact ⟨l, .inl hq⟩
    | shortName l => exact ⟨l, .inr hq⟩
    | _ => simp [isPrefixedName] at h
  · intro n hn hs
    simpa [conventionalPolicy] using (hall n hn).1.1 _ hs
  · intro n hn mn mx hs
    have := (hall n hn).1.1 _ hs
    simp only [conventionalPolicy, Bool.and_eq_true, decide_eq_true_eq, Bool.or_eq_true,
      bne_iff_ne, ne_eq, Bool.not_eq_true', beq_iff_eq] at this
    refine ⟨this.1.1, fun m hk hm => ?_⟩
    rcases this.2 with (h | h) | h
    · exact absurd hk h
    · unfold Node.hasTokenEndMarker at h
      rw [List.any_eq_false] at h
      exact absurd rfl (h _ hm)
    · exact h
  · intro n hn r hr r' hr'
    have := (hall n hn).1.1 _ hr
    simp only [conventionalPolicy, List.all_eq_true] at this
    exact absurd (this _ hr') (by simp)
  · intro n hn hk mn mx hs
    have := (hall n hn).1.1 _ hs
    simp [conventionalPolicy, hk] at this
  · intro n hn hk c hc hck
    rcases (hall n hn).1.2 with h | h
    · exact absurd hk h
    · rcases h c hc with h | h
      · exact absurd hck h
      · exact hoff c h
  · intro n hn hk c hc
    rcases (hall n hn).2 with h | h
    · exact absurd hk h
    · exact h c hc

/-- The hypotheses of the C92 theorems are met by a program with nested modes, an alias, a dependent
argument with a separator, a flag with short-form expansion and a positional argument. -/
example : compiles .default 100 defaultRules safeRoot = true ∧ Conventional safeRoot :=
  ⟨by decide +kernel, conventional_of_test (by decide +kernel)⟩

/-- The outcome is an exception of another type. -/
def isForeign {α : Type} : Out α → Bool
  | .foreign => true
  | _ => false

namespace AcceptedEx

def wideArg : Node := mkArg 3 3 CompileEx.wordType [.longName (b "name"), .valueSeparator (b "é")]
def wideMode : Node := mkMode 2 2 [.router] [wideArg]
def wideTree : Node := mkRoot 1 1 [wideMode]

end AcceptedEx

open AcceptedEx

/-- C92 is false in full: a program with a separator of two bytes compiles, but does not do what the
reading of `--©` says, namely that the argument is unknown. -/
theorem C92_false : compiles .default 100 defaultRules wideTree = true ∧
    ∀ v, ProgramReading .default wideTree [] [⟨.none, b "--©"⟩] v →
      parseArgs .default wideTree [b "--©"] .fresh ≠
        verdictOutcome .default wideTree v .fresh := by
  refine ⟨by decide +kernel, fun v hv he => ?_⟩
  have hforeign : isForeign (parseArgs .default wideTree [b "--©"] .fresh).1 = true := by
    decide +kernel
  have hunknown : isForeign (verdictOutcome .default wideTree
      (.answer (.reads wideMode (.unknown ⟨.none, b "--©"⟩) [])) .fresh).1 = false := by
    decide +kernel
  have hunknown' : isForeign (verdictOutcome .default wideTree
      (.unknown ⟨.none, b "--©"⟩) .fresh).1 = false := by decide +kernel
  -- the argument claims nothing, because of its separator
  have hclaims : ∀ mode sofar t rest cl, ¬ Claims .default mode sofar wideArg t rest cl := by
    rintro mode sofar t rest cl ⟨sh, hd, -⟩
    have hin : Policy.valueSeparator (b "é") ∈ sh.policies := hd.policies.mem_iff.1
      (List.mem_filter.2 ⟨by simp [wideArg, mkArg, addCount, Node.policies], rfl⟩)
    have hlen : (b "é").length = 2 := by decide +kernel
    simp [Shape.policies] at hin
    obtain ⟨x, -, hx⟩ := hin
    rw [← hx] at hlen
    cases hlen
  have hwants : ∀ used t rest, ∀ a ∈ arguments wideMode,
      ¬ Wants .default wideMode [] used t rest a := by
    intro used t rest a ha h
    have : a.2 = wideArg := by
      have : arguments wideMode = [(0, wideArg)] := rfl
      rw [this] at ha
      simp only [List.mem_cons, List.not_mem_nil, or_false] at ha
      rw [ha]
    obtain ⟨⟨cl, hcl⟩, -⟩ := h
    rw [this] at hcl
    exact hclaims _ _ _ _ _ hcl
  have hresp : ∀ a, Responds .default wideTree [] wideMode [⟨.none, b "--©"⟩] a →
      a = .reads wideMode (.unknown ⟨.none, b "--©"⟩) [] := by
    intro a ha
    generalize hl : [(⟨.none, b "--©"⟩ : Token)] = l at ha
    cases ha with
    | argument h => obtain ⟨sh, hd, -⟩ := h; exact absurd rfl hd.leaf.1
    | leftover h => obtain ⟨sh, hd, -⟩ := h; exact absurd rfl hd.leaf.1
    | refused h => obtain ⟨sh, hd, -⟩ := h; exact absurd rfl hd.leaf.1
    | path h =>
      have : NamedMode wideMode := by
        cases h with
        | here hm _ => exact hm
        | down hm _ _ _ _ _ => exact hm
      exact absurd this.named (by decide)
    | anonymous hk ha hr =>
      have hno : ∀ a, ¬ First .default wideMode [] [] ⟨.none, b "--©"⟩ [] a := by
        rintro a ⟨before, after, h1, -, h2⟩
        exact hwants _ _ _ a (by rw [h1]; simp) h2
      cases hr with
      | done => cases hl
      | take hf => cases hl; exact absurd hf (hno _)
      | clash hf => cases hl; exact absurd hf (hno _)
      | again hf => cases hl; exact absurd hf (hno _)
      | refused hf => cases hl; exact absurd hf (hno _)
      | unhandled hn hu => exact absurd (hu 0 (by decide)) (by simp)
      | unknown hn hu => cases hl; rfl
  have hroot : wideTree.children = [wideMode] := rfl
  cases hv with
  | @child before after c a h1 h2 h3 =>
    rw [hroot] at h1
    have hc : c = wideMode := by
      cases before with
      | nil => simp at h1; exact h1.1.symm
      | cons x xs => simp at h1
    subst hc
    rw [hresp _ h3] at he
    rw [he] at hforeign
    rw [hforeign] at hunknown
    cases hunknown
  | nothing h1 h2 =>
    have := h2 ⟨.none, b "--©"⟩ rfl
    exact absurd this (by decide)
  | @unknown t h1 h2 h3 =>
    cases h2
    rw [he, hunknown'] at hforeign
    cases hforeign

end Props

end ArgRouter
