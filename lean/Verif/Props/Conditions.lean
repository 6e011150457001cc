import Verif.Spec.Conditions
import Verif.Props.Rules
import Verif.Props.Tree
import Verif.Props.Valid

/-!
# C99: the conditions of a validator
-/

namespace ArgRouter.Props

open Spec

theorem madeFrom_iff {q : Policy} {k : PKind} : MadeFrom q k ↔ q.kind = k := by
  constructor
  · intro h; cases h <;> rfl
  · rintro rfl
    cases q with
    | other t => rcases t with _ | _ | t <;> constructor
    | _ => constructor

theorem spelledName_iff {q : Policy} {k : PKind} {s : Bytes} :
    SpelledName q k s ↔ q.nameType = some (k, s) := by
  constructor
  · intro h; cases h <;> rfl
  · intro h
    cases q <;> simp only [Policy.nameType, Option.some.injEq, Prod.mk.injEq, reduceCtorEq] at h <;>
      obtain ⟨rfl, rfl⟩ := h <;> constructor

theorem carries_iff {n : Node} {k : PKind} : Carries n k ↔ ∃ q ∈ n.policies, q.kind = k := by
  simp only [Carries, madeFrom_iff]

theorem has_iff {n : Node} {k : PKind} : n.has k = true ↔ Carries n k := by
  rw [carries_iff]; simp [Node.has]

theorem not_has_iff {n : Node} {k : PKind} : n.has k = false ↔ ¬ Carries n k := by
  rw [← has_iff]; simp

theorem countP_le_one {α} (f : α → Bool) (l : List α) :
    l.countP f ≤ 1 ↔ ∀ (i j : Nat) (a c : α), l[i]? = some a → l[j]? = some c → f a = true →
      f c = true → i = j := by
  constructor
  · intro h i j a c ha hc h1 h2
    rcases Nat.lt_trichotomy i j with hl | he | hg
    · have := two_le_countP f l i j a c ha hc h1 h2 hl; omega
    · exact he
    · have := two_le_countP f l j i c a hc ha h2 h1 hg; omega
  · intro h
    induction l with
    | nil => simp
    | cons z l ih =>
      by_cases hz : f z = true
      · have : l.countP f = 0 := by
          rw [List.countP_eq_zero]
          intro a ha hf
          obtain ⟨i, hi⟩ := List.mem_iff_getElem?.1 ha
          have := h 0 (i + 1) z a rfl (by simpa using hi) hz hf
          omega
        rw [List.countP_cons_of_pos hz, this]; exact Nat.le_refl _
      · rw [List.countP_cons_of_neg hz]
        refine ih fun i j a c ha hc h1 h2 => ?_
        have := h (i + 1) (j + 1) a c (by simpa using ha) (by simpa using hc) h1 h2
        omega

theorem countP_eq_one {α} (f : α → Bool) (l : List α) :
    l.countP f = 1 ↔ ∃ (i : Nat) (a : α), l[i]? = some a ∧ f a = true ∧
      ∀ (j : Nat) (c : α), l[j]? = some c → f c = true → j = i := by
  constructor
  · intro h
    have hpos : 0 < l.countP f := by omega
    obtain ⟨a, ha, hf⟩ := List.countP_pos_iff.1 hpos
    obtain ⟨i, hi⟩ := List.mem_iff_getElem?.1 ha
    exact ⟨i, a, hi, hf, fun j c hj hc =>
      (countP_le_one f l).1 (by omega) j i c a hj hi hc hf⟩
  · rintro ⟨i, a, hi, hf, h⟩
    have h1 : l.countP f ≤ 1 := (countP_le_one f l).2 fun i' j a' c ha hc h1 h2 => by
      rw [h i' a' ha h1, h j c hc h2]
    have h2 : 0 < l.countP f := List.countP_pos_iff.2 ⟨a, List.mem_of_getElem? hi, hf⟩
    omega

theorem atEnd_iff {kinds : List Kind} {cs : List Node} :
    nodesAtEndCheck kinds cs = true ↔ AtEnd kinds cs := by
  constructor
  · intro h i j c d hij hc hd hck
    refine Classical.byContradiction fun hdk => ?_
    have := nodesAtEnd_spec h hc hd hck hdk
    omega
  · intro h
    unfold nodesAtEndCheck
    dsimp only
    split
    · rename_i hne
      have hlt : (cs.map fun c => kinds.contains c.kind).findIdx id <
          (cs.map fun c => kinds.contains c.kind).length :=
        Nat.lt_of_le_of_ne List.findIdx_le_length hne
      have hfirst := List.findIdx_getElem (w := hlt)
      rw [List.all_eq_true]
      intro x hx
      obtain ⟨j, hj⟩ := List.mem_iff_getElem?.1 hx
      rw [List.getElem?_drop, List.getElem?_map] at hj
      rw [List.length_map] at hlt
      simp only [List.getElem_map, id] at hfirst
      cases hd : cs[(cs.map fun c => kinds.contains c.kind).findIdx id + j]? with
      | none => rw [hd] at hj; cases hj
      | some d =>
        rw [hd] at hj
        simp only [Option.map_some, Option.some.injEq] at hj
        have := h _ _ _ d (Nat.le_add_right _ j) (List.getElem?_eq_getElem hlt) hd (by simpa using hfirst)
        rw [← hj]; simpa using this
    · rfl

theorem anonMode_iff {modes : List Kind} {n : Node} :
    Node.isAnonMode modes n = true ↔ AnonymousMode modes n := by
  simp [Node.isAnonMode, AnonymousMode, Node.isAnonymous]

theorem multiStage_iff {n : Node} : n.isMultiStage = true ↔ Carries n .multiStage := by
  rw [carries_iff]
  unfold Node.isMultiStage
  rw [List.any_eq_true]
  constructor
  · rintro ⟨q, hq, h⟩
    refine ⟨q, hq, ?_⟩
    cases q <;> simp_all [Policy.kind]
  · rintro ⟨q, hq, h⟩
    refine ⟨q, hq, ?_⟩
    cases q <;> simp_all [Policy.kind]
    rename_i t
    rcases t with _ | _ | t <;> simp_all [Policy.kind]

theorem endMarker_iff {n : Node} : n.hasTokenEndMarker = true ↔ Carries n .tokenEndMarker := by
  rw [carries_iff]
  unfold Node.hasTokenEndMarker
  rw [List.any_eq_true]
  constructor
  · rintro ⟨q, hq, h⟩
    refine ⟨q, hq, ?_⟩
    cases q <;> simp_all [Policy.kind]
  · rintro ⟨q, hq, h⟩
    refine ⟨q, hq, ?_⟩
    cases q <;> simp_all [Policy.kind]
    rename_i t
    rcases t with _ | _ | t <;> simp_all [Policy.kind]

theorem listLike_iff {n : Node} : n.isListLike = true ↔ ListLike n := by
  unfold Node.isListLike ListLike
  rw [← multiStage_iff, ← endMarker_iff]
  cases n.minMaxCount with
  | none => simp
  | some c =>
    obtain ⟨mn, mx⟩ := c
    simp only [Bool.and_eq_true, bne_iff_ne, Bool.not_eq_true', Bool.not_eq_true]
    constructor
    · rintro ⟨⟨h1, h2⟩, h3⟩
      exact ⟨⟨mn, mx, rfl, h1⟩, h2, h3⟩
    · rintro ⟨⟨a, c, h, h1⟩, h2, h3⟩
      cases h
      exact ⟨⟨h1, h2⟩, h3⟩

theorem fixedCount_iff {cs : List Node} :
    fixedCountCheck cs = true ↔
      ∀ (i : Nat) (c : Node), cs[i]? = some c → ListLike c → i + 1 = cs.length := by
  unfold fixedCountCheck
  simp only [Bool.and_eq_true, decide_eq_true_eq]
  constructor
  · rintro ⟨h1, h2⟩ i c hc hl
    have hl' := listLike_iff.2 hl
    have hpos := List.countP_pos_iff.2 ⟨c, List.mem_of_getElem? hc, hl'⟩
    rw [if_pos (by omega), beq_iff_eq] at h2
    have hlt : cs.findIdx Node.isListLike < cs.length :=
      List.findIdx_lt_length_of_exists ⟨c, List.mem_of_getElem? hc, hl'⟩
    have := (countP_le_one _ cs).1 h1 i _ c _ hc (List.getElem?_eq_getElem hlt) hl'
      List.findIdx_getElem
    omega
  · intro h
    have hle : cs.countP Node.isListLike ≤ 1 := (countP_le_one _ cs).2 fun i j a c ha hc h1 h2 => by
      have := h i a ha (listLike_iff.1 h1)
      have := h j c hc (listLike_iff.1 h2)
      omega
    refine ⟨hle, ?_⟩
    split
    · rename_i h1
      have hpos : 0 < cs.countP Node.isListLike := by omega
      obtain ⟨c, hc, hl⟩ := List.countP_pos_iff.1 hpos
      have hlt : cs.findIdx Node.isListLike < cs.length :=
        List.findIdx_lt_length_of_exists ⟨c, hc, hl⟩
      have := h _ _ (List.getElem?_eq_getElem hlt) (listLike_iff.1 List.findIdx_getElem)
      rw [beq_iff_eq]; omega
    · rfl

/-- The conditions whose check falls short of their documentation. -/
def FallsShort : Condition → Prop
  | .uniqueToMode _ => True
  | .childMustNotHave _ => True
  | _ => False

/-- C99, what holds: twelve of the fourteen conditions let a program compile exactly if the node or
policy is as the documentation of the condition says. Missing, because false: the condition that names
be unique and the condition that no child have a policy. -/
theorem C99_documented_partial {root : Node} {p : List Nat} {it : Item} {parents : List Node}
    (c : Condition) (hc : ¬ FallsShort c) :
    c.holds it parents = true ↔ Documented root p it parents c := by
  cases c with
  | uniqueToMode modes => exact absurd trivial hc
  | childMustNotHave k => exact absurd trivial hc
  | uniqueInOwner =>
    simp only [Condition.holds, Documented]
    cases parents with
    | nil => simp
    | cons owner rest =>
      simp only
      cases it with
      | node n => simp
      | policy x =>
        simp only [beq_iff_eq, Node.countKind, countP_eq_one]
        constructor
        · rintro ⟨i, q, h1, h2, h3⟩ o r e
          cases e
          exact ⟨x, x.kind, rfl, madeFrom_iff.2 rfl, i, q, h1, madeFrom_iff.2 h2,
            fun j r hj hr => h3 j r hj (madeFrom_iff.1 hr)⟩
        · intro h
          obtain ⟨y, k, e, hk, i, q, h1, h2, h3⟩ := h owner rest rfl
          cases e
          obtain rfl := madeFrom_iff.1 hk
          exact ⟨i, q, h1, madeFrom_iff.1 h2, fun j r hj hr => h3 j r hj (madeFrom_iff.2 hr)⟩
  | parentTypes pairs =>
    simp only [Condition.holds, Documented, List.any_eq_true]
    constructor
    · rintro ⟨⟨i, k⟩, h1, h2⟩
      simp only at h2
      cases hn : parents[i]? with
      | none => simp [hn] at h2
      | some n => exact ⟨i, k, n, h1, hn, by simpa [hn] using h2⟩
    · rintro ⟨i, k, n, h1, h2, h3⟩
      exact ⟨(i, k), h1, by simp [h2, h3]⟩
  | parentMustNotHave k =>
    simp only [Condition.holds, Documented]
    cases it with
    | node n => simp
    | policy x =>
      cases parents with
      | nil => simp
      | cons owner rest => simp [not_has_iff]
  | minOneIfRequired =>
    simp only [Condition.holds, Documented]
    cases it with
    | policy x => simp
    | node n =>
      simp only [Node.isRequired, Node.minCount]
      constructor
      · intro h m e hr mn mx hm
        cases e
        rw [has_iff.2 hr, hm] at h
        simpa using h
      · intro h
        cases hr : n.has .required with
        | false => rfl
        | true =>
          cases hm : n.minMaxCount with
          | none => rfl
          | some mm =>
            obtain ⟨mn, mx⟩ := mm
            simpa using h n rfl (has_iff.1 hr) mn mx hm
  | mustHave ks => cases it <;> simp [Condition.holds, Documented, has_iff]
  | mustNotHave ks => cases it <;> simp [Condition.holds, Documented, not_has_iff]
  | childMustHave k => cases it <;> simp [Condition.holds, Documented, has_iff]
  | atLeastOneOf ks => cases it <;> simp [Condition.holds, Documented, has_iff]
  | singleAnonymousMode modes =>
    cases it with
    | policy x => simp [Condition.holds, Documented]
    | node n =>
      simp only [Condition.holds, Documented, decide_eq_true_eq, countP_le_one, anonMode_iff]
      constructor
      · intro h; exact ⟨n, rfl, h⟩
      · rintro ⟨m, e, h⟩; cases e; exact h
  | nodesAtEnd kinds =>
    cases it with
    | policy x => simp [Condition.holds, Documented]
    | node n =>
      simp only [Condition.holds, Documented, atEnd_iff]
      constructor
      · intro h; exact ⟨n, rfl, h⟩
      · rintro ⟨m, e, h⟩; cases e; exact h
  | anonymousAtEnd modes =>
    cases it with
    | policy x => simp [Condition.holds, Documented]
    | node n =>
      simp only [Condition.holds, Documented]
      constructor
      · intro h
        refine ⟨n, rfl, ?_⟩
        rintro ⟨d, hd, ha⟩
        rw [if_pos (List.any_eq_true.2 ⟨d, hd, anonMode_iff.2 ha⟩)] at h
        exact atEnd_iff.1 h
      · rintro ⟨m, e, h⟩
        cases e
        split
        · rename_i ha
          obtain ⟨d, hd, ha⟩ := List.any_eq_true.1 ha
          exact atEnd_iff.2 (h ⟨d, hd, anonMode_iff.1 ha⟩)
        · rfl
  | fixedCountUnlessLast =>
    cases it with
    | policy x => simp [Condition.holds, Documented]
    | node n =>
      simp only [Condition.holds, Documented, fixedCount_iff]
      constructor
      · intro h; exact ⟨n, rfl, h⟩
      · rintro ⟨m, e, h⟩; cases e; exact h

/-- C99, what holds of the condition that no child have a policy: it rejects a node exactly if *all*
its children, of which there is at least one, have the policy. -/
theorem C99_child_partial (k : PKind) (n : Node) (parents : List Node) :
    (Condition.childMustNotHave k).holds (.node n) parents = true ↔
      n.children = [] ∨ ∃ c ∈ n.children, ¬ Carries c k := by
  simp only [Condition.holds]
  split
  · rename_i h
    have hne : n.children ≠ [] := List.length_pos_iff.1 h
    simp only [Bool.not_eq_true', hne, false_or]
    rw [← Bool.not_eq_true, List.all_eq_true]
    constructor
    · intro h
      refine Classical.byContradiction fun hn => h fun c hc => ?_
      refine has_iff.2 (Classical.byContradiction fun hk => hn ⟨c, hc, hk⟩)
    · rintro ⟨c, hc, hk⟩ h
      exact hk (has_iff.1 (h c hc))
  · rename_i h
    have : n.children = [] := List.length_eq_zero_iff.1 (by omega)
    simp [this]

/-! ## Uniqueness of names -/

theorem mem_walk_skip {skip : Item → List Node → Bool} (hs : ∀ q ps, skip (.policy q) ps = false)
    {root : Node} {it : Item} {ps : List Node} :
    (it, ps) ∈ typeWalk skip [] root ↔ ∃ q, Occurs root q it ps ∧ Reach skip [] root q := by
  constructor
  · intro h
    rw [typeWalk_eq, List.mem_flatMap] at h
    obtain ⟨p, hp, h⟩ := h
    have hr := ((mem_posns skip root [] p).1 hp).2
    unfold visitsAt at h
    cases hn : nodeAt root p with
    | none => simp [hn] at h
    | some n =>
      simp only [hn, List.append_nil, List.mem_cons, List.mem_map, List.mem_filter,
        Prod.mk.injEq] at h
      rcases h with ⟨rfl, rfl⟩ | ⟨q, ⟨hq, _⟩, rfl, rfl⟩
      · exact ⟨p, .node hn, hr⟩
      · exact ⟨p, .policy hn hq, hr⟩
  · rintro ⟨q, h, hr⟩
    cases h with
    | node hn => exact mem_typeWalk_node hn hr
    | policy hn hq => exact mem_typeWalk_policy hn hr hq (hs _ _)

theorem sameSpace_iff {modes : List Kind} {m : Node} {q : List Nat} (hq : IsPosition m q) :
    Reach (skipOtherModes modes m) [] m q ↔ SameSpace modes m q := by
  rw [reach_iff _ _ _ _ hq]
  simp only [List.append_nil, skipOtherModes]
  constructor
  · intro h k n hk hn
    refine Classical.byContradiction fun hc => h ⟨k, n, hk, hn, ?_⟩
    rw [not_or] at hc
    rw [if_neg hc.1]
    simpa using hc.2
  · rintro h ⟨k, n, hk, hn, hs⟩
    rcases h k n hk hn with h | h
    · rw [if_pos h] at hs; cases hs
    · split at hs
      · cases hs
      · exact h (by simpa using hs)

theorem sameType_iff {x y : Item} : x.sameType y = true ↔ SameType x y := by
  constructor
  · intro h
    cases x with
    | node n =>
      cases y with
      | node m => exact .node (by simpa [Item.sameType] using h)
      | policy y => simp [Item.sameType] at h
    | policy x =>
      cases y with
      | node m => simp [Item.sameType] at h
      | policy y =>
        simp only [Item.sameType] at h
        cases hx : x.nameType with
        | none => simp [hx] at h
        | some s =>
          cases hy : y.nameType with
          | none => simp [hx, hy] at h
          | some t =>
            simp only [hx, hy, beq_iff_eq] at h
            subst h
            exact .policy (spelledName_iff.2 hx) (spelledName_iff.2 hy)
  · intro h
    cases h with
    | node h => simp [Item.sameType, h]
    | policy h1 h2 => simp [Item.sameType, spelledName_iff.1 h1, spelledName_iff.1 h2]

/-- The parents of an item with more than one parent (or of a policy) start with the node at its
parent's position. -/
theorem parents_eq {root : Node} {p : List Nat} {it : Item} {parents : List Node}
    (h : Occurs root p it parents) (hl : parents ≠ []) :
    ∃ a, nodeAt root (parentPosition p it) = some a ∧
      parents = a :: lineage root (parentPosition p it) := by
  cases h with
  | policy hn hq => exact ⟨_, hn, rfl⟩
  | @node n hn =>
    simp only [parentPosition]
    have hp : p ≠ [] := by rintro rfl; exact hl rfl
    have hsplit := List.dropLast_concat_getLast hp
    rw [← hsplit, nodeAt_append] at hn
    cases ha : nodeAt root p.dropLast with
    | none => simp [ha] at hn
    | some a =>
      rw [ha] at hn
      refine ⟨a, rfl, ?_⟩
      rw [← hsplit, lineage_append p.dropLast [p.getLast hp] root a ha (by simp_all)]
      simp only [Option.bind_some, nodeAt] at hn
      simp only [lineage, List.dropLast_concat]
      cases hc : a.children[p.getLast hp]? with
      | none => simp [hc] at hn
      | some c => simp

/-- C99, what holds of the condition that names be unique: an item that is not directly below the root
is rejected exactly if, up to the nearest mode or the root and outside other modes, there is an item of
the same type that is not reached through a chain of nodes of the same types. -/
theorem C99_unique_partial {root m a : Node} {p pm r : List Nat} {it : Item} {parents : List Node}
    {modes : List Kind} (hit : Occurs root p it parents) (hlen : 1 < parents.length)
    (hp : pm ++ r = parentPosition p it) (hm : NearestMode modes root pm r m)
    (ha : nodeAt m r = some a) :
    (Condition.uniqueToMode modes).holds it parents = true ↔
      ∀ q y above, Occurs m q y above → SameSpace modes m q → SameType it y →
        (a :: lineage m r).map Node.hash = above.map Node.hash := by
  obtain ⟨a', ha', hpar⟩ := parents_eq hit (by rintro rfl; simp at hlen)
  have haa : a' = a := by
    rw [← hp, nodeAt_append, hm.at_] at ha'
    simp only [Option.bind_some] at ha'
    rw [ha] at ha'
    exact (Option.some.inj ha').symm
  subst haa
  have hpath : pathToMode modes (a' :: lineage root (pm ++ r)) = a' :: lineage m r := by
    refine pathToMode_eq hm.at_ ha (hm.top.imp (fun h => by simpa using h) id) ?_
    intro y hy
    obtain ⟨k, h0, hk, e⟩ := mem_path_dropLast r m a' y ha hy
    simpa using hm.nearest k y h0 hk e
  simp only [Condition.holds, hlen, if_true]
  rw [hpar, ← hp, hpath, path_getLast r m a' ha]
  simp only [List.all_eq_true]
  have hpol : ∀ q ps, skipOtherModes modes m (.policy q) ps = false := fun _ _ => rfl
  constructor
  · intro h q y above hy hs ht
    have hpos : IsPosition m q := by cases hy <;> exact ⟨_, by assumption⟩
    have := h (y, above) ((mem_walk_skip hpol).2 ⟨q, hy, (sameSpace_iff hpos).2 hs⟩)
    simpa [noClash, sameType_iff.2 ht] using this
  · rintro h ⟨y, above⟩ hv
    obtain ⟨q, hy, hr⟩ := (mem_walk_skip hpol).1 hv
    have hpos : IsPosition m q := by cases hy <;> exact ⟨_, by assumption⟩
    simp only [noClash, Bool.or_eq_true, beq_iff_eq, Bool.not_eq_true']
    cases ht : it.sameType y with
    | false => exact Or.inr rfl
    | true => exact Or.inl (h q y above hy ((sameSpace_iff hpos).1 hr) (sameType_iff.1 ht))

/-- There is a nearest mode, or the root. -/
theorem nearest_exists (modes : List Kind) (root : Node) (p : List Nat) (hp : IsPosition root p) :
    ∃ pm r m, pm ++ r = p ∧ NearestMode modes root pm r m := by
  have key : ∀ k, k ≤ p.length →
      (∀ j n, k < j → j ≤ p.length → nodeAt root (p.take j) = some n → n.kind ∉ modes) →
      ∃ pm r m, pm ++ r = p ∧ NearestMode modes root pm r m := by
    intro k
    induction k with
    | zero =>
      intro _ h
      refine ⟨[], p, root, rfl, rfl, Or.inr rfl, ?_⟩
      intro j n h0 hj hn
      exact h j n h0 hj hn
    | succ k ih =>
      intro hk h
      obtain ⟨z, hz⟩ := hp
      rw [← List.take_append_drop (k + 1) p, nodeAt_append] at hz
      cases hm : nodeAt root (p.take (k + 1)) with
      | none => simp [hm] at hz
      | some m =>
        by_cases hmode : m.kind ∈ modes
        · refine ⟨p.take (k + 1), p.drop (k + 1), m, List.take_append_drop _ _, hm, Or.inl hmode, ?_⟩
          intro j n h0 hj hn
          rw [List.length_drop] at hj
          refine h (k + 1 + j) n (by omega) (by omega) ?_
          have : p.take (k + 1 + j) = p.take (k + 1) ++ (p.drop (k + 1)).take j := List.take_add
          rw [this, nodeAt_append, hm]
          exact hn
        · refine ih (by omega) fun j n hj hl hn => ?_
          by_cases e : j = k + 1
          · subst e
            rw [hm] at hn
            cases hn
            exact hmode
          · exact h j n (by omega) hl hn
  exact key p.length (Nat.le_refl _) fun j n h1 h2 => by omega

/-- What satisfies the documentation of a condition is never rejected by it. -/
theorem C99_not_rejected {root : Node} {p : List Nat} {it : Item} {parents : List Node}
    (c : Condition) (hit : Occurs root p it parents) (h : Documented root p it parents c) :
    c.holds it parents = true := by
  by_cases hc : FallsShort c
  · cases c with
    | uniqueToMode modes =>
      by_cases hlen : 1 < parents.length
      · obtain ⟨a, ha, hpar⟩ := parents_eq hit (by rintro rfl; simp at hlen)
        obtain ⟨pm, r, m, hp, hm⟩ := nearest_exists modes root (parentPosition p it) ⟨a, ha⟩
        have ha' : nodeAt m r = some a := by
          rw [← hp, nodeAt_append, hm.at_] at ha
          exact ha
        refine (C99_unique_partial hit hlen hp hm ha').2 fun q y above hy hs ht => ?_
        have hq := h pm r m hp hm q y above hy hs ht
        cases ht with
        | @policy x y t h1 h2 =>
          simp only [parentPosition] at hp
          rw [← hp] at hq
          have hqr := List.append_cancel_left hq
          subst hqr
          cases hy with
          | policy hn hmem =>
            rw [ha'] at hn
            cases hn
            rfl
        | @node n n' hh =>
          simp only [parentPosition] at hp
          cases hy with
          | node hn =>
            have hne : p ≠ [] := by
              rintro rfl
              cases hit
              simp [lineage] at hlen
            have hsplit := List.dropLast_concat_getLast hne
            have hqr : q = r ++ [p.getLast hne] := by
              apply List.append_cancel_left (as := pm)
              rw [hq, ← List.append_assoc, hp, hsplit]
            subst hqr
            rw [nodeAt_append, ha'] at hn
            simp only [Option.bind_some, nodeAt] at hn
            rw [lineage_append r [p.getLast hne] m a ha' (by simp [nodeAt, hn])]
            cases hcc : a.children[p.getLast hne]? with
            | none => simp [hcc] at hn
            | some c => simp [lineage, hcc]
      · simp only [Condition.holds]
        rw [if_neg hlen]
    | childMustNotHave k =>
      obtain ⟨n, rfl, h⟩ := h
      rw [C99_child_partial]
      cases hcs : n.children with
      | nil => exact Or.inl rfl
      | cons c cs => exact Or.inr ⟨c, by simp, h c (by simp [hcs])⟩
    | _ => exact absurd hc id
  · exact (C99_documented_partial c hc).2 h

/-- A program compiles if for everything in its tree there is a rule, and the first such rule has only
conditions that are met as documented, whatever the rules of the validator are. -/
theorem C99_compiles (rules : List Rule) (root : Node)
    (h : ∀ p it parents, Occurs root p it parents → ∃ i r, FirstRule rules it i r ∧
      ∀ c ∈ r.conditions, Documented root p it parents c) :
    validate rules root = true := by
  rw [C71_validate]
  intro p n hn
  refine ⟨?_, fun q hq => ?_⟩
  · obtain ⟨i, r, hr, hc⟩ := h p _ _ (.node hn)
    exact (C71_first_match _ _ _).2 ⟨i, r, hr, fun c hm => C99_not_rejected c (.node hn) (hc c hm)⟩
  · obtain ⟨i, r, hr, hc⟩ := h p _ _ (.policy hn hq)
    exact (C71_first_match _ _ _).2
      ⟨i, r, hr, fun c hm => C99_not_rejected c (.policy hn hq) (hc c hm)⟩

/-- And with rules that use none of the two conditions that fall short, only then. -/
theorem C99_rejected_partial (rules : List Rule) (root : Node)
    (hf : ∀ r ∈ rules, ∀ c ∈ r.conditions, ¬ FallsShort c) :
    validate rules root = true ↔
      ∀ p it parents, Occurs root p it parents → ∃ i r, FirstRule rules it i r ∧
        ∀ c ∈ r.conditions, Documented root p it parents c := by
  refine ⟨fun h p it parents ho => ?_, C99_compiles rules root⟩
  rw [C71_validate] at h
  have hchk : checkItem rules (it, parents) = true := by
    cases ho with
    | node hn => exact (h p _ hn).1
    | policy hn hq => exact (h p _ hn).2 _ hq
  obtain ⟨i, r, hr, hc⟩ := (C71_first_match _ _ _).1 hchk
  exact ⟨i, r, hr, fun c hm => (C99_documented_partial c
    (hf r (List.mem_of_getElem? hr.1) c hm)).1 (hc c hm)⟩

open ValidEx

/-- C99 as stated is false of two conditions. A flag written twice is accepted as having a name that is
unique in its mode, and a `one_of` with a required alternative as having none. -/
theorem C99_false :
    (∃ it parents, Occurs twice [0, 0] it parents ∧
      (Condition.uniqueToMode [.mode]).holds it parents = true ∧
      ¬ Documented twice [0, 0] it parents (.uniqueToMode [.mode])) ∧
    (∃ it parents, Occurs mixed [0, 0] it parents ∧
      (Condition.childMustNotHave .required).holds it parents = true ∧
      ¬ Documented mixed [0, 0] it parents (.childMustNotHave .required)) := by
  constructor
  · refine ⟨_, _, .policy (q := .longName (b "ab")) rfl (by simp [Node.policies, flag]),
      by decide +kernel, fun h => ?_⟩
    have hn : nodeAt twice [0] = some (mode 1 [] [flag 2 [.longName (b "ab")], flag 2 [.longName (b "ab")]]) := rfl
    have := h [0] [0] _ rfl ⟨hn, Or.inl (by decide), ?_⟩ [1] _ _
      (.policy (q := .longName (b "ab")) rfl (by simp [Node.policies, flag])) ?_ (.policy .long .long)
    · exact absurd this (by decide)
    · intro k n h0 hk hk'
      have : k = 1 := by simp at hk; omega
      subst this
      cases hk'
      decide
    · intro k n hk hk'
      have : k = 0 ∨ k = 1 := by simp at hk; omega
      rcases this with rfl | rfl
      · cases hk'; exact Or.inl rfl
      · cases hk'; exact Or.inr (by decide)
  · refine ⟨_, _, .node rfl, by decide +kernel, ?_⟩
    rintro ⟨n, e, h⟩
    cases e
    exact h (arg 3 [.longName (b "ab"), .required]) (by simp [Node.children])
      ⟨.required, by simp [Node.policies, arg], .required⟩

/-- A validator of a user's own: names are unique in their owner and a mode has a router, a child, and
takes nothing behind a list. -/
def ownRules : List Rule := [
  ⟨.isPolicy, [.uniqueInOwner]⟩,
  ⟨.anyOf [.node .mode], [.mustHave [.router], .fixedCountUnlessLast, .parentTypes [(0, .root)]]⟩,
  ⟨.anyOf [.node .root, .node .flag, .node .arg, .node .positional], []⟩]

/-- It meets the hypothesis of `C99_rejected_partial`, accepts one tree and rejects another. -/
example : (∀ r ∈ ownRules, ∀ c ∈ r.conditions, ¬ FallsShort c) ∧ validate ownRules good = true ∧
    validate ownRules (root [mode 1 [] [pos 2 0 5 [], flag 3 [.longName (b "ab")]]]) = false := by
  refine ⟨?_, by decide +kernel, by decide +kernel⟩
  intro r hr c hc
  simp only [ownRules, List.mem_cons, List.not_mem_nil, or_false] at hr
  rcases hr with rfl | rfl | rfl <;> simp at hc
  · subst hc; exact id
  · rcases hc with rfl | rfl | rfl <;> exact id

/-- A condition for nodes rejects policies: the program does not compile. -/
example (c : Policy) (ps : List Node) : (Condition.anonymousAtEnd [.mode]).holds (.policy c) ps = false :=
  rfl

/-- The hypotheses of `C99_unique_partial` are met by the name of the second argument of a mode, which is
found to be unique, and by that of a flag that has a namesake. -/
example : (∃ it parents, Occurs good [0, 1] it parents ∧ 1 < parents.length ∧
      (Condition.uniqueToMode [.mode]).holds it parents = true) ∧
    ∃ it parents, Occurs (root [mode 1 [] [flag 2 [.longName (b "ab")], arg 3 [.longName (b "ab")]]])
      [0, 0] it parents ∧ 1 < parents.length ∧
      (Condition.uniqueToMode [.mode]).holds it parents = false :=
  ⟨⟨_, _, .policy (q := .longName (b "cd")) rfl (by simp [Node.policies, arg]), by decide,
    by decide +kernel⟩,
   ⟨_, _, .policy (q := .longName (b "ab")) rfl (by simp [Node.policies, flag]), by decide,
    by decide +kernel⟩⟩

end ArgRouter.Props
