import Verif.Props.Redeclared
import Verif.Props.Compile
import Verif.Props.Examples

/-!
# C109 – the order of policies and the compiler
-/

namespace ArgRouter

namespace Props

open Spec

variable {σ : Nat → Nat}

theorem zip_countP {α β : Type} {R : α → β → Prop} {f : α → Bool} {g : β → Bool}
    (hf : ∀ a b, R a b → f a = g b) {l : List α} {m : List β} (h : Zip R l m) :
    l.countP f = m.countP g := by
  induction h with
  | nil => rfl
  | cons hab _ ih => rw [List.countP_cons, List.countP_cons, hf _ _ hab, ih]

theorem zip_findIdx {α β : Type} {R : α → β → Prop} {f : α → Bool} {g : β → Bool}
    (hf : ∀ a b, R a b → f a = g b) {l : List α} {m : List β} (h : Zip R l m) :
    l.findIdx f = m.findIdx g := by
  induction h with
  | nil => rfl
  | cons hab _ ih => rw [List.findIdx_cons, List.findIdx_cons, hf _ _ hab, ih]

theorem zip_all {α β : Type} {R : α → β → Prop} {f : α → Bool} {g : β → Bool}
    (hf : ∀ a b, R a b → f a = g b) {l : List α} {m : List β} (h : Zip R l m) :
    l.all f = m.all g := by
  induction h with
  | nil => rfl
  | cons hab _ ih => rw [List.all_cons, List.all_cons, hf _ _ hab, ih]

theorem zip_take {α β : Type} {R : α → β → Prop} {l : List α} {m : List β} (h : Zip R l m) (k : Nat) :
    Zip R (l.take k) (m.take k) := by
  induction h generalizing k with
  | nil => simp only [List.take_nil]; exact .nil
  | cons hab _ ih =>
    cases k with
    | zero => exact .nil
    | succ k => exact .cons hab (ih k)

theorem zip_get {α β : Type} {R : α → β → Prop} {l : List α} {m : List β} (h : Zip R l m) (k : Nat) :
    OptRel R l[k]? m[k]? := by
  induction h generalizing k with
  | nil => simp only [List.getElem?_nil]; exact .none
  | cons hab _ ih =>
    cases k with
    | zero => exact .some hab
    | succ k => simp only [List.getElem?_cons_succ]; exact ih k

theorem zip_last {α β : Type} {R : α → β → Prop} {l : List α} {m : List β} (h : Zip R l m) :
    OptRel R l.getLast? m.getLast? := by
  rw [List.getLast?_eq_getElem?, List.getLast?_eq_getElem?, zip_length h]
  exact zip_get h _

/-! ## What the compiler looks at in a node -/

section
variable {n n' : Node} (h : Alike AnyOrder σ n n')
include h

theorem reordered_any (f : Policy → Bool) : n'.policies.any f = n.policies.any f :=
  h.policies.same.any_eq.symm

theorem reordered_all (f : Policy → Bool) : n'.policies.all f = n.policies.all f :=
  h.policies.same.all_eq.symm

theorem reordered_has (k : PKind) : n'.has k = n.has k := reordered_any h _

theorem reordered_countKind (k : PKind) : n'.countKind k = n.countKind k :=
  (h.policies.same.countP_eq _).symm

theorem reordered_atMostOne (f : Policy → Bool) : n'.atMostOne f = n.atMostOne f := by
  simp only [Node.atMostOne, h.policies.same.countP_eq]

theorem reordered_noPhase (fs : List (Policy → Bool)) : n'.noPhase fs = n.noPhase fs := by
  simp only [Node.noPhase, reordered_any h]

theorem reordered_description : n'.hasDescription = n.hasDescription := reordered_any h _

theorem reordered_isListLike : n'.isListLike = n.isListLike := by
  simp only [Node.isListLike, ← h.facts.count, h.isMultiStage, ← h.facts.marker]

theorem reordered_links (k : LinkKind) : n'.links k = n.links k := by
  refine (h.sets.findSome (by intro x hx; cases x <;> simp [SetAside] at hx <;> rfl) ?_).symm
  intro x y h1 h2
  cases x <;> simp at h1 <;> cases y <;> simp at h2 <;> simp_all [Policy.kindNo]

theorem reordered_anonMode (modes : List Kind) : n'.isAnonMode modes = n.isAnonMode modes := by
  simp only [Node.isAnonMode, h.kind, h.isAnonymous]

end

theorem hash_lists (hσ : ∀ a b, σ a = σ b → a = b) {ps qs vs ws : List Node}
    (h : Zip (Alike AnyOrder σ) ps qs) (h' : Zip (Alike AnyOrder σ) vs ws) :
    (qs.map Node.hash == ws.map Node.hash) = (ps.map Node.hash == vs.map Node.hash) := by
  induction h generalizing vs ws with
  | nil => cases h' <;> rfl
  | cons hab _ ih =>
    cases h' with
    | nil => rfl
    | cons hcd h' =>
      simp only [List.map_cons, List.cons_beq_cons, beq_hash hσ hab hcd, ih h']

/-! ## The walk of the validator -/

/-- The same policy, or nodes declared in different ways. -/
inductive ItemRel (σ : Nat → Nat) : Item → Item → Prop where
  | node {n n'} : Alike AnyOrder σ n n' → ItemRel σ (.node n) (.node n')
  | policy (p) : ItemRel σ (.policy p) (.policy p)

mutual
theorem typeWalk_all {F F' : Visit → Bool} {skip skip' : Item → List Node → Bool}
    (hF : ∀ i j ps qs, ItemRel σ i j → Zip (Alike AnyOrder σ) ps qs → F (i, ps) = F' (j, qs))
    (hs : ∀ i j ps qs, ItemRel σ i j → Zip (Alike AnyOrder σ) ps qs → skip i ps = skip' j qs) :
    ∀ (n : Node) {n' : Node} {ps qs : List Node}, Alike AnyOrder σ n n' →
    Zip (Alike AnyOrder σ) ps qs → (typeWalk skip ps n).all F = (typeWalk skip' qs n').all F'
  | .mk k u h v p cs, n', ps, qs, hr, hz => by
    have hr' := hr
    cases hr with
    | mk hp hc =>
      rename_i q ds
      rw [typeWalk, typeWalk, hs _ _ _ _ (.node hr') hz]
      split
      · rfl
      · have hz' := Zip.cons hr' hz
        have h1 : ((p.filter fun q => !skip (.policy q) (.mk k u h v p cs :: ps)).map fun q =>
              ((.policy q, .mk k u h v p cs :: ps) : Visit)).all F =
            ((q.filter fun x => !skip' (.policy x) (.mk k u (σ h) v q ds :: qs)).map fun x =>
              ((.policy x, .mk k u (σ h) v q ds :: qs) : Visit)).all F' := by
          rw [List.all_map, List.all_map, (hp.same.filter _).all_eq]
          have e1 : (q.filter fun x => !skip (.policy x) (.mk k u h v p cs :: ps)) =
              q.filter fun x => !skip' (.policy x) (.mk k u (σ h) v q ds :: qs) :=
            List.filter_congr fun x _ => by rw [hs _ _ _ _ (.policy x) hz']
          rw [e1]
          congr 1
          funext x
          exact hF _ _ _ _ (.policy x) hz'
        simp only [List.all_append, List.all_cons, hF _ _ _ _ (.node hr') hz, h1, List.cons_append,
          typeWalkList_all hF hs cs hc hz']
theorem typeWalkList_all {F F' : Visit → Bool} {skip skip' : Item → List Node → Bool}
    (hF : ∀ i j ps qs, ItemRel σ i j → Zip (Alike AnyOrder σ) ps qs → F (i, ps) = F' (j, qs))
    (hs : ∀ i j ps qs, ItemRel σ i j → Zip (Alike AnyOrder σ) ps qs → skip i ps = skip' j qs) :
    ∀ (cs : List Node) {ds : List Node} {ps qs : List Node}, AlikeAll AnyOrder σ cs ds →
    Zip (Alike AnyOrder σ) ps qs → (typeWalkList skip ps cs).all F = (typeWalkList skip' qs ds).all F'
  | [], ds, ps, qs, hr, hz => by
    cases hr
    rw [typeWalkList, typeWalkList]
    rfl
  | c :: cs, ds, ps, qs, hr, hz => by
    cases hr with
    | cons h1 h2 =>
      rw [typeWalkList, typeWalkList, List.all_append, List.all_append, typeWalk_all hF hs c h1 hz,
        typeWalkList_all hF hs cs h2 hz]
end

theorem sameType_same (hσ : ∀ a b, σ a = σ b → a = b) {i i' j j' : Item} (hi : ItemRel σ i i')
    (hj : ItemRel σ j j') : i'.sameType j' = i.sameType j := by
  cases hi with
  | node hi => cases hj with
    | node hj => exact beq_hash hσ hi hj
    | policy p => rfl
  | policy p => cases hj <;> rfl

theorem pathToMode_rel (modes : List Kind) {ps qs : List Node} (hz : Zip (Alike AnyOrder σ) ps qs) :
    Zip (Alike AnyOrder σ) (pathToMode modes ps) (pathToMode modes qs) := by
  unfold pathToMode
  rw [zip_length hz, zip_findIdx (f := fun n : Node => modes.contains n.kind)
    (g := fun n : Node => modes.contains n.kind) (fun a b h => by rw [h.kind]) hz]
  exact zip_take hz _

theorem nodesAtEnd_same (kinds : List Kind) {cs ds : List Node} (hz : Zip (Alike AnyOrder σ) cs ds) :
    nodesAtEndCheck kinds ds = nodesAtEndCheck kinds cs := by
  unfold nodesAtEndCheck
  rw [zip_map_eq (f := fun c : Node => kinds.contains c.kind) (g := fun c : Node => kinds.contains c.kind)
    (fun a b h => by rw [h.kind]) hz]

theorem holds_same (hσ : ∀ a b, σ a = σ b → a = b) {i j : Item} (hi : ItemRel σ i j)
    {ps qs : List Node} (hz : Zip (Alike AnyOrder σ) ps qs) (c : Condition) :
    c.holds j qs = c.holds i ps := by
  cases c with
  | uniqueInOwner =>
    cases hz with
    | nil => rfl
    | cons h _ => cases hi with
      | node _ => rfl
      | policy p => simp only [Condition.holds, reordered_countKind h]
  | uniqueToMode modes =>
    simp only [Condition.holds, zip_length hz]
    have hp := pathToMode_rel modes hz
    have hl := zip_last hp
    revert hl
    generalize (pathToMode modes ps).getLast? = o
    generalize (pathToMode modes qs).getLast? = o'
    intro hl
    cases hl with
    | none => rfl
    | some hl =>
      rename_i a a'
      simp only
      congr 1
      refine (typeWalk_all (σ := σ) ?_ ?_ a hl .nil).symm
      · intro i j ps qs h1 h2
        simp only [noClash, hash_lists hσ hp h2, sameType_same hσ hi h1]
      · intro i j ps qs h1 h2
        cases h1 with
        | policy p => rfl
        | node h =>
          rename_i x x'
          simp only [skipOtherModes, h.kind, h.hash, hl.hash]
          by_cases e : x.hash = a.hash
          · rw [if_pos e, if_pos (by rw [e])]
          · rw [if_neg e, if_neg fun e' => e (hσ _ _ e')]
  | parentTypes pairs =>
    simp only [Condition.holds]
    congr 1
    funext x
    obtain ⟨k, kind⟩ := x
    have hl := zip_get hz k
    simp only
    revert hl
    generalize ps[k]? = o
    generalize qs[k]? = o'
    intro hl
    cases hl with
    | none => rfl
    | some hl => simp only [hl.kind]
  | mustHave ks => cases hi with
    | policy p => rfl
    | node h => simp only [Condition.holds, reordered_has h, funext (reordered_has h)]
  | mustNotHave ks => cases hi with
    | policy p => rfl
    | node h => simp only [Condition.holds, reordered_has h]
  | childMustHave k => cases hi with
    | policy p => rfl
    | node h =>
      simp only [Condition.holds]
      exact (zip_all (fun a b (h : Alike AnyOrder σ a b) => (reordered_has h k).symm) h.children).symm
  | childMustNotHave k => cases hi with
    | policy p => rfl
    | node h =>
      simp only [Condition.holds, zip_length h.children,
        zip_all (fun a b (h : Alike AnyOrder σ a b) => (reordered_has h k).symm) h.children]
  | parentMustNotHave k => cases hi with
    | node h => cases hz <;> rfl
    | policy p => cases hz with
      | nil => rfl
      | cons h _ => simp only [Condition.holds, reordered_has h]
  | singleAnonymousMode modes => cases hi with
    | policy p => rfl
    | node h =>
      simp only [Condition.holds,
        zip_countP (fun a b (h : Alike AnyOrder σ a b) => (reordered_anonMode h modes).symm) h.children]
  | atLeastOneOf ks => cases hi with
    | policy p => rfl
    | node h => simp only [Condition.holds, funext (reordered_has h)]
  | nodesAtEnd kinds => cases hi with
    | policy p => rfl
    | node h => simp only [Condition.holds, nodesAtEnd_same kinds h.children]
  | anonymousAtEnd modes => cases hi with
    | policy p => rfl
    | node h =>
      simp only [Condition.holds, nodesAtEnd_same modes h.children,
        zip_any (fun a b (h : Alike AnyOrder σ a b) => (reordered_anonMode h modes).symm) h.children]
  | fixedCountUnlessLast => cases hi with
    | policy p => rfl
    | node h =>
      simp only [Condition.holds, fixedCountCheck, zip_length h.children,
        zip_countP (fun a b (h : Alike AnyOrder σ a b) => (reordered_isListLike h).symm) h.children,
        zip_findIdx (fun a b (h : Alike AnyOrder σ a b) => (reordered_isListLike h).symm) h.children]
  | minOneIfRequired => cases hi with
    | policy p => rfl
    | node h =>
      simp only [Condition.holds, Node.isRequired, reordered_has h, Node.minCount, h.facts.count]

theorem checkItem_same (hσ : ∀ a b, σ a = σ b → a = b) (rules : List Rule) {i j : Item}
    (hi : ItemRel σ i j) {ps qs : List Node} (hz : Zip (Alike AnyOrder σ) ps qs) :
    checkItem rules (j, qs) = checkItem rules (i, ps) := by
  unfold checkItem
  have hk : (fun r : Rule => r.key.matches j) = fun r => r.key.matches i := by
    funext r
    cases hi with
    | policy p => rfl
    | node h => cases r.key <;> simp only [RuleKey.matches, h.kind]
  simp only [hk]
  cases rules.find? fun r => r.key.matches i with
  | none => rfl
  | some r =>
    simp only
    congr 1
    funext c
    exact holds_same hσ hi hz c

/-! ## The assertions -/

theorem nodup_hash (hσ : ∀ a b, σ a = σ b → a = b) {l m : List Node}
    (h : Zip (Alike AnyOrder σ) l m) : (m.map Node.hash).Nodup ↔ (l.map Node.hash).Nodup := by
  have e : m.map Node.hash = (l.map Node.hash).map σ := by
    rw [List.map_map]
    exact (zip_map_eq (fun a b h => h.hash.symm) h).symm
  rw [e]
  unfold List.Nodup
  rw [List.pairwise_map]
  constructor
  · exact fun h => h.imp fun hab e => hab (by rw [e])
  · exact fun h => h.imp fun hab e => hab (hσ _ _ e)

theorem linkTargets_rel (hσ : ∀ a b, σ a = σ b → a = b) {mode mode' : Node}
    (h : Alike AnyOrder σ mode mode') (refs : List NameRef) :
    OptRel (Zip (Alike AnyOrder σ)) (linkTargets mode refs) (linkTargets mode' refs) := by
  have ho := owners_redeclared refs mode h
  unfold linkTargets
  rw [zip_length ho]
  by_cases hn : ((mode.owners refs).map Node.hash).Nodup
  · by_cases hl : (mode'.owners refs).length = refs.length
    · rw [if_pos ⟨hl, hn⟩, if_pos ⟨hl, (nodup_hash hσ ho).2 hn⟩]
      exact .some ho
    · rw [if_neg (fun x => hl x.1), if_neg (fun x => hl x.1)]
      exact .none
  · rw [if_neg (fun x => hn x.2), if_neg (fun x => hn ((nodup_hash hσ ho).1 x.2))]
    exact .none

theorem cyclic_same (hσ : ∀ a b, σ a = σ b → a = b) (k : LinkKind) {mode mode' : Node}
    (h : Alike AnyOrder σ mode mode') (self : List NameRef) (fuel : Nat) {l m : List Node}
    (hz : Zip (Alike AnyOrder σ) l m) :
    cyclicCheck k mode' self fuel m = cyclicCheck k mode self fuel l := by
  induction fuel generalizing l m with
  | zero => rfl
  | succ fuel ih =>
    cases hz with
    | nil => rfl
    | cons h1 h2 =>
      simp only [cyclicCheck, reordered_links h1]
      split
      · exact ih h2
      · rename_i refs _
        split
        · rfl
        · have hl := linkTargets_rel hσ h refs
          revert hl
          generalize linkTargets mode refs = o
          generalize linkTargets mode' refs = o'
          intro hl
          cases hl with
          | none => rfl
          | some hl => exact ih (zip_append h2 hl)

theorem linkCheck_same (hσ : ∀ a b, σ a = σ b → a = b) (fuel : Nat) (k : LinkKind)
    {mode mode' : Node} (h : Alike AnyOrder σ mode mode') (self : List NameRef) :
    linkCheck fuel k mode' self = linkCheck fuel k mode self := by
  unfold linkCheck
  have hl := linkTargets_rel hσ h self
  revert hl
  generalize linkTargets mode self = o
  generalize linkTargets mode' self = o'
  intro hl
  cases hl with
  | none => rfl
  | some hl => exact cyclic_same hσ k h self fuel hl

theorem fixedCountOf_same {n n' : Node} (h : Alike AnyOrder σ n n') :
    fixedCountOf n' = fixedCountOf n := by
  simp only [fixedCountOf, h.facts.count]

theorem aliasCheck_same (hσ : ∀ a b, σ a = σ b → a = b) (fuel : Nat) {mode mode' n n' : Node}
    (h : Alike AnyOrder σ mode mode') (hn : Alike AnyOrder σ n n') (self : List NameRef) :
    aliasCheck fuel mode' n' self = aliasCheck fuel mode n self := by
  unfold aliasCheck
  rw [fixedCountOf_same hn]
  have hl := linkTargets_rel hσ h self
  revert hl
  generalize linkTargets mode self = o
  generalize linkTargets mode' self = o'
  intro hl
  cases fixedCountOf n with
  | none => cases hl <;> rfl
  | some count =>
    cases hl with
    | none => rfl
    | some hl =>
      simp only [cyclic_same hσ .alias h self fuel hl,
        zip_all (f := fun t => fixedCountOf t == some count) (g := fun t => fixedCountOf t == some count)
          (fun a b (h : Alike AnyOrder σ a b) => by rw [fixedCountOf_same h]) hl]

theorem nearest_reordered {l m : List Node} (h : Zip (Alike AnyOrder σ) l m) :
    OptRel (Alike AnyOrder σ) (nearestModeLike l) (nearestModeLike m) :=
  zip_find (fun _ _ h => h.facts.router) h

theorem ownerAsserts_same (hσ : ∀ a b, σ a = σ b → a = b) (cfg : Config) (depth : Nat) {n n' : Node}
    (h : Alike AnyOrder σ n n') {ps qs : List Node} (hz : Zip (Alike AnyOrder σ) ps qs) (p : Policy) :
    ownerAsserts cfg depth n' qs p = ownerAsserts cfg depth n ps p := by
  cases p with
  | shortFormExpander => simp only [ownerAsserts, h.facts.short]
  | valueSeparator s => simp only [ownerAsserts, Node.countIs, h.facts.count]
  | tokenEndMarker s => simp only [ownerAsserts, ← h.facts.count, h.isMultiStage]
  | runtimeEnable e => simp only [ownerAsserts, Node.isRequired, reordered_has h]
  | runtimeEnableRequired e v => simp only [ownerAsserts, Node.isRequired, reordered_has h]
  | alias refs =>
    simp only [ownerAsserts, reordered_noPhase h]
    have hm := nearest_reordered (Zip.cons h hz)
    revert hm
    generalize nearestModeLike (n :: ps) = o
    generalize nearestModeLike (n' :: qs) = o'
    intro hm
    cases hm with
    | none => rfl
    | some hm => simp only [aliasCheck_same hσ depth hm h]
  | dependent refs =>
    simp only [ownerAsserts]
    have hm := nearest_reordered hz
    revert hm
    generalize nearestModeLike ps = o
    generalize nearestModeLike qs = o'
    intro hm
    cases hm with
    | none => rfl
    | some hm => simp only [linkCheck_same hσ depth .dependent hm]
  | _ => rfl

theorem classAsserts_same {n n' : Node} (h : Alike AnyOrder σ n n') {ps qs : List Node}
    (hz : Zip (Alike AnyOrder σ) ps qs) : classAsserts n' qs = classAsserts n ps := by
  have hf := h.facts
  have hc := h.children
  have e1 : n'.children.all (fun c => !(c.isMultiStage && !c.hasNoResult &&
      c.policies.any Policy.hasValidationPhase)) = n.children.all (fun c => !(c.isMultiStage &&
      !c.hasNoResult && c.policies.any Policy.hasValidationPhase)) :=
    (zip_all (fun a b h => by rw [h.isMultiStage, h.hasNoResult, reordered_any h]) hc).symm
  have e2 : n'.children.all (fun c => !c.isMultiStage) = n.children.all fun c => !c.isMultiStage :=
    (zip_all (fun a b h => by rw [h.isMultiStage]) hc).symm
  have e3 : n'.children.all (fun c => c.kind != .mode) = n.children.all fun c => c.kind != .mode :=
    (zip_all (fun a b h => by rw [h.kind]) hc).symm
  have e4 : n'.children.all (fun c => c.kind == .mode || !c.hasRouter) =
      n.children.all fun c => c.kind == .mode || !c.hasRouter :=
    (zip_all (fun a b h => by rw [h.kind, h.facts.router]) hc).symm
  have e5 : n'.children.all (fun c => c.kind == .mode) = n.children.all fun c => c.kind == .mode :=
    (zip_all (fun a b h => by rw [h.kind]) hc).symm
  have e6 : n'.children.all (fun c => c.hasNoResult || c.hasRouter) =
      n.children.all fun c => c.hasNoResult || c.hasRouter :=
    (zip_all (fun a b h => by rw [h.hasNoResult, h.facts.router]) hc).symm
  have e7 : n'.children.any (fun c => !c.hasNoResult) = n.children.any fun c => !c.hasNoResult :=
    (zip_any (fun a b h => by rw [h.hasNoResult]) hc).symm
  simp only [classAsserts, basicOneOfAsserts, multiArgBaseAsserts, h.kind, ← hf.isNamed, ← hf.long,
    ← hf.short, ← hf.none, ← hf.display, ← hf.error, ← hf.count, ← hf.router, Node.hasLabel,
    Node.countIs, h.isAnonymous, reordered_noPhase h, reordered_description h, reordered_has h,
    reordered_any h, ← zip_isEmpty hc, ← zip_length hc, ← zip_isEmpty hz, ← zip_length hz, e1, e2, e3,
    e4, e5, e6, e7]

theorem classPolicies_same {n n' : Node} (h : Alike AnyOrder σ n n') :
    classPolicies n' = classPolicies n := by
  have hf := h.facts
  simp only [classPolicies, h.kind, ← hf.none, ← hf.display, ← hf.error, ← hf.count, Node.countIs,
    h.isMultiStage, reordered_has h]

theorem nodeAsserts_same (hσ : ∀ a b, σ a = σ b → a = b) (cfg : Config) (depth : Nat) {n n' : Node}
    (h : Alike AnyOrder σ n n') {ps qs : List Node} (hz : Zip (Alike AnyOrder σ) ps qs) :
    nodeAsserts cfg depth n' qs = nodeAsserts cfg depth n ps := by
  simp only [nodeAsserts, classPolicies_same h, classAsserts_same h hz, reordered_atMostOne h, h.kind,
    reordered_all h, ownerAsserts_same hσ cfg depth h hz]

/-- C109: whether a program compiles does not depend on the order of the policies of its nodes, with any
validator. `σ` renames the types: types that are the same stay the same, and different ones different. -/
theorem C109_compiles (hσ : ∀ a b, σ a = σ b → a = b) (cfg : Config) (depth : Nat) (rules : List Rule)
    (root root' : Node) (h : Alike AnyOrder σ root root') :
    compiles cfg depth rules root' = compiles cfg depth rules root := by
  have hw := walk_redeclared root h .nil
  have e1 : validate rules root' = validate rules root :=
    (typeWalk_all (σ := σ) (fun i j ps qs h1 h2 => (checkItem_same hσ rules h1 h2).symm)
      (fun _ _ _ _ _ _ => rfl) root h .nil).symm
  have e2 : ((root'.walk []).all fun (n, parents) => nodeAsserts cfg depth n parents) =
      (root.walk []).all fun (n, parents) => nodeAsserts cfg depth n parents :=
    (zip_all (fun a b h => (nodeAsserts_same hσ cfg depth h.1 h.2).symm) hw).symm
  have e3 : helpAsserts root' = helpAsserts root := by
    unfold helpAsserts
    rw [zip_any (f := fun n : Node => n.kind == .help) (g := fun n => n.kind == .help)
        (fun a b h => by rw [h.kind]) h.nodes]
    congr 1
    exact (zip_all (fun a b (h : Alike AnyOrder σ a b) => (reordered_all h _).symm) h.nodes).symm
  simp only [compiles, h.kind, e1, e2, e3]

/-! ## Programs that compile -/

mutual
theorem alike_of {P P' : List Policy → List Policy → Prop} {Q : List Policy → Prop}
    (hQ : ∀ p q, Q p → P p q → P' p q) : ∀ (n : Node) {n' : Node},
    (∀ x ∈ n.nodes, Q x.policies) → Alike P σ n n' → Alike P' σ n n'
  | .mk k u h v p cs, n', hn, hr => by
    cases hr with
    | mk hp hc =>
      refine .mk (hQ _ _ (hn _ (self_mem_nodes _)) hp) (alikeAll_of hQ cs ?_ hc)
      exact fun c hc x hx => hn x (child_mem_nodes hc x hx)
theorem alikeAll_of {P P' : List Policy → List Policy → Prop} {Q : List Policy → Prop}
    (hQ : ∀ p q, Q p → P p q → P' p q) : ∀ (cs : List Node) {ds : List Node},
    (∀ c ∈ cs, ∀ x ∈ c.nodes, Q x.policies) → AlikeAll P σ cs ds → AlikeAll P' σ cs ds
  | [], ds, _, hr => by cases hr; exact .nil
  | c :: cs, ds, hn, hr => by
    cases hr with
    | cons h1 h2 =>
      exact .cons (alike_of hQ c (hn c List.mem_cons_self) h1)
        (alikeAll_of hQ cs (fun d hd => hn d (List.mem_cons_of_mem _ hd)) h2)
end

set_option maxHeartbeats 4000000 in
theorem kind_of_kindNo {x y : Policy} (h : x.kindNo = y.kindNo)
    (hx : ∀ e e' v, x = .runtimeEnable e → y ≠ .runtimeEnableRequired e' v)
    (hy : ∀ e e' v, y = .runtimeEnable e → x ≠ .runtimeEnableRequired e' v) : x.kind = y.kind := by
  cases x <;> cases y <;> simp only [Policy.kindNo] at h <;> first
    | rfl
    | omega
    | exact absurd rfl (hx _ _ _ rfl)
    | exact absurd rfl (hy _ _ _ rfl)
    | (obtain rfl : _ = _ := by omega
       rfl)
    | (rename_i a c
       have : a = c := by omega
       subst this
       rfl)
    | (rename_i a _ c _
       have : a = c := by omega
       subst this
       rfl)

theorem compiled_once {cfg : Config} {root : Node}
    (hc : ∃ depth, compiles cfg depth defaultRules root = true) {n : Node} (hn : n ∈ root.nodes)
    (hs : ∀ e e' v, .runtimeEnable e ∈ n.policies → .runtimeEnableRequired e' v ∉ n.policies) :
    (n.policies.map Policy.kindNo).Nodup := by
  obtain ⟨depth, hc⟩ := hc
  obtain ⟨-, hacc, -⟩ := compiles_iff_parts hc
  obtain ⟨p, hp⟩ := mem_nodes.1 hn
  unfold List.Nodup
  rw [List.pairwise_map, List.pairwise_iff_getElem]
  intro i j hi hj hij he
  have hk := kind_of_kindNo he
    (fun e e' v h1 h2 => hs e e' v (h1 ▸ List.getElem_mem hi) (h2 ▸ List.getElem_mem hj))
    (fun e e' v h1 h2 => hs e e' v (h1 ▸ List.getElem_mem hj) (h2 ▸ List.getElem_mem hi))
  have := C74_unique_policies hacc hp (List.getElem?_eq_getElem hi) (List.getElem?_eq_getElem hj) hk
  omega

/-- C109 for every program that compiles: shuffle the policies of its nodes (those that check values or stand
in for them keep their order; no node has both `runtime_enable` and `runtime_enable_required`). It still
compiles, and on every command line and after every past it does what it did. -/
theorem C109_compiled (hσ : ∀ a b, σ a = σ b → a = b) (cfg : Config) (root root' : Node)
    (hc : ∃ depth, compiles cfg depth defaultRules root = true)
    (hs : ∀ n ∈ root.nodes, ∀ e e' v, .runtimeEnable e ∈ n.policies →
      .runtimeEnableRequired e' v ∉ n.policies)
    (h : Alike Shuffled σ root root') :
    (∃ depth, compiles cfg depth defaultRules root' = true) ∧
    ∀ args s s', SamePast σ s s' →
      (parseArgs cfg root' args s').1 = (parseArgs cfg root args s).1 ∧
      (parseArgs cfg root' args s').2.calls = (parseArgs cfg root args s).2.calls ∧
      SamePast σ (parseArgs cfg root args s).2 (parseArgs cfg root' args s').2 := by
  have hon : ∀ x ∈ root.nodes, (x.policies.map Policy.kindNo).Nodup :=
    fun x hx => compiled_once hc hx (hs x hx)
  have h1 : Alike AnyOrder σ root root' :=
    alike_of (Q := fun p => (p.map Policy.kindNo).Nodup) (fun p q hQ hP => ⟨hQ, hP.same⟩) root hon h
  have h2 : Redeclared σ root root' :=
    alike_of (Q := fun p => (p.map Policy.kindNo).Nodup) (fun p q hQ hP =>
      ⟨⟨hQ.sublist (List.Sublist.map _ List.filter_sublist), hP.same.filter _⟩, hP.checks⟩) root hon h
  obtain ⟨depth, hc⟩ := hc
  exact ⟨⟨depth, by rw [C109_compiles hσ cfg depth defaultRules root root' h1]; exact hc⟩,
    fun args s s' hp => C109_program hσ cfg root root' h2 args s s' hp⟩

theorem shuffled_turned (p : List Policy) :
    Shuffled p ((p.filter fun x => !ChecksOrStandsIn x).reverse ++ p.filter ChecksOrStandsIn) := by
  refine ⟨?_, ?_⟩
  · refine List.Perm.trans ?_ ((List.reverse_perm _).symm.append_right _)
    exact ((List.filter_append_perm ChecksOrStandsIn p).symm).trans List.perm_append_comm
  · rw [List.filter_append, List.filter_reverse, List.filter_filter, List.filter_filter]
    simp

mutual
theorem alike_turned : ∀ (n : Node), Alike Shuffled (· + 100) n (turnedRound n)
  | .mk k u h v p cs => by
    rw [turnedRound]
    exact .mk (shuffled_turned p) (alikeAll_turned cs)
theorem alikeAll_turned : ∀ (cs : List Node), AlikeAll Shuffled (· + 100) cs (turnedAll cs)
  | [] => by rw [turnedAll]; exact .nil
  | c :: cs => by
    rw [turnedAll]
    exact .cons (alike_turned c) (alikeAll_turned cs)
end

/-- The hypotheses are met by the program basic_cat with the policies of every node turned round. -/
example :
    (∃ depth, compiles .default depth defaultRules
      (exProgram Examples.basicCatFormat 80 Examples.basicCat) = true) ∧
    (∀ n ∈ (exProgram Examples.basicCatFormat 80 Examples.basicCat).nodes,
      ∀ e e' v, .runtimeEnable e ∈ n.policies →
      .runtimeEnableRequired e' v ∉ n.policies) ∧
    Alike Shuffled (· + 100) (exProgram Examples.basicCatFormat 80 Examples.basicCat)
      (turnedRound (exProgram Examples.basicCatFormat 80 Examples.basicCat)) := by
  refine ⟨⟨100, C87_compiles (Examples.basicCatFormat, Examples.basicCat) (by simp [examplePrograms]) 80⟩, ?_,
    alike_turned _⟩
  intro n hn e e' v h1 h2
  have : (exProgram Examples.basicCatFormat 80 Examples.basicCat).nodes.all
      (fun n => !n.has .runtimeEnable) = true := by decide +kernel
  have := List.all_eq_true.1 this n hn
  have hm := has_of_mem (n := n) (q := .runtimeEnable e) h1
  simp only [Policy.kind] at hm
  rw [hm] at this
  cases this

/-- C109: the types have to stay as equal and as different as they were. Two flags with the same name go
unnoticed while they are of the same type (C67); with the policies of one of them in another order they are
not, and the program does not compile. -/
theorem C109_types : ∃ p q : Policy,
    compiles .default 100 defaultRules (mkRoot 1 1 [mkMode 2 2 [.router]
      [mkFlag .default 3 9 [p, q], mkFlag .default 4 9 [p, q]]]) = true ∧
    compiles .default 100 defaultRules (mkRoot 1 1 [mkMode 2 2 [.router]
      [mkFlag .default 3 9 [p, q], mkFlag .default 4 10 [q, p]]]) = false :=
  ⟨.longName (b "all"), .description (b "Everything"), by decide +kernel, by decide +kernel⟩

end Props

end ArgRouter
