import Verif.Lemmas.Redeclared
import Verif.Examples.Programs
import Verif.Lemmas.ModeLoop

/-!
# C109 – a whole program declared in another way
-/

namespace ArgRouter

namespace Props

open Spec

variable {σ : Nat → Nat} {P : List Policy → List Policy → Prop} [Sets P]

/-- Targets of related nodes with the same tokens. -/
def LeafRel (P : List Policy → List Policy → Prop) (σ : Nat → Nat) (l l' : Leaf) : Prop :=
  Alike P σ l.node l'.node ∧ l.tokens = l'.tokens

/-- The same with sub-targets. -/
structure TargetRel (P : List Policy → List Policy → Prop) (σ : Nat → Nat) (t t' : Target) :
    Prop where
  node : Alike P σ t.node t'.node
  tokens : t.tokens = t'.tokens
  subs : Zip (LeafRel P σ) t.subs t'.subs

/-- Results of matching: related targets, and the same tokens left. -/
def MatchRel (P : List Policy → List Policy → Prop) (σ : Nat → Nat) (x y : Target × List Token) :
    Prop := TargetRel P σ x.1 y.1 ∧ x.2 = y.2

/-- Results of the phases. -/
def PhaseRel (P : List Policy → List Policy → Prop) (σ : Nat → Nat)
    (x y : PreResult × Adapter × List Leaf) : Prop :=
  x.1 = y.1 ∧ x.2.1 = y.2.1 ∧ Zip (LeafRel P σ) x.2.2 y.2.2

/-- Validators that do not tell related nodes apart. -/
def ValRel (P : List Policy → List Policy → Prop) (σ : Nat → Nat) (v v' : Validator) : Prop :=
  ∀ c c', Alike P σ c c' → RelM σ (· = ·) (v c) (v' c')

theorem beq_hash (hσ : ∀ a b, σ a = σ b → a = b) {P : List Policy → List Policy → Prop}
    {a a' c c' : Node} (ha : Alike P σ a a') (hc : Alike P σ c c') : (a'.hash == c'.hash) = (a.hash == c.hash) := by
  rw [ha.hash, hc.hash]
  by_cases h : a.hash = c.hash
  · simp [h]
  · rw [beq_eq_false_iff_ne.2 h, beq_eq_false_iff_ne.2 fun e => h (hσ _ _ e)]

theorem keep_subs {o : Out (PreResult × Adapter)} {subs subs' : List Leaf}
    (hs : Zip (LeafRel P σ) subs subs') :
    RelOut (PhaseRel P σ) (o >>= fun x => (pure (x.1, x.2, subs) : Out (PreResult × Adapter × List Leaf)))
      (o >>= fun x => pure (x.1, x.2, subs')) := by
  cases o <;> simp [RelOut, PhaseRel, hs]

theorem nearest_rel {l m : List Node} (h : Zip (Alike P σ) l m) :
    OptRel (Alike P σ) (nearestModeLike l) (nearestModeLike m) :=
  zip_find (fun _ _ h => h.facts.router) h

theorem dependent_same (hσ : ∀ a b, σ a = σ b → a = b) {parents parents' : List Node}
    {processed processed' : Option Target} (hps : Zip (Alike P σ) parents parents')
    (ht : OptRel (TargetRel P σ) processed processed') (refs : List NameRef) (a : Adapter) :
    dependentPhase parents' processed' refs a = dependentPhase parents processed refs a := by
  unfold dependentPhase
  have hm := nearest_rel hps
  revert hm
  generalize nearestModeLike parents = o
  generalize nearestModeLike parents' = o'
  intro hm
  cases hm with
  | none => rfl
  | some hm =>
    rename_i mode mode'
    cases ht with
    | none => rfl
    | some ht =>
      rename_i t t'
      have hf := zip_find (f := fun n =>
          !(t.node.hash == n.hash || t.subs.any fun s => s.node.hash == n.hash))
        (g := fun n => !(t'.node.hash == n.hash || t'.subs.any fun s => s.node.hash == n.hash))
        (fun x y hxy => by
          rw [beq_hash hσ ht.node hxy, zip_any (fun l l' hl => (beq_hash hσ hl.1 hxy).symm) ht.subs])
        (owners_redeclared refs mode hm)
      simp only
      revert hf
      generalize (mode.owners refs).find? _ = o
      generalize (mode'.owners refs).find? _ = o'
      intro hf
      cases hf with
      | none => rfl
      | some h => simp only [h.facts.tokenType]

theorem alias_rel {n n' : Node} (h : Alike P σ n n') (cfg : Config) {parents parents' : List Node}
    (hps : Zip (Alike P σ) parents parents') (refs : List NameRef) (a : Adapter)
    {subs subs' : List Leaf} (hs : Zip (LeafRel P σ) subs subs') :
    RelOut (PhaseRel P σ) (aliasPhase cfg n parents refs a subs)
      (aliasPhase cfg n' parents' refs a subs') := by
  unfold aliasPhase
  rw [← h.facts.count]
  have hm := nearest_rel (Zip.cons h hps)
  revert hm
  generalize nearestModeLike (n :: parents) = o
  generalize nearestModeLike (n' :: parents') = o'
  intro hm
  cases n.minMaxCount with
  | none => cases hm <;> trivial
  | some c =>
    cases hm with
    | none => trivial
    | some hm =>
      rename_i mode mode'
      simp only [← h.facts.tokenType, ← h.facts.matchToken, ← h.facts.getToken]
      split
      · exact ⟨rfl, rfl, hs⟩
      · cases a.deref Adapter.begin_ with
        | ok label =>
          simp only [Out.ok_bind]
          generalize (if label.pre == .none then n.getToken cfg label.name else label) = lb
          split
          · exact ⟨rfl, rfl, hs⟩
          · refine ⟨rfl, rfl, zip_append hs (zip_map (fun x y hxy => ⟨hxy, rfl⟩) (zip_filter ?_ hm.nodes))⟩
            exact fun x y hxy => hxy.nameRefs.any_eq
        | throw e => exact rfl
        | foreign => trivial
        | ub => trivial
        | diverge => trivial

theorem phase_rel (hσ : ∀ a b, σ a = σ b → a = b) {n n' : Node} (h : Alike P σ n n') (cfg : Config)
    {parents parents' : List Node} (hps : Zip (Alike P σ) parents parents')
    {processed processed' : Option Target} (ht : OptRel (TargetRel P σ) processed processed')
    (p : Policy) (a : Adapter) {subs subs' : List Leaf} (hs : Zip (LeafRel P σ) subs subs') :
    RelOut (PhaseRel P σ) (p.phase cfg n parents processed a subs)
      (p.phase cfg n' parents' processed' a subs') := by
  have hf := h.facts
  cases p with
  | valueSeparator s =>
    simp only [Policy.phase, valueSeparatorPhase, ← hf.matchToken, ← hf.tokenType]
    exact keep_subs hs
  | shortFormExpander =>
    simp only [Policy.phase, shortFormExpanderPhase, ← hf.getToken, ← hf.short]
    exact keep_subs hs
  | tokenEndMarker m =>
    simp only [Policy.phase, tokenEndMarkerPhase, ← hf.isNamed]
    exact keep_subs hs
  | minMaxCount mn mx =>
    simp only [Policy.phase, minMaxCountPhase, ← hf.isNamed, ← hf.marker, ← hf.tokenType]
    exact ⟨rfl, rfl, hs⟩
  | alias refs => exact alias_rel h cfg hps refs a hs
  | dependent refs =>
    simp only [Policy.phase, dependent_same hσ hps ht]
    exact keep_subs hs
  | _ => exact ⟨rfl, rfl, hs⟩

theorem runPhases_rel (hσ : ∀ a b, σ a = σ b → a = b) {n n' : Node} (h : Alike P σ n n')
    (cfg : Config) {parents parents' : List Node} (hps : Zip (Alike P σ) parents parents')
    {processed processed' : Option Target} (ht : OptRel (TargetRel P σ) processed processed')
    (ps : List Policy) (m : PreResult) (a : Adapter) {subs subs' : List Leaf}
    (hs : Zip (LeafRel P σ) subs subs') :
    RelOut (PhaseRel P σ) (runPhases cfg n parents processed ps m a subs)
      (runPhases cfg n' parents' processed' ps m a subs') := by
  induction ps generalizing m a subs subs' with
  | nil => exact ⟨rfl, rfl, hs⟩
  | cons p ps ih =>
    simp only [runPhases]
    split
    · split
      · exact ⟨rfl, rfl, hs⟩
      · exact ⟨rfl, rfl, hs⟩
      · refine RelOut.bind (phase_rel hσ h cfg hps ht p a hs) ?_
        rintro ⟨m1, a1, s1⟩ ⟨m2, a2, s2⟩ ⟨e1, e2, hz⟩
        simp only at e1 e2 hz
        subst e1
        subst e2
        exact ih _ _ hz
    · exact ih _ _ hs

theorem leaf_rel (hσ : ∀ a b, σ a = σ b → a = b) {n n' : Node} (h : Alike P σ n n') (cfg : Config)
    {parents parents' : List Node} (hps : Zip (Alike P σ) parents parents')
    {processed processed' : Option Target} (ht : OptRel (TargetRel P σ) processed processed')
    (args : List Token) {v v' : Validator} (hv : ValRel P σ v v') :
    RelM σ (OptRel (MatchRel P σ)) (leafPreParse cfg n parents args processed v)
      (leafPreParse cfg n' parents' args processed' v') := by
  rw [leafPreParse_eq, leafPreParse_eq, h.phases]
  refine RelM.bind (RelM.lift (runPhases_rel hσ h cfg hps ht n.phases _ _ .nil)) ?_
  rintro ⟨m, a, s1⟩ ⟨m2, a2, s2⟩ ⟨e1, e2, hz⟩
  simp only at e1 e2 hz
  subst e1
  subst e2
  simp only [leafTail, ← h.facts.checkLabel]
  cases checkLabel cfg n m a with
  | none => exact RelM.pure .none
  | some a' =>
    simp only
    refine RelM.bind (hv _ _ h) ?_
    rintro x _ rfl
    cases x with
    | false => exact RelM.pure .none
    | true =>
      cases m with
      | error e => exact RelM.throw e
      | ok act =>
        simp only [Bool.not_true, Bool.false_eq_true, if_false, ← h.facts.isNamed]
        exact RelM.pure (.some ⟨⟨h, rfl, hz⟩, rfl⟩)

theorem oneOf_rel (hσ : ∀ a b, σ a = σ b → a = b) {n n' : Node} (h : Alike P σ n n')
    {v v' : Validator} (hv : ValRel P σ v v') : ValRel P σ (oneOfValidator n v) (oneOfValidator n' v') := by
  intro c c' hc
  unfold oneOfValidator
  refine RelM.bind (R := fun x y => y = x.map σ) ?_ ?_
  · intro s s' hs
    refine ⟨?_, hs⟩
    show s'.lastTypeId n'.uid = (s.lastTypeId n.uid).map σ
    rw [St.lastTypeId, St.lastTypeId, hs.2, h.uid]
    induction s.sel with
    | nil => rfl
    | cons x l ih =>
      rw [List.map_cons, List.lookup_cons, List.lookup_cons]
      split
      · rfl
      · exact ih
  · rintro x _ rfl
    cases x with
    | some k =>
      simp only [Option.map_some, hc.hash, ← h.facts.tokenType]
      by_cases hk : k = c.hash
      · rw [if_neg (by simp [hk]), if_neg (by simp [hk])]
        exact hv _ _ hc
      · rw [if_pos hk, if_pos fun e => hk (hσ _ _ e)]
        exact RelM.throw _
    | none =>
      simp only [Option.map_none]
      refine RelM.bind (R := fun _ _ => True) ?_ fun _ _ _ => hv _ _ hc
      intro s s' hs
      refine ⟨trivial, hs.1, ?_⟩
      simp only [List.map_cons, hs.2, h.uid, hc.hash]

mutual
theorem preParse_rel (hσ : ∀ a b, σ a = σ b → a = b) (cfg : Config) {parents parents' : List Node}
    (hps : Zip (Alike P σ) parents parents') (args : List Token)
    {processed processed' : Option Target} (ht : OptRel (TargetRel P σ) processed processed') :
    ∀ (n : Node) {n' : Node} {v v' : Validator}, Alike P σ n n' → ValRel P σ v v' →
    RelM σ (OptRel (MatchRel P σ)) (preParse cfg parents args processed n v)
      (preParse cfg parents' args processed' n' v')
  | .mk k u h vt p cs, n', v, v', hr, hv => by
    have hr' := hr
    cases hr with
    | mk hp hc =>
      cases k with
      | aliasGroup =>
        simp only [preParse]
        exact preParseGroup_rel hσ cfg hps args ht cs hc hv
      | oneOf =>
        simp only [preParse]
        exact preParseOneOf_rel hσ cfg hps args ht cs hc (oneOf_rel hσ hr' hv)
      | _ =>
        simp only [preParse]
        exact leaf_rel hσ hr' cfg hps ht args hv
theorem preParseGroup_rel (hσ : ∀ a b, σ a = σ b → a = b) (cfg : Config)
    {parents parents' : List Node} (hps : Zip (Alike P σ) parents parents') (args : List Token)
    {processed processed' : Option Target} (ht : OptRel (TargetRel P σ) processed processed') :
    ∀ (cs : List Node) {ds : List Node} {v v' : Validator}, AlikeAll P σ cs ds → ValRel P σ v v' →
    RelM σ (OptRel (MatchRel P σ)) (preParseGroup cfg parents args processed v cs)
      (preParseGroup cfg parents' args processed' v' ds)
  | [], ds, v, v', hr, hv => by
    cases hr
    rw [preParseGroup, preParseGroup]
    exact RelM.pure .none
  | c :: cs, ds, v, v', hr, hv => by
    cases hr with
    | cons h1 h2 =>
      rw [preParseGroup, preParseGroup]
      refine RelM.bind (preParse_rel hσ cfg hps args ht c h1 hv) ?_
      intro x y hxy
      cases hxy with
      | none => exact preParseGroup_rel hσ cfg hps args ht cs h2 hv
      | some h => exact RelM.pure (.some h)
theorem preParseOneOf_rel (hσ : ∀ a b, σ a = σ b → a = b) (cfg : Config)
    {parents parents' : List Node} (hps : Zip (Alike P σ) parents parents') (args : List Token)
    {processed processed' : Option Target} (ht : OptRel (TargetRel P σ) processed processed') :
    ∀ (cs : List Node) {ds : List Node} {v v' : Validator}, AlikeAll P σ cs ds → ValRel P σ v v' →
    RelM σ (OptRel (MatchRel P σ)) (preParseOneOf cfg parents args processed v cs)
      (preParseOneOf cfg parents' args processed' v' ds)
  | [], ds, v, v', hr, hv => by
    cases hr
    rw [preParseOneOf, preParseOneOf]
    exact RelM.pure .none
  | c :: cs, ds, v, v', hr, hv => by
    cases hr with
    | cons h1 h2 =>
      rw [preParseOneOf, preParseOneOf]
      refine RelM.bind (preParse_rel hσ cfg hps args ht c h1 hv) ?_
      intro x y hxy
      cases hxy with
      | none => exact preParseOneOf_rel hσ cfg hps args ht cs h2 hv
      | some h => exact RelM.bind (hv _ _ h1) fun _ _ _ => RelM.pure (.some h)
end

theorem verifyMatch_rel (already : Bool) (front : Token) :
    ValRel P σ (verifyMatch already front) (verifyMatch already front) := by
  intro c c' h
  unfold verifyMatch
  rw [h.isMultiStage, ← h.facts.isNamed]
  split
  · exact RelM.pure rfl
  · split
    · split
      · exact RelM.throw _
      · exact RelM.pure rfl
    · exact RelM.pure rfl

theorem modeStep_rel (hσ : ∀ a b, σ a = σ b → a = b) (cfg : Config) {parents parents' : List Node}
    (hps : Zip (Alike P σ) parents parents') {t t' : Target} (ht : TargetRel P σ t t')
    (matched : List Bool) (front : Token) (args : List Token) {cs ds : List Node}
    (h : Zip (Alike P σ) cs ds) (i : Nat) :
    RelM σ (OptRel fun x y => x.1 = y.1 ∧ MatchRel P σ x.2 y.2)
      (modeStep cfg parents t matched front args cs i)
      (modeStep cfg parents' t' matched front args ds i) := by
  induction h generalizing i with
  | nil => exact RelM.pure .none
  | cons h1 _ ih =>
    simp only [modeStep, h1.kind]
    split
    · exact ih _
    · refine RelM.bind (preParse_rel hσ cfg hps args (.some ht) _ h1 (verifyMatch_rel _ _)) ?_
      intro x y hxy
      cases hxy with
      | none => exact ih _
      | some h =>
        rename_i a c
        obtain ⟨ta, la⟩ := a
        obtain ⟨tc, lc⟩ := c
        exact RelM.pure (.some ⟨rfl, h⟩)

theorem flatten_rel {t t' : Target} (ht : TargetRel P σ t t') :
    Zip (LeafRel P σ) (flattenMatch t) (flattenMatch t') := by
  unfold flattenMatch
  rw [zip_isEmpty ht.subs]
  split
  · exact .cons ⟨ht.node, ht.tokens⟩ .nil
  · exact ht.subs

theorem modeLoop_rel (hσ : ∀ a b, σ a = σ b → a = b) (cfg : Config) {n n' : Node}
    (hn : Alike P σ n n') {parents parents' : List Node}
    (hps : Zip (Alike P σ) parents parents') (fuel : Nat) {t t' : Target} (ht : TargetRel P σ t t')
    (matched : List Bool) (args : List Token) :
    RelM σ (MatchRel P σ) (modeLoop cfg n parents fuel t matched args)
      (modeLoop cfg n' parents' fuel t' matched args) := by
  induction fuel generalizing t t' matched args with
  | zero =>
    cases args with
    | nil => exact RelM.pure ⟨ht, rfl⟩
    | cons f r => exact RelM.lift (by trivial)
  | succ fuel ih =>
    cases args with
    | nil => exact RelM.pure ⟨ht, rfl⟩
    | cons f r =>
      simp only [modeLoop]
      refine RelM.bind (modeStep_rel hσ cfg (.cons hn hps) ht matched f (f :: r) hn.children 0) ?_
      intro x y hxy
      cases hxy with
      | none =>
        simp only
        split
        · exact RelM.throw _
        · rw [hn.unknown cfg f]
          refine RelM.lift ?_
          unfold unknownArgument
          cases closest cfg n f with
          | ok found => simp only [Out.ok_bind]; split <;> rfl
          | throw e => exact rfl
          | foreign => trivial
          | ub => trivial
          | diverge => trivial
      | some h =>
        rename_i a c
        obtain ⟨i, ta, la⟩ := a
        obtain ⟨j, tc, lc⟩ := c
        obtain ⟨e1, h2, e2⟩ := h
        simp only at e1 e2 h2
        subst e1
        subst e2
        have ht2 : TargetRel P σ { t with subs := t.subs ++ flattenMatch ta }
            { t' with subs := t'.subs ++ flattenMatch tc } :=
          ⟨ht.node, ht.tokens, zip_append ht.subs (flatten_rel h2)⟩
        exact ih ht2 _ _

theorem modeBody_rel (hσ : ∀ a b, σ a = σ b → a = b) (cfg : Config) {n n' : Node}
    (hn : Alike P σ n n') {parents parents' : List Node}
    (hps : Zip (Alike P σ) parents parents') (args : List Token) {v v' : Validator}
    (hv : ValRel P σ v v') :
    RelM σ (OptRel (MatchRel P σ)) (modeBody cfg n parents v args) (modeBody cfg n' parents' v' args) := by
  unfold modeBody
  refine RelM.bind (hv _ _ hn) ?_
  rintro x _ rfl
  cases x with
  | false => exact RelM.pure .none
  | true =>
    have hl : n'.children.length = n.children.length := (zip_length hn.children).symm
    simp only [Bool.not_true, Bool.false_eq_true, if_false, modeFuel, hl]
    have ht : TargetRel P σ ⟨n, [], []⟩ ⟨n', [], []⟩ := ⟨hn, rfl, .nil⟩
    refine RelM.bind (modeLoop_rel hσ cfg hn hps _ ht _ _) ?_
    intro x y hxy
    exact RelM.pure (.some hxy)

mutual
theorem preParseMode_rel (hσ : ∀ a b, σ a = σ b → a = b) (cfg : Config) {v v' : Validator}
    (hv : ValRel P σ v v') : ∀ (n : Node) {n' : Node} {parents parents' : List Node}
    (args : List Token), Alike P σ n n' → Zip (Alike P σ) parents parents' →
    RelM σ (OptRel (MatchRel P σ)) (preParseMode cfg parents args v n)
      (preParseMode cfg parents' args v' n')
  | .mk k u h vt p cs, n', parents, parents', args, hr, hps => by
    have hr' := hr
    cases hr with
    | mk hp hc =>
      rw [preParseMode, preParseMode]
      simp only [hr'.isAnonymous]
      split
      · exact modeBody_rel hσ cfg hr' hps args hv
      · refine RelM.bind (leaf_rel hσ hr' cfg hps .none args hv) ?_
        intro x y hxy
        cases hxy with
        | none => exact RelM.pure .none
        | some h =>
          rename_i a c
          obtain ⟨ta, la⟩ := a
          obtain ⟨tc, lc⟩ := c
          obtain ⟨h1, e⟩ := h
          simp only at e
          subst e
          simp only
          split
          · exact modeBody_rel hσ cfg hr' hps _ hv
          · refine RelM.bind (preParseChildModes_rel hσ cfg hv cs la hc (.cons hr' hps)) ?_
            intro x y hxy
            cases hxy with
            | none => exact modeBody_rel hσ cfg hr' hps _ hv
            | some h => exact RelM.pure (.some h)
theorem preParseChildModes_rel (hσ : ∀ a b, σ a = σ b → a = b) (cfg : Config) {v v' : Validator}
    (hv : ValRel P σ v v') : ∀ (cs : List Node) {ds : List Node} {parents parents' : List Node}
    (args : List Token), AlikeAll P σ cs ds → Zip (Alike P σ) parents parents' →
    RelM σ (OptRel (MatchRel P σ)) (preParseChildModes cfg parents args v cs)
      (preParseChildModes cfg parents' args v' ds)
  | [], ds, parents, parents', args, hr, hps => by
    cases hr
    rw [preParseChildModes, preParseChildModes]
    exact RelM.pure .none
  | .mk k u h vt p cs :: ns, ds, parents, parents', args, hr, hps => by
    cases hr with
    | cons h1 h2 =>
      have h1' := h1
      cases h1 with
      | mk hp hc =>
        rw [preParseChildModes, preParseChildModes]
        split
        · refine RelM.bind (preParseMode_rel hσ cfg hv _ args h1' hps) ?_
          intro x y hxy
          cases hxy with
          | none => exact preParseChildModes_rel hσ cfg hv ns args h2 hps
          | some h => exact RelM.pure (.some h)
        · exact preParseChildModes_rel hσ cfg hv ns args h2 hps
end

/-! ## Running the targets -/

theorem callRouter_rel {n n' : Node} (h : Alike P σ n n') (args : List Value) :
    RelM σ (fun _ _ => True) (callRouter n args) (callRouter n' args) := by
  intro s s' hs
  refine ⟨trivial, ?_, hs.2⟩
  simp only [callRouter, hs.1, h.uid]

theorem callIfRouter_rel {n n' : Node} (h : Alike P σ n n') (args : List Value) :
    RelM σ (fun _ _ => True) (callIfRouter n args) (callIfRouter n' args) := by
  unfold callIfRouter
  rw [← h.facts.router]
  split
  · exact callRouter_rel h args
  · exact RelM.pure trivial

theorem runValidation_kept (n : Node) (v : Value) (l : List Policy) :
    runValidation n v l = runValidation n v (l.filter ChecksOrStandsIn) := by
  induction l with
  | nil => rfl
  | cons p l ih =>
    rw [List.filter_cons]
    cases p <;> simp [ChecksOrStandsIn, runValidation, ih]

theorem runMissing_kept (n : Node) (l : List Policy) (r : Option Value) :
    runMissing n l r = runMissing n (l.filter ChecksOrStandsIn) r := by
  induction l generalizing r with
  | nil => rfl
  | cons p l ih =>
    rw [List.filter_cons]
    cases p <;> simp [ChecksOrStandsIn, runMissing, ih]

theorem runValidation_rel {n n' : Node} (h : Redeclared σ n n') (v : Value) :
    RelM σ (fun _ _ => True) (runValidation n v n.policies) (runValidation n' v n'.policies) := by
  rw [runValidation_kept n, runValidation_kept n', ← h.policies.checks]
  induction n.policies.filter ChecksOrStandsIn with
  | nil => exact RelM.pure trivial
  | cons p l ih =>
    cases p with
    | minMaxValue lo hi less =>
      simp only [runValidation, ← h.facts.tokenType]
      split
      · exact RelM.throw _
      · split
        · exact RelM.throw _
        · exact ih
    | validation t f =>
      simp only [runValidation]
      exact RelM.bind (RelM.lift_eq (f v)) fun _ _ _ => ih
    | _ => exact ih

theorem runMissing_rel {n n' : Node} (h : Redeclared σ n n') (r : Option Value) :
    RelM σ (· = ·) (runMissing n n.policies r) (runMissing n' n'.policies r) := by
  rw [runMissing_kept n, runMissing_kept n', ← h.policies.checks]
  induction n.policies.filter ChecksOrStandsIn generalizing r with
  | nil => exact RelM.pure rfl
  | cons p l ih =>
    cases p with
    | required =>
      simp only [runMissing, ← h.facts.tokenType]
      exact RelM.throw _
    | runtimeEnableRequired e v =>
      simp only [runMissing, ← h.facts.tokenType]
      split
      · exact RelM.throw _
      · exact ih _
    | _ => exact ih _

theorem parseValue_same {n n' : Node} (h : Alike P σ n n') (ts : List Token) :
    parseValue n' ts = parseValue n ts := by
  have hp : parseToken n' = parseToken n := by
    funext s
    unfold parseToken
    rw [h.vt, h.sets.findSome (by intro x hx; cases x <;> simp [SetAside] at hx <;> rfl)]
    intro x y h1 h2
    cases x <;> simp at h1 <;> cases y <;> simp at h2 <;> rfl
  have hl : ∀ ts, parseTokens n' ts = parseTokens n ts := by
    intro ts
    induction ts with
    | nil => rfl
    | cons t ts ih => simp only [parseTokens, hp, ih]
  simp only [parseValue, hp, hl, h.vt]

theorem helpOutput_same {n n' : Node} (h : Alike P σ n n') (ts : List Token) :
    helpOutput n' ts = helpOutput n ts := by
  unfold helpOutput
  rw [h.sets.findSome (by intro x hx; cases x <;> simp [SetAside] at hx <;> rfl)]
  intro x y h1 h2
  cases x <;> simp at h1 <;> cases y <;> simp at h2 <;> rfl

theorem parseLeaf_rel {l l' : Leaf} (h : LeafRel SamePolicies σ l l') :
    RelM σ (· = ·) (parseLeaf l) (parseLeaf l') := by
  obtain ⟨hn, ht⟩ := h
  unfold parseLeaf
  rw [hn.kind, ← ht]
  split
  · exact RelM.bind (callIfRouter_rel hn _) fun _ _ _ => RelM.pure rfl
  · exact RelM.pure rfl
  all_goals first
    | (rw [parseValue_same hn]
       refine RelM.bind (RelM.lift_eq _) ?_
       rintro v _ rfl
       refine RelM.bind (runValidation_rel hn v) fun _ _ _ => ?_
       exact RelM.bind (callIfRouter_rel hn _) fun _ _ _ => RelM.pure rfl)
    | (rw [helpOutput_same hn]
       refine RelM.bind (RelM.lift_eq _) ?_
       rintro v _ rfl
       exact RelM.bind (callRouter_rel hn _) fun _ _ _ => RelM.pure rfl)
    | exact RelM.lift (by trivial)

theorem findChild_rel (hσ : ∀ a b, σ a = σ b → a = b) {l l' : Node} (hl : Alike P σ l l')
    {cs ds : List Node} (h : Zip (Alike P σ) cs ds) (i : Nat) :
    OptRel (fun x y => x.1 = y.1 ∧ Alike P σ x.2.1 y.2.1 ∧ Alike P σ x.2.2 y.2.2)
      (findChild l.hash cs i) (findChild l'.hash ds i) := by
  induction h generalizing i with
  | nil => exact .none
  | cons h1 _ ih =>
    rename_i c d _ _ _
    simp only [findChild]
    have hm : OptRel (Alike P σ) (matchChild l.hash c) (matchChild l'.hash d) :=
      zip_find (fun x y hxy => by rw [hxy.kind, hxy.hasParse, beq_hash hσ hxy hl]) h1.nodes
    revert hm
    generalize matchChild l.hash c = o
    generalize matchChild l'.hash d = o'
    intro hm
    cases hm with
    | none => exact ih _
    | some hm => exact .some ⟨rfl, h1, hm⟩

theorem processResult_rel {child child' sub sub' : Node} (hc : Alike P σ child child')
    (hs : Alike P σ sub sub') (rs : List (Option Value)) (i : Nat) (v : Value) :
    RelM σ (· = ·) (processResult rs i child sub v) (processResult rs i child' sub' v) := by
  have hm : mergeValue sub' = mergeValue sub := by
    funext old v
    unfold mergeValue
    rw [hs.sets.findSome (by intro x hx; cases x <;> simp [SetAside] at hx <;> rfl)]
    intro x y h1 h2
    cases x <;> simp at h1 <;> cases y <;> simp at h2 <;> rfl
  unfold processResult
  simp only [hc.hasNoResult, hs.isMultiStage, hm, ← hs.facts.tokenType]
  split
  · exact RelM.pure rfl
  · split
    · exact RelM.pure rfl
    · split
      · exact RelM.throw _
      · exact RelM.pure rfl

theorem processSubs_rel (hσ : ∀ a b, σ a = σ b → a = b) {cs ds : List Node}
    (h : Zip (Redeclared σ) cs ds) {ls ls' : List Leaf} (hl : Zip (LeafRel SamePolicies σ) ls ls')
    (rs : List (Option Value)) :
    RelM σ (· = ·) (processSubs cs ls rs) (processSubs ds ls' rs) := by
  induction hl generalizing rs with
  | nil => exact RelM.pure rfl
  | cons h1 _ ih =>
    simp only [processSubs]
    refine RelM.bind (parseLeaf_rel h1) ?_
    rintro x _ rfl
    cases x with
    | none => exact ih _
    | some v =>
      simp only
      have hf := findChild_rel hσ h1.1 h 0
      revert hf
      generalize findChild _ cs 0 = o
      generalize findChild _ ds 0 = o'
      intro hf
      cases hf with
      | none => exact ih _
      | some hf =>
        rename_i a c
        obtain ⟨i, ca, sa⟩ := a
        obtain ⟨j, cc, sc⟩ := c
        obtain ⟨e, h2, h3⟩ := hf
        simp only at e
        subst e
        refine RelM.bind (processResult_rel h2 h3 rs i v) ?_
        rintro x _ rfl
        exact ih _

theorem fillMissing_rel {cs ds : List Node} (h : Zip (Redeclared σ) cs ds) (rs : List (Option Value)) :
    RelM σ (· = ·) (fillMissing cs rs) (fillMissing ds rs) := by
  induction h generalizing rs with
  | nil => exact RelM.pure rfl
  | cons h1 _ ih =>
    cases rs with
    | nil => exact RelM.pure rfl
    | cons r rs =>
      simp only [fillMissing]
      refine RelM.bind (R := (· = ·)) ?_ ?_
      · unfold fillResult
        rw [h1.hasNoResult]
        split
        · exact RelM.pure rfl
        · cases r with
          | some v => exact RelM.pure rfl
          | none =>
            refine RelM.bind (R := (· = ·)) ?_ (by rintro x _ rfl; exact RelM.pure rfl)
            unfold processMissing
            refine RelM.bind (runMissing_rel h1 none) ?_
            rintro x _ rfl
            rw [h1.vt]
            exact RelM.bind (runValidation_rel h1 _) fun _ _ _ => RelM.pure rfl
      · rintro x _ rfl
        refine RelM.bind (ih rs) ?_
        rintro y _ rfl
        exact RelM.pure rfl

theorem multiStage_rel {cs ds : List Node} (h : Zip (Redeclared σ) cs ds) (rs : List (Option Value)) :
    RelM σ (fun _ _ => True) (multiStageValidation cs rs) (multiStageValidation ds rs) := by
  induction h generalizing rs with
  | nil => exact RelM.pure trivial
  | cons h1 _ ih =>
    cases rs with
    | nil => exact RelM.pure trivial
    | cons r rs =>
      simp only [multiStageValidation]
      refine RelM.bind (R := fun _ _ => True) ?_ fun _ _ _ => ih rs
      unfold validateStages
      rw [h1.hasNoResult, h1.isMultiStage,
        ← zip_any (fun x y hxy => hxy.isMultiStage.symm) h1.children]
      split
      · cases r with
        | some v => exact runValidation_rel h1 v
        | none => exact RelM.lift (by trivial)
      · exact RelM.pure trivial

theorem routerArgs_same {cs ds : List Node} (h : Zip (Alike P σ) cs ds) (rs : List (Option Value)) :
    routerArgs ds rs = routerArgs cs rs := by
  induction h generalizing rs with
  | nil => rfl
  | cons h1 _ ih =>
    cases rs with
    | nil => rfl
    | cons r rs => simp only [routerArgs, h1.hasNoResult, ih]

theorem parseMode_rel (hσ : ∀ a b, σ a = σ b → a = b) {n n' : Node} (h : Redeclared σ n n')
    {ls ls' : List Leaf} (hl : Zip (LeafRel SamePolicies σ) ls ls') :
    RelM σ (fun _ _ => True) (parseMode n ls) (parseMode n' ls') := by
  unfold parseMode
  rw [← zip_length h.children]
  refine RelM.bind (processSubs_rel hσ h.children hl _) ?_
  rintro rs _ rfl
  refine RelM.bind (fillMissing_rel h.children rs) ?_
  rintro rs _ rfl
  refine RelM.bind (multiStage_rel h.children rs) fun _ _ _ => ?_
  rw [← h.facts.router, routerArgs_same h.children, ← h.facts.tokenType]
  split
  · exact callRouter_rel h _
  · exact RelM.throw _

theorem runTarget_rel (hσ : ∀ a b, σ a = σ b → a = b) {t t' : Target} (h : TargetRel SamePolicies σ t t') :
    RelM σ (fun _ _ => True) (runTarget t) (runTarget t') := by
  unfold runTarget
  rw [h.node.kind]
  split
  · exact parseMode_rel hσ h.node h.subs
  · exact RelM.bind (parseLeaf_rel ⟨h.node, h.tokens⟩) fun _ _ _ => RelM.pure trivial

theorem alwaysTrue_rel : ValRel P σ alwaysTrue alwaysTrue := fun _ _ _ => RelM.pure rfl

theorem rootLoop_rel (hσ : ∀ a b, σ a = σ b → a = b) (cfg : Config) {root root' : Node}
    (hr : Redeclared σ root root') (args : List Token) {cs ds : List Node}
    (h : Zip (Redeclared σ) cs ds) :
    RelM σ (· = ·) (rootLoop cfg root args cs) (rootLoop cfg root' args ds) := by
  induction h with
  | nil => exact RelM.pure rfl
  | cons h1 _ ih =>
    simp only [rootLoop]
    refine RelM.bind (R := OptRel (MatchRel SamePolicies σ)) ?_ ?_
    · unfold offerTo
      rw [h1.kind]
      split
      · exact preParseMode_rel hσ cfg alwaysTrue_rel _ args h1 (.cons hr .nil)
      · exact preParse_rel hσ cfg (.cons hr .nil) args .none _ h1 alwaysTrue_rel
    · intro x y hxy
      cases hxy with
      | none => exact ih
      | some h =>
        rename_i a c
        obtain ⟨ta, la⟩ := a
        obtain ⟨tc, lc⟩ := c
        obtain ⟨h2, e⟩ := h
        simp only at e
        subst e
        simp only
        split
        · exact RelM.throw _
        · exact RelM.bind (runTarget_rel hσ h2) fun _ _ _ => RelM.pure rfl

/-- C109: declare the policies of its nodes in any other order, anywhere in the tree
(no kind given twice, and those that check values or stand in for them in the order in which they were).
On every command line, and after every past that is the same for both, the two programs do the same: they
succeed, or fail with the same error, and call the same routers with the same values; and what the next
call sees is the same again. `σ` renames the types: different types stay different. -/
theorem C109_program (hσ : ∀ a b, σ a = σ b → a = b) (cfg : Config) (root root' : Node)
    (h : Redeclared σ root root') (args : List Bytes) (s s' : St) (hs : SamePast σ s s') :
    (parseArgs cfg root' args s').1 = (parseArgs cfg root args s).1 ∧
      (parseArgs cfg root' args s').2.calls = (parseArgs cfg root args s).2.calls ∧
      SamePast σ (parseArgs cfg root args s).2 (parseArgs cfg root' args s').2 := by
  have key : RelM σ (fun _ _ => True) (parseArgs cfg root args) (parseArgs cfg root' args) := by
    unfold parseArgs rootParse
    refine RelM.bind (rootLoop_rel hσ cfg h _ h.children) ?_
    rintro x _ rfl
    split
    · exact RelM.pure trivial
    · simp only
      split
      · exact RelM.throw _
      · rw [h.unknown cfg]
        exact RelM.lift (RelOut.refl (fun _ => trivial) _)
  obtain ⟨h1, h2⟩ := key s s' hs
  refine ⟨?_, h2.1, h2⟩
  revert h1
  generalize (parseArgs cfg root args s).1 = o
  generalize (parseArgs cfg root' args s').1 = o'
  intro h1
  cases o <;> cases o' <;> simp_all [RelOut]

/-! ## An example: the program basic_cat, with the policies of every node turned round -/

mutual
/-- The policies of every node the other way round, those that check values or stand in for them last; other
numbers for the types. -/
def turnedRound : Node → Node
  | .mk k u h v p cs => .mk k u (h + 100) v
      ((p.filter fun x => !ChecksOrStandsIn x).reverse ++ p.filter ChecksOrStandsIn) (turnedAll cs)
/-- The same for a list of nodes. -/
def turnedAll : List Node → List Node
  | [] => []
  | c :: cs => turnedRound c :: turnedAll cs
end

theorem samePolicies_turned {p : List Policy}
    (h : ((p.filter fun x => !ForHelpOnly x).map Policy.kindNo).Nodup) :
    SamePolicies p ((p.filter fun x => !ChecksOrStandsIn x).reverse ++ p.filter ChecksOrStandsIn) := by
  refine ⟨⟨h, List.Perm.filter _ ?_⟩, ?_⟩
  · refine List.Perm.trans ?_ ((List.reverse_perm _).symm.append_right _)
    exact ((List.filter_append_perm ChecksOrStandsIn p).symm).trans List.perm_append_comm
  · rw [List.filter_append, List.filter_reverse, List.filter_filter, List.filter_filter]
    simp

mutual
theorem redeclared_turned : ∀ (n : Node),
    (∀ x ∈ n.nodes, ((x.policies.filter fun x => !ForHelpOnly x).map Policy.kindNo).Nodup) →
    Redeclared (· + 100) n (turnedRound n)
  | .mk k u h v p cs, hn => by
    rw [turnedRound]
    refine .mk (samePolicies_turned (hn _ (self_mem_nodes _))) (redeclared_turnedAll cs ?_)
    exact fun c hc x hx => hn x (child_mem_nodes hc x hx)
theorem redeclared_turnedAll : ∀ (cs : List Node),
    (∀ c ∈ cs, ∀ x ∈ c.nodes,
      ((x.policies.filter fun x => !ForHelpOnly x).map Policy.kindNo).Nodup) →
    AlikeAll SamePolicies (· + 100) cs (turnedAll cs)
  | [], _ => by rw [turnedAll]; exact .nil
  | c :: cs, hn => by
    rw [turnedAll]
    exact .cons (redeclared_turned c (hn c List.mem_cons_self))
      (redeclared_turnedAll cs fun d hd => hn d (List.mem_cons_of_mem _ hd))
end

example : Redeclared (· + 100) Examples.basicCat (turnedRound Examples.basicCat) :=
  redeclared_turned _ (by decide +kernel)

example : (parseArgs .default (turnedRound Examples.basicCat)
      [b "-E", b "--max-lines", b "7", b "a.txt"] .fresh).2.calls =
    (parseArgs .default Examples.basicCat [b "-E", b "--max-lines", b "7", b "a.txt"] .fresh).2.calls :=
  (C109_program (fun _ _ h => by omega) .default _ _ (redeclared_turned _ (by decide +kernel)) _ _ _
    ⟨rfl, rfl⟩).2.1

/-- A number of at least ten that has to be even, the two checks in either order. -/
def tenAndEven (ps : List Policy) : Node := mkRoot 1 1 [mkMode 2 2 [.router]
  [mkPositional 3 3 (intType ⟨32, true⟩) (.minMaxCount 1 1 :: .displayName (b "N") :: ps)]]

/-- C109: the order of the checks does count: the first one that fails decides on the error. -/
theorem C109_checks : ∃ p q : Policy,
    (parseArgs .default (tenAndEven [p, q]) [b "3"] .fresh).1 =
      .throw ⟨.minimum_value_not_reached, [⟨.none, b "N"⟩]⟩ ∧
    (parseArgs .default (tenAndEven [q, p]) [b "3"] .fresh).1 = .foreign :=
  ⟨.minMaxValue (some (.one (.int 10))) none Examples.lessInt, .validation 0 Examples.isEven,
    by decide +kernel, by decide +kernel⟩

end Props

end ArgRouter
