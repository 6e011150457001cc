import Verif.Spec.Relaxed
import Verif.Props.Redeclared
import Verif.Props.Route

/-!
# C117 – programs that are less strict
-/

namespace ArgRouter

namespace Props

open Spec

variable {σ : Nat → Nat} {B : Out Unit → Prop}

/-! ## Going the same way, or being stopped -/

/-- Code that from the same past goes the same way as other code, or is stopped in one of the ways `B`. -/
def LaxM (B : Out Unit → Prop) (σ : Nat → Nat) {α β : Type} (R : α → β → Prop) (m : M α) (m' : M β) : Prop :=
  ∀ s s', SamePast σ s s' → (RelOut R (m s).1 (m' s').1 ∧ SamePast σ (m s).2 (m' s').2) ∨
    ∃ o, B o ∧ RelOut (fun _ _ => False) o (m s).1

theorem LaxM.of {α β : Type} {R : α → β → Prop} {m : M α} {m' : M β} (h : RelM σ R m m') :
    LaxM B σ R m m' := fun s s' hs => .inl (h s s' hs)

theorem LaxM.pure {α β : Type} {R : α → β → Prop} {a : α} {b : β} (h : R a b) :
    LaxM B σ R (Pure.pure a) (Pure.pure b) := .of (.pure h)

theorem LaxM.bind {α β γ δ : Type} {R : α → β → Prop} {S : γ → δ → Prop} {m : M α} {m' : M β}
    {f : α → M γ} {g : β → M δ} (h : LaxM B σ R m m') (hf : ∀ a b, R a b → LaxM B σ S (f a) (g b)) :
    LaxM B σ S (m >>= f) (m' >>= g) := by
  intro s s' hs
  have := h s s' hs
  rw [M.bind_apply, M.bind_apply]
  generalize m s = x at this ⊢
  generalize m' s' = y at this ⊢
  obtain ⟨o, t⟩ := x
  obtain ⟨o', t'⟩ := y
  rcases this with ⟨h1, h2⟩ | ⟨w, hw, h1⟩
  · cases o <;> cases o' <;> simp only [RelOut] at h1
    · exact hf _ _ h1 _ _ h2
    · exact .inl ⟨h1, h2⟩
    · exact .inl ⟨trivial, h2⟩
    · exact .inl ⟨trivial, h2⟩
    · exact .inl ⟨trivial, h2⟩
  · refine .inr ⟨w, hw, ?_⟩
    cases o <;> cases w <;> simp only [RelOut] at h1 ⊢
    exact h1

/-- Code that is stopped. -/
theorem LaxM.stop {α β : Type} {R : α → β → Prop} {m : M α} {m' : M β} {o : Out Unit} (hB : B o)
    (h : ∀ s, RelOut (fun _ _ => False) o (m s).1) : LaxM B σ R m m' :=
  fun s _ _ => .inr ⟨o, hB, h s⟩

/-! ## What the nodes do with values -/

/-- Less strict policies, where `B` are the ways in which a run may be ended by them. -/
structure RelaxesIn (B : Out Unit → Prop) (p q : List Policy) : Prop extends Relaxes p q where
  codes : ∀ e, (e.ec = .missing_required_argument ∨ e.ec = .minimum_value_not_reached ∨
    e.ec = .maximum_value_exceeded) → B (.throw e)
  users : ∀ tag f v, .validation tag f ∈ p → f v ≠ .ok () → B (f v)

instance : Sets (RelaxesIn B) := ⟨fun _ _ h => h.reading⟩

/-- Checks that all pass change nothing. -/
theorem runValidation_passes (n : Node) (v : Value) {l : List Policy} (h : ∀ x ∈ l, Passes v x) :
    runValidation n v l = pure () := by
  induction l with
  | nil => rfl
  | cons p l ih =>
    have ih := ih fun x hx => h x (List.mem_cons_of_mem _ hx)
    have hp := h p List.mem_cons_self
    cases p with
    | minMaxValue lo hi less =>
      obtain ⟨h1, h2⟩ := hp
      have e1 : (lo.map (less v)).getD false = false := by
        cases lo with
        | none => rfl
        | some l => exact h1 l rfl
      have e2 : (hi.map (less · v)).getD false = false := by
        cases hi with
        | none => rfl
        | some u => exact h2 u rfl
      rw [runValidation, e1, e2, if_neg Bool.false_ne_true, if_neg Bool.false_ne_true, ih]
    | validation t f =>
      have hp : f v = .ok () := hp
      rw [runValidation, hp, ih]
      rfl
    | _ => exact ih

/-- A check that fails ends the run. -/
theorem runValidation_stops (n : Node) (v : Value) {l : List Policy}
    (hc : ∀ e, (e.ec = .missing_required_argument ∨ e.ec = .minimum_value_not_reached ∨
      e.ec = .maximum_value_exceeded) → B (.throw e))
    (hu : ∀ tag f v, .validation tag f ∈ l → f v ≠ .ok () → B (f v))
    (h : ¬ ∀ x ∈ l, Passes v x) :
    ∃ o, B o ∧ ∀ s, RelOut (fun _ _ => False) o (runValidation n v l s).1 := by
  induction l with
  | nil => exact absurd (fun _ hx => nomatch hx) h
  | cons p l ih =>
    have hrest : Passes v p → ¬ ∀ x ∈ l, Passes v x := by
      intro hp hl
      refine h fun x hx => ?_
      cases hx with
      | head => exact hp
      | tail _ hx => exact hl x hx
    have ih := fun hp => ih (fun t f w hm => hu t f w (List.mem_cons_of_mem _ hm)) (hrest hp)
    cases p with
    | minMaxValue lo hi less =>
      simp only [runValidation]
      split
      · exact ⟨_, hc ⟨.minimum_value_not_reached, [n.tokenType]⟩ (.inr (.inl rfl)), fun _ => rfl⟩
      · rename_i e1
        split
        · exact ⟨_, hc ⟨.maximum_value_exceeded, [n.tokenType]⟩ (.inr (.inr rfl)), fun _ => rfl⟩
        · rename_i e2
          refine ih ⟨?_, ?_⟩
          · rintro l rfl
            exact Bool.eq_false_iff.2 e1
          · rintro u rfl
            exact Bool.eq_false_iff.2 e2
    | validation t f =>
      by_cases hp : f v = .ok ()
      · simp only [runValidation, hp]
        exact ih hp
      · refine ⟨f v, hu t f v List.mem_cons_self hp, fun s => ?_⟩
        simp only [runValidation]
        rw [M.bind_apply]
        have hl : M.lift (f v) s = (f v, s) := rfl
        rw [hl]
        generalize f v = o at hp
        cases o with
        | ok a => exact absurd rfl hp
        | _ => simp [RelOut]
    | _ => exact ih trivial

theorem runValidation_lax {n n' : Node} (h : Alike (RelaxesIn B) σ n n') (v : Value) :
    LaxM B σ (fun _ _ => True) (runValidation n v n.policies) (runValidation n' v n'.policies) := by
  by_cases hp : ∀ x ∈ n.policies, Passes v x
  · rw [runValidation_passes n v hp, runValidation_passes n' v (h.policies.checks v hp)]
    exact .pure trivial
  · obtain ⟨o, hB, ho⟩ := runValidation_stops n v h.policies.codes h.policies.users hp
    exact .stop hB ho

/-- With a required argument that is not given the run ends. -/
theorem runMissing_stops (n : Node) {l : List Policy} (h : .required ∈ l) (r : Option Value) (s : St) :
    (runMissing n l r s).1 = .throw ⟨.missing_required_argument, [n.tokenType]⟩ := by
  induction l generalizing r with
  | nil => cases h
  | cons p l ih =>
    cases p with
    | required => rfl
    | runtimeEnableRequired e v =>
      simp only [runMissing]
      split
      · rfl
      · cases h with
        | tail _ h => exact ih h _
    | _ =>
      cases h with
      | tail _ h => exact ih h _

theorem runMissing_standsIn (n : Node) (l : List Policy) (r : Option Value) :
    runMissing n l r = runMissing n (l.filter StandsIn) r := by
  induction l generalizing r with
  | nil => rfl
  | cons p l ih =>
    rw [List.filter_cons]
    cases p <;> simp [StandsIn, runMissing, ih]

theorem runMissing_lax {n n' : Node} (h : Alike (RelaxesIn B) σ n n') :
    LaxM B σ (· = ·) (runMissing n n.policies none) (runMissing n' n'.policies none) := by
  rcases h.policies.missing with hr | he
  · refine .stop (h.policies.codes ⟨.missing_required_argument, [n.tokenType]⟩ (.inl rfl)) fun s => ?_
    rw [runMissing_stops n hr]
    rfl
  · rw [runMissing_standsIn n, runMissing_standsIn n', ← he]
    refine .of ?_
    generalize (none : Option Value) = r
    induction n.policies.filter StandsIn generalizing r with
    | nil => exact RelM.pure rfl
    | cons p l ih =>
      cases p with
      | required =>
        simp only [runMissing, ← h.facts.tokenType]
        exact RelM.throw _
      | runtimeEnableRequired e v =>
        simp only [runMissing, ← h.facts.tokenType]
        split
        · exact RelM.throw _
        · exact ih _
      | _ => exact ih _

/-! ## Running the targets -/

theorem parseLeaf_lax {l l' : Leaf} (h : LeafRel (RelaxesIn B) σ l l') :
    LaxM B σ (· = ·) (parseLeaf l) (parseLeaf l') := by
  obtain ⟨hn, ht⟩ := h
  unfold parseLeaf
  rw [hn.kind, ← ht]
  split
  · exact .bind (.of (callIfRouter_rel hn _)) fun _ _ _ => .pure rfl
  · exact .pure rfl
  all_goals first
    | (rw [parseValue_same hn]
       refine .bind (.of (RelM.lift_eq _)) ?_
       rintro v _ rfl
       refine .bind (runValidation_lax hn v) fun _ _ _ => ?_
       exact .bind (.of (callIfRouter_rel hn _)) fun _ _ _ => .pure rfl)
    | (rw [helpOutput_same hn]
       refine .bind (.of (RelM.lift_eq _)) ?_
       rintro v _ rfl
       exact .bind (.of (callRouter_rel hn _)) fun _ _ _ => .pure rfl)
    | exact .of (RelM.lift (by trivial))

theorem processSubs_lax (hσ : ∀ a b, σ a = σ b → a = b) {cs ds : List Node}
    (h : Zip (Alike (RelaxesIn B) σ) cs ds) {ls ls' : List Leaf}
    (hl : Zip (LeafRel (RelaxesIn B) σ) ls ls') (rs : List (Option Value)) :
    LaxM B σ (· = ·) (processSubs cs ls rs) (processSubs ds ls' rs) := by
  induction hl generalizing rs with
  | nil => exact .pure rfl
  | cons h1 _ ih =>
    simp only [processSubs]
    refine .bind (parseLeaf_lax h1) ?_
    rintro x _ rfl
    cases x with
    | none => exact ih _
    | some v =>
      simp only
      have hf := findChild_rel hσ h1.1 h 0
      revert hf
      generalize findChild _ cs 0 = o
      generalize findChild _ ds 0 = o'
      intro hf
      cases hf with
      | none => exact ih _
      | some hf =>
        rename_i a c
        obtain ⟨i, ca, sa⟩ := a
        obtain ⟨j, cc, sc⟩ := c
        obtain ⟨e, h2, h3⟩ := hf
        simp only at e
        subst e
        refine .bind (.of (processResult_rel h2 h3 rs i v)) ?_
        rintro x _ rfl
        exact ih _

theorem fillMissing_lax {cs ds : List Node} (h : Zip (Alike (RelaxesIn B) σ) cs ds)
    (rs : List (Option Value)) : LaxM B σ (· = ·) (fillMissing cs rs) (fillMissing ds rs) := by
  induction h generalizing rs with
  | nil => exact .pure rfl
  | cons h1 _ ih =>
    cases rs with
    | nil => exact .pure rfl
    | cons r rs =>
      simp only [fillMissing]
      refine .bind (R := (· = ·)) ?_ ?_
      · unfold fillResult
        rw [h1.hasNoResult]
        split
        · exact .pure rfl
        · cases r with
          | some v => exact .pure rfl
          | none =>
            refine .bind (R := (· = ·)) ?_ (by rintro x _ rfl; exact .pure rfl)
            unfold processMissing
            refine .bind (runMissing_lax h1) ?_
            rintro x _ rfl
            rw [h1.vt]
            exact .bind (runValidation_lax h1 _) fun _ _ _ => .pure rfl
      · rintro x _ rfl
        refine .bind (ih rs) ?_
        rintro y _ rfl
        exact .pure rfl

theorem multiStage_lax {cs ds : List Node} (h : Zip (Alike (RelaxesIn B) σ) cs ds)
    (rs : List (Option Value)) :
    LaxM B σ (fun _ _ => True) (multiStageValidation cs rs) (multiStageValidation ds rs) := by
  induction h generalizing rs with
  | nil => exact .pure trivial
  | cons h1 _ ih =>
    cases rs with
    | nil => exact .pure trivial
    | cons r rs =>
      simp only [multiStageValidation]
      refine .bind (R := fun _ _ => True) ?_ fun _ _ _ => ih rs
      unfold validateStages
      rw [h1.hasNoResult, h1.isMultiStage,
        ← zip_any (fun x y hxy => hxy.isMultiStage.symm) h1.children]
      split
      · cases r with
        | some v => exact runValidation_lax h1 v
        | none => exact .of (RelM.lift (by trivial))
      · exact .pure trivial

theorem parseMode_lax (hσ : ∀ a b, σ a = σ b → a = b) {n n' : Node} (h : Alike (RelaxesIn B) σ n n')
    {ls ls' : List Leaf} (hl : Zip (LeafRel (RelaxesIn B) σ) ls ls') :
    LaxM B σ (fun _ _ => True) (parseMode n ls) (parseMode n' ls') := by
  unfold parseMode
  rw [← zip_length h.children]
  refine .bind (processSubs_lax hσ h.children hl _) ?_
  rintro rs _ rfl
  refine .bind (fillMissing_lax h.children rs) ?_
  rintro rs _ rfl
  refine .bind (multiStage_lax h.children rs) fun _ _ _ => ?_
  rw [← h.facts.router, routerArgs_same h.children, ← h.facts.tokenType]
  split
  · exact .of (callRouter_rel h _)
  · exact .of (RelM.throw _)

theorem runTarget_lax (hσ : ∀ a b, σ a = σ b → a = b) {t t' : Target}
    (h : TargetRel (RelaxesIn B) σ t t') : LaxM B σ (fun _ _ => True) (runTarget t) (runTarget t') := by
  unfold runTarget
  rw [h.node.kind]
  split
  · exact parseMode_lax hσ h.node h.subs
  · exact .bind (parseLeaf_lax ⟨h.node, h.tokens⟩) fun _ _ _ => .pure trivial

theorem rootLoop_lax (hσ : ∀ a b, σ a = σ b → a = b) (cfg : Config) {root root' : Node}
    (hr : Alike (RelaxesIn B) σ root root') (args : List Token) {cs ds : List Node}
    (h : Zip (Alike (RelaxesIn B) σ) cs ds) :
    LaxM B σ (· = ·) (rootLoop cfg root args cs) (rootLoop cfg root' args ds) := by
  induction h with
  | nil => exact .pure rfl
  | cons h1 _ ih =>
    simp only [rootLoop]
    refine .bind (R := OptRel (MatchRel (RelaxesIn B) σ)) ?_ ?_
    · unfold offerTo
      rw [h1.kind]
      split
      · exact .of (preParseMode_rel hσ cfg alwaysTrue_rel _ args h1 (.cons hr .nil))
      · exact .of (preParse_rel hσ cfg (.cons hr .nil) args .none _ h1 alwaysTrue_rel)
    · intro x y hxy
      cases hxy with
      | none => exact ih
      | some h =>
        rename_i a c
        obtain ⟨ta, la⟩ := a
        obtain ⟨tc, lc⟩ := c
        obtain ⟨h2, e⟩ := h
        simp only at e
        subst e
        simp only
        split
        · exact .of (RelM.throw _)
        · exact .bind (runTarget_lax hσ h2) fun _ _ _ => .pure rfl

/-! ## Whole programs -/

mutual
/-- The ways in which a tree may refuse a command line. -/
theorem relaxed_in {root : Node} : ∀ (n : Node) {n' : Node}, (∀ x ∈ n.nodes, x ∈ root.nodes) →
    Relaxed σ n n' → Alike (RelaxesIn (Refused root)) σ n n'
  | .mk k u h v p cs, n', hm, hr => by
    cases hr with
    | mk hp hc =>
      refine .mk ⟨hp, fun e he => .inl ⟨e, rfl, he⟩, fun tag f v hv hne => ?_⟩
        (relaxed_in_all cs (fun c hcm x hx => hm x (child_mem_nodes hcm x hx)) hc)
      exact .inr ⟨_, hm _ (self_mem_nodes _), tag, f, v, hv, rfl, hne⟩
theorem relaxed_in_all {root : Node} : ∀ (cs : List Node) {ds : List Node},
    (∀ c ∈ cs, ∀ x ∈ c.nodes, x ∈ root.nodes) →
    AlikeAll Relaxes σ cs ds → AlikeAll (RelaxesIn (Refused root)) σ cs ds
  | [], ds, _, hr => by
    cases hr
    exact .nil
  | c :: cs, ds, hm, hr => by
    cases hr with
    | cons h1 h2 =>
      exact .cons (relaxed_in c (hm c List.mem_cons_self) h1)
        (relaxed_in_all cs (fun d hd => hm d (List.mem_cons_of_mem _ hd)) h2)
end

/-- C117: make any number of the nodes of a program less strict: drop or weaken checks of values, let
arguments that were required be left out. On every command line, and after every past that is the same for
both, the two programs do the same (they succeed or fail with the same error, call the same routers with the
same values and remember the same), unless the stricter one refuses: then a required argument is missing, a
value is out of bounds, or one of the user's checks has failed. `σ` renames the types: different types stay
different. -/
theorem C117_program (hσ : ∀ a b, σ a = σ b → a = b) (cfg : Config) (strict lax : Node)
    (h : Relaxed σ strict lax) (args : List Bytes) (s s' : St) (hs : SamePast σ s s') :
    ((parseArgs cfg lax args s').1 = (parseArgs cfg strict args s).1 ∧
      (parseArgs cfg lax args s').2.calls = (parseArgs cfg strict args s).2.calls ∧
      SamePast σ (parseArgs cfg strict args s).2 (parseArgs cfg lax args s').2) ∨
    Refused strict (parseArgs cfg strict args s).1 := by
  have h := relaxed_in (root := strict) _ (fun _ hx => hx) h
  have key : LaxM (Refused strict) σ (fun _ _ => True) (parseArgs cfg strict args)
      (parseArgs cfg lax args) := by
    unfold parseArgs rootParse
    refine .bind (rootLoop_lax hσ cfg h _ h.children) ?_
    rintro x _ rfl
    split
    · exact .pure trivial
    · simp only
      split
      · exact .of (RelM.throw _)
      · rw [h.unknown cfg]
        exact .of (RelM.lift (RelOut.refl (fun _ => trivial) _))
  rcases key s s' hs with ⟨h1, h2⟩ | ⟨o, hB, h1⟩
  · refine .inl ⟨?_, h2.1, h2⟩
    revert h1
    generalize (parseArgs cfg strict args s).1 = o
    generalize (parseArgs cfg lax args s').1 = o'
    intro h1
    cases o <;> cases o' <;> simp_all [RelOut]
  · refine .inr ?_
    revert h1
    generalize (parseArgs cfg strict args s).1 = o'
    intro h1
    cases o <;> cases o' <;> simp_all [RelOut]

/-- C117: so what the stricter program accepts the other one accepts, with the same calls. -/
theorem C117_accepted (hσ : ∀ a b, σ a = σ b → a = b) (cfg : Config) (strict lax : Node)
    (h : Relaxed σ strict lax) (args : List Bytes) (s s' : St) (hs : SamePast σ s s')
    (ha : (parseArgs cfg strict args s).1 = .ok ()) :
    (parseArgs cfg lax args s').1 = .ok () ∧
      (parseArgs cfg lax args s').2.calls = (parseArgs cfg strict args s).2.calls ∧
      SamePast σ (parseArgs cfg strict args s).2 (parseArgs cfg lax args s').2 := by
  rcases C117_program hσ cfg strict lax h args s s' hs with ⟨h1, h2⟩ | h1
  · exact ⟨h1.trans ha, h2⟩
  · rw [ha] at h1
    rcases h1 with ⟨e, he, -⟩ | ⟨n, -, t, f, v, -, -, hne⟩
    · cases he
    · exact absurd rfl hne

/-! ## An example: a required, bounded argument becomes optional, with wider bounds -/

/-- The argument with other bounds and a default value. -/
def freeNum : Node := mkArg 43 143 digitType [.longName (b "num"), .defaultValue (.one (.int 3)),
  .minMaxValue (some (.one (.int 1))) none intLess]

/-- The program with it. -/
def freeRoot : Node := mkRoot 46 146 [mkMode 45 145 [.router]
  [mkFlag .default 41 141 [.longName (b "all"), .shortName (b "a")],
    mkCountingFlag .default 42 142 64 [.longName (b "verbose"), .shortName (b "v")], freeNum,
    mkArg 44 144 digitType [.longName (b "out"), .defaultValue (.one (.int 9))]]]

theorem relaxes_refl {p : List Policy} (h : ((p.filter fun x => !SetAside x).map Policy.kindNo).Nodup) :
    Relaxes p p := ⟨⟨h, .refl _⟩, fun _ h => h, .inr rfl⟩

theorem free_relaxes : Relaxes toolNum.policies freeNum.policies := by
  refine ⟨⟨by decide +kernel, .refl _⟩, fun v h => ?_, .inl (by simp [toolNum, mkArg, Node.policies])⟩
  have h1 := h (.minMaxValue (some (.one (.int 2))) (some (.one (.int 7))) intLess)
    (by simp [toolNum, mkArg, Node.policies])
  obtain ⟨h2, -⟩ := h1
  have h2 := h2 _ rfl
  intro x hx
  simp only [freeNum, mkArg, Node.policies, List.mem_cons, List.not_mem_nil, or_false] at hx
  rcases hx with rfl | rfl | rfl | rfl
  · trivial
  · trivial
  · trivial
  · refine ⟨?_, fun _ hh => nomatch hh⟩
    rintro l hl
    obtain rfl := Option.some.inj hl
    clear h
    cases v with
    | one x =>
      cases x <;> simp [intLess] at h2 ⊢
      omega
    | many l => rfl

theorem free_relaxed : Relaxed (· + 100) toolRoot freeRoot := by
  have hf : Relaxed (· + 100) toolFlag (mkFlag .default 41 141 [.longName (b "all"), .shortName (b "a")]) :=
    .mk (relaxes_refl (by decide +kernel)) .nil
  have hv : Relaxed (· + 100) toolVerbose
      (mkCountingFlag .default 42 142 64 [.longName (b "verbose"), .shortName (b "v")]) :=
    .mk (relaxes_refl (by decide +kernel)) .nil
  have hn : Relaxed (· + 100) toolNum freeNum := .mk free_relaxes .nil
  have ho : Relaxed (· + 100) toolOut
      (mkArg 44 144 digitType [.longName (b "out"), .defaultValue (.one (.int 9))]) :=
    .mk (relaxes_refl (by decide +kernel)) .nil
  exact .mk (relaxes_refl (by decide +kernel)) (.cons (.mk (relaxes_refl (by decide +kernel))
    (.cons hf (.cons hv (.cons hn (.cons ho .nil))))) .nil)

/-- The hypotheses are met, and the stricter program accepts a command line. -/
example : (parseArgs .default freeRoot [b "-v", b "--num", b "5", b "-a"] .fresh).2.calls =
    [⟨45, [.one (.bool true), .one (.int 1), .one (.int 5), .one (.int 9)]⟩] :=
  (C117_accepted (fun _ _ h => by omega) .default _ _ free_relaxed [b "-v", b "--num", b "5", b "-a"] .fresh
    .fresh ⟨rfl, rfl⟩ (by decide +kernel)).2.1.trans (by decide +kernel)

/-- A command line that is an error with both. -/
example : (parseArgs .default freeRoot [b "--num", b "x"] .fresh).1 =
    (parseArgs .default toolRoot [b "--num", b "x"] .fresh).1 := by
  rcases C117_program (fun _ _ h => by omega) .default _ _ free_relaxed [b "--num", b "x"] .fresh .fresh
    ⟨rfl, rfl⟩ with h | h
  · exact h.1
  · exact (by decide +kernel)

/-- The stricter program refuses, for each of the reasons there are; the other one does not. -/
theorem C117_refuses :
    ((parseArgs .default toolRoot [b "-a"] .fresh).1 =
        .throw ⟨.missing_required_argument, [⟨.long, b "num"⟩]⟩ ∧
      (parseArgs .default freeRoot [b "-a"] .fresh).1 = .ok ()) ∧
    ((parseArgs .default toolRoot [b "--num", b "1"] .fresh).1 =
        .throw ⟨.minimum_value_not_reached, [⟨.long, b "num"⟩]⟩ ∧
      (parseArgs .default freeRoot [b "--num", b "1"] .fresh).1 = .ok ()) ∧
    ((parseArgs .default toolRoot [b "--num", b "8"] .fresh).1 =
        .throw ⟨.maximum_value_exceeded, [⟨.long, b "num"⟩]⟩ ∧
      (parseArgs .default freeRoot [b "--num", b "8"] .fresh).1 = .ok ()) ∧
    ((parseArgs .default (tenAndEven [.validation 0 Examples.isEven]) [b "3"] .fresh).1 = .foreign ∧
      (parseArgs .default (tenAndEven []) [b "3"] .fresh).1 = .ok ()) := by
  decide +kernel

/-- A default value may not change: then the routers get another one. -/
theorem C117_default : ∃ v w : Value,
    (parseArgs .default (mkRoot 1 1 [mkMode 2 2 [.router]
        [mkArg 3 3 digitType [.longName (b "num"), .defaultValue v]]]) [] .fresh).2.calls ≠
      (parseArgs .default (mkRoot 1 1 [mkMode 2 2 [.router]
        [mkArg 3 3 digitType [.longName (b "num"), .defaultValue w]]]) [] .fresh).2.calls :=
  ⟨.one (.int 1), .one (.int 2), by decide +kernel⟩

end Props

end ArgRouter
