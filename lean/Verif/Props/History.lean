import Verif.Props.Groups

/-!
# C15, C33 – does a parse remember earlier parses?
-/

namespace ArgRouter

mutual
/-- There is no `one_of` in the tree. -/
def Spec.NoOneOf : Node → Bool
  | .mk k _ _ _ _ cs => k != .oneOf && Spec.NoOneOfs cs
def Spec.NoOneOfs : List Node → Bool
  | [] => true
  | c :: cs => Spec.NoOneOf c && Spec.NoOneOfs cs
end

namespace Props

open Spec

/-- The outcome and the router calls do not depend on the state; the calls are appended to the log
and nothing else is changed. -/
def HistoryFree {α : Type} (m : M α) : Prop :=
  ∃ o log, ∀ s : St, m s = (o, { s with calls := s.calls ++ log })

namespace HistoryFree

theorem pure {α : Type} (a : α) : HistoryFree (Pure.pure a : M α) :=
  ⟨.ok a, [], fun s => by simp⟩
theorem lift {α : Type} (o : Out α) : HistoryFree (M.lift o) := ⟨o, [], fun s => by simp⟩
theorem throw {α : Type} (e : Exc) : HistoryFree (M.throw e : M α) :=
  ⟨.throw e, [], fun s => by simp⟩

theorem bind {α β : Type} {m : M α} {f : α → M β} (hm : HistoryFree m)
    (hf : ∀ a, HistoryFree (f a)) : HistoryFree (m >>= f) := by
  obtain ⟨o, log, h⟩ := hm
  cases o with
  | ok a =>
    obtain ⟨o', log', h'⟩ := hf a
    exact ⟨o', log ++ log', fun s => by rw [M.bind_apply, h s]; simp [h']⟩
  | throw e => exact ⟨.throw e, log, fun s => by rw [M.bind_apply, h s]⟩
  | foreign => exact ⟨.foreign, log, fun s => by rw [M.bind_apply, h s]⟩
  | ub => exact ⟨.ub, log, fun s => by rw [M.bind_apply, h s]⟩
  | diverge => exact ⟨.diverge, log, fun s => by rw [M.bind_apply, h s]⟩

end HistoryFree

open HistoryFree in
theorem historyFree_leaf {cfg : Config} {n : Node} {parents : List Node} {args : List Token}
    {processed : Option Target} {validator : Validator} (hv : ∀ n, HistoryFree (validator n)) :
    HistoryFree (leafPreParse cfg n parents args processed validator) := by
  unfold leafPreParse
  refine bind (lift _) ?_
  rintro ⟨m, a, subs⟩
  simp only
  split
  · exact pure _
  · refine bind (hv n) ?_
    intro ok
    split
    · exact pure _
    · split
      · exact throw _
      · exact pure _

open HistoryFree in
mutual
theorem historyFree_preParse (cfg : Config) (parents : List Node) (args : List Token)
    (processed : Option Target) : ∀ (n : Node) (validator : Validator), NoOneOf n = true →
    (∀ n, HistoryFree (validator n)) →
    HistoryFree (preParse cfg parents args processed n validator)
  | .mk k u h v p cs, validator, hn, hv => by
    rw [NoOneOf, Bool.and_eq_true] at hn
    cases k
    case aliasGroup =>
      rw [preParse_aliasGroup]
      exact historyFree_group cfg parents args processed cs validator hn.2 hv
    case oneOf => exact absurd hn.1 (by decide)
    all_goals
      rw [preParse_leaf _ _ _ _ _ _ (by rfl)]
      exact historyFree_leaf hv
theorem historyFree_group (cfg : Config) (parents : List Node) (args : List Token)
    (processed : Option Target) : ∀ (ns : List Node) (validator : Validator),
    NoOneOfs ns = true → (∀ n, HistoryFree (validator n)) →
    HistoryFree (preParseGroup cfg parents args processed validator ns)
  | [], validator, hn, hv => by rw [preParseGroup]; exact pure _
  | c :: cs, validator, hn, hv => by
    rw [NoOneOfs, Bool.and_eq_true] at hn
    rw [preParseGroup]
    refine bind (historyFree_preParse cfg parents args processed c validator hn.1 hv) ?_
    intro o
    cases o with
    | none => exact historyFree_group cfg parents args processed cs validator hn.2 hv
    | some r => exact pure _
end

open HistoryFree in
theorem historyFree_verifyMatch (already : Bool) (front : Token) (n : Node) :
    HistoryFree (verifyMatch already front n) := by
  unfold verifyMatch
  split
  · exact pure _
  · split
    · split
      · exact throw _
      · exact pure _
    · exact pure _

theorem noOneOfs_iff (cs : List Node) : NoOneOfs cs = true ↔ ∀ c ∈ cs, NoOneOf c = true := by
  induction cs with
  | nil => simp [NoOneOfs]
  | cons c cs ih => simp [NoOneOfs, ih]

theorem noOneOf_children {n : Node} (h : NoOneOf n = true) : ∀ c ∈ n.children, NoOneOf c = true := by
  obtain ⟨k, u, hh, v, p, cs⟩ := n
  rw [NoOneOf, Bool.and_eq_true, noOneOfs_iff] at h
  exact h.2

open HistoryFree in
theorem historyFree_modeStep (cfg : Config) (parents : List Node) (target : Target)
    (matched : List Bool) (front : Token) (args : List Token) (cs : List Node) (i : Nat)
    (hn : ∀ c ∈ cs, NoOneOf c = true) :
    HistoryFree (modeStep cfg parents target matched front args cs i) := by
  induction cs generalizing i with
  | nil => rw [modeStep]; exact pure _
  | cons c cs ih =>
    have ih := fun i => ih i fun c hc => hn c (List.mem_cons_of_mem _ hc)
    rw [modeStep]
    split
    · exact ih _
    · refine bind (historyFree_preParse _ _ _ _ _ _ (hn c List.mem_cons_self)
        (historyFree_verifyMatch _ _)) ?_
      intro o
      cases o with
      | none => exact ih _
      | some r => exact pure _

open HistoryFree in
theorem historyFree_modeLoop (cfg : Config) (mode : Node) (parents : List Node) (fuel : Nat)
    (target : Target) (matched : List Bool) (args : List Token) (hn : NoOneOf mode = true) :
    HistoryFree (modeLoop cfg mode parents fuel target matched args) := by
  induction fuel generalizing target matched args with
  | zero =>
    cases args with
    | nil => rw [modeLoop]; exact pure _
    | cons x xs => rw [modeLoop]; exact lift _
  | succ fuel ih =>
    cases args with
    | nil => rw [modeLoop]; exact pure _
    | cons x xs =>
      rw [modeLoop]
      refine bind (historyFree_modeStep _ _ _ _ _ _ _ _ (noOneOf_children hn)) ?_
      intro o
      cases o with
      | none =>
        simp only
        split
        · exact throw _
        · exact lift _
      | some r => exact ih _ _ _

open HistoryFree in
theorem historyFree_modeBody (cfg : Config) (mode : Node) (parents : List Node)
    (validator : Validator) (args : List Token) (hn : NoOneOf mode = true)
    (hv : ∀ n, HistoryFree (validator n)) :
    HistoryFree (modeBody cfg mode parents validator args) := by
  rw [modeBody]
  refine bind (hv mode) ?_
  intro ok
  split
  · exact pure _
  · exact bind (historyFree_modeLoop _ _ _ _ _ _ _ hn) fun _ => pure _

open HistoryFree in
mutual
theorem historyFree_preParseMode (cfg : Config) (parents : List Node) (args : List Token)
    (validator : Validator) (hv : ∀ n, HistoryFree (validator n)) : ∀ n : Node,
    NoOneOf n = true → HistoryFree (preParseMode cfg parents args validator n)
  | .mk k u h v p cs, hn => by
    rw [preParseMode]
    split
    · exact historyFree_modeBody _ _ _ _ _ hn hv
    · refine bind (historyFree_leaf hv) ?_
      intro o
      cases o with
      | none => exact pure _
      | some r =>
        obtain ⟨t, args'⟩ := r
        simp only
        split
        · exact historyFree_modeBody _ _ _ _ _ hn hv
        · have hn' := hn
          rw [NoOneOf, Bool.and_eq_true] at hn'
          refine bind (historyFree_childModes cfg _ args' validator hv cs hn'.2) ?_
          intro o
          cases o with
          | none => exact historyFree_modeBody _ _ _ _ _ hn hv
          | some r => exact pure _
theorem historyFree_childModes (cfg : Config) (parents : List Node) (args : List Token)
    (validator : Validator) (hv : ∀ n, HistoryFree (validator n)) : ∀ ns : List Node,
    NoOneOfs ns = true → HistoryFree (preParseChildModes cfg parents args validator ns)
  | [], hn => by rw [preParseChildModes]; exact pure _
  | .mk k u h v p cs :: ns, hn => by
    rw [NoOneOfs, Bool.and_eq_true] at hn
    rw [preParseChildModes]
    split
    · refine bind (historyFree_preParseMode cfg parents args validator hv (.mk k u h v p cs) hn.1)
        ?_
      intro o
      cases o with
      | none => exact historyFree_childModes cfg parents args validator hv ns hn.2
      | some r => exact pure _
    · exact historyFree_childModes cfg parents args validator hv ns hn.2
end

theorem historyFree_callRouter (n : Node) (args : List Value) : HistoryFree (callRouter n args) :=
  ⟨.ok (), [⟨n.uid, args⟩], fun _ => rfl⟩

open HistoryFree in
theorem historyFree_runValidation (n : Node) (v : Value) (ps : List Policy) :
    HistoryFree (runValidation n v ps) := by
  induction ps with
  | nil => rw [runValidation]; exact pure _
  | cons p ps ih =>
    cases p with
    | minMaxValue lo hi less =>
      rw [runValidation]
      split
      · exact throw _
      · split
        · exact throw _
        · exact ih
    | validation t f =>
      rw [runValidation]
      exact bind (lift _) fun _ => ih
    | _ => rw [runValidation] <;> first | exact ih | simp

open HistoryFree in
theorem historyFree_parseLeaf (l : Leaf) : HistoryFree (parseLeaf l) := by
  have hopt : ∀ (n : Node) (a : List Value), HistoryFree (callIfRouter n a) := by
    intro n a
    unfold callIfRouter
    split
    · exact historyFree_callRouter _ _
    · exact pure _
  unfold parseLeaf
  split
  · exact bind (hopt _ _) fun _ => pure _
  · exact pure _
  all_goals first
    | exact bind (lift _) fun v => bind (historyFree_runValidation _ _ _) fun _ =>
        bind (hopt _ _) fun _ => pure _
    | exact bind (lift _) fun _ => bind (historyFree_callRouter _ _) fun _ => pure _
    | exact lift _

open HistoryFree in
theorem historyFree_processSubs (children : List Node) (ls : List Leaf)
    (results : List (Option Value)) : HistoryFree (processSubs children ls results) := by
  induction ls generalizing results with
  | nil => rw [processSubs]; exact pure _
  | cons l ls ih =>
    rw [processSubs]
    refine bind (historyFree_parseLeaf l) ?_
    intro o
    cases o with
    | none => exact ih _
    | some v =>
      simp only
      split
      · exact ih _
      · refine bind ?_ fun r => ih r
        unfold processResult
        split
        · exact pure _
        · simp only
          split
          · exact pure _
          · split
            · exact throw _
            · exact pure _

open HistoryFree in
theorem historyFree_runMissing (n : Node) (ps : List Policy) (r : Option Value) :
    HistoryFree (runMissing n ps r) := by
  induction ps generalizing r with
  | nil => rw [runMissing]; exact pure _
  | cons p ps ih =>
    cases p with
    | required => rw [runMissing]; exact throw _
    | runtimeEnableRequired e v =>
      rw [runMissing]
      split
      · exact throw _
      · exact ih _
    | _ => rw [runMissing] <;> first | exact ih _ | simp

open HistoryFree in
theorem historyFree_fillMissing (cs : List Node) (rs : List (Option Value)) :
    HistoryFree (fillMissing cs rs) := by
  induction cs generalizing rs with
  | nil => cases rs <;> exact pure _
  | cons c cs ih =>
    cases rs with
    | nil => exact pure _
    | cons r rs =>
      rw [fillMissing]
      refine HistoryFree.bind ?_ fun _ => HistoryFree.bind (ih rs) fun _ => pure _
      unfold fillResult
      split
      · exact pure _
      · split
        · exact pure _
        · refine bind ?_ fun _ => pure _
          unfold processMissing
          exact bind (historyFree_runMissing _ _ _) fun _ =>
            bind (historyFree_runValidation _ _ _) fun _ => pure _

open HistoryFree in
theorem historyFree_multiStage (cs : List Node) (rs : List (Option Value)) :
    HistoryFree (multiStageValidation cs rs) := by
  induction cs generalizing rs with
  | nil => cases rs <;> exact pure _
  | cons c cs ih =>
    cases rs with
    | nil => exact pure _
    | cons r rs =>
      rw [multiStageValidation]
      refine HistoryFree.bind ?_ fun _ => ih rs
      unfold validateStages
      split
      · split
        · exact historyFree_runValidation _ _ _
        · exact lift _
      · exact pure _

open HistoryFree in
theorem historyFree_parseMode (mode : Node) (subs : List Leaf) :
    HistoryFree (parseMode mode subs) := by
  unfold parseMode
  refine bind (historyFree_processSubs _ _ _) fun _ => bind (historyFree_fillMissing _ _) fun _ =>
    bind (historyFree_multiStage _ _) fun _ => ?_
  split
  · exact historyFree_callRouter _ _
  · exact throw _

open HistoryFree in
theorem historyFree_rootParse (cfg : Config) (root : Node) (args : List Token)
    (hn : NoOneOf root = true) : HistoryFree (rootParse cfg root args) := by
  have ha : ∀ n, HistoryFree (alwaysTrue n) := fun n => pure _
  have hloop : ∀ cs : List Node, (∀ c ∈ cs, NoOneOf c = true) →
      HistoryFree (rootLoop cfg root args cs) := by
    intro cs
    induction cs with
    | nil => intro _; rw [rootLoop]; exact pure _
    | cons c cs ih =>
      intro hcs
      rw [rootLoop]
      refine bind ?_ ?_
      · unfold offerTo
        split
        · exact historyFree_preParseMode _ _ _ _ ha c (hcs c List.mem_cons_self)
        · exact historyFree_preParse _ _ _ _ c _ (hcs c List.mem_cons_self) ha
      · intro o
        cases o with
        | none => exact ih fun c hc => hcs c (List.mem_cons_of_mem _ hc)
        | some r =>
          obtain ⟨t, args'⟩ := r
          simp only
          split
          · exact throw _
          · refine bind ?_ fun _ => pure _
            unfold runTarget
            split
            · exact historyFree_parseMode _ _
            · exact bind (historyFree_parseLeaf _) fun _ => pure _
  unfold rootParse
  refine bind (hloop root.children (noOneOf_children hn)) ?_
  intro x
  split
  · exact pure _
  · simp only
    split
    · exact throw _
    · exact lift _

/-- C33: for a tree without `one_of`, a parse leaves nothing behind but the router calls it made,
and its outcome and router calls are the same whatever happened before: for any two states of the
tree object (reached by any sequences of earlier parses). -/
theorem C33_no_trace (cfg : Config) (root : Node) (args : List Bytes) (hn : NoOneOf root = true) :
    ∃ (outcome : Out Unit) (made : List Call), ∀ before : St,
      parseArgs cfg root args before =
        (outcome, { before with calls := before.calls ++ made }) :=
  historyFree_rootParse cfg root _ hn

/-- Parse one command line after the other with the same tree object. -/
def parseAll (cfg : Config) (root : Node) : List (List Bytes) → St → St
  | [], s => s
  | args :: more, s => parseAll cfg root more (parseArgs cfg root args s).2

/-- C33 in terms of histories: after any sequence of parses, a parse has the outcome it has on a
freshly constructed tree. -/
theorem C33_history (cfg : Config) (root : Node) (history : List (List Bytes)) (args : List Bytes)
    (hn : NoOneOf root = true) :
    (parseArgs cfg root args (parseAll cfg root history .fresh)).1 =
      (parseArgs cfg root args .fresh).1 ∧
    ∃ made, (parseArgs cfg root args .fresh).2.calls = made ∧
      (parseArgs cfg root args (parseAll cfg root history .fresh)).2.calls =
        (parseAll cfg root history .fresh).calls ++ made := by
  obtain ⟨o, made, h⟩ := C33_no_trace cfg root args hn
  rw [h, h]
  exact ⟨rfl, made, by simp [St.fresh], rfl⟩

example : NoOneOf aliasRoot = true := by decide +kernel

/-- C15 is false: with a `one_of` in the tree, `--xx` parses on a fresh tree but is refused after
`--cert x` has been parsed with the same tree object. -/
theorem C15_false :
    (parseArgs .default oneOfRoot [b "--xx"] .fresh).1 = .ok () ∧
    (parseArgs .default oneOfRoot [b "--cert", b "x"] .fresh).1 = .ok () ∧
    (parseArgs .default oneOfRoot [b "--xx"]
      (parseArgs .default oneOfRoot [b "--cert", b "x"] .fresh).2).1 =
      .throw ⟨.one_of_selected_type_mismatch, [⟨.none, b "Choice"⟩]⟩ := by
  decide +kernel

/-- C15 is false even if the earlier parse failed: a rejected command line also decides which
alternative later parses may use. -/
theorem C15_after_failure_false :
    (parseArgs .default oneOfRoot [b "--cert"] .fresh).1 =
      .throw ⟨.minimum_count_not_reached, [⟨.long, b "cert"⟩]⟩ ∧
    (parseArgs .default oneOfRoot [b "--xx"]
      (parseArgs .default oneOfRoot [b "--cert"] .fresh).2).1 =
      .throw ⟨.one_of_selected_type_mismatch, [⟨.none, b "Choice"⟩]⟩ := by
  decide +kernel

/-- C15, what holds: it is true of every tree without `one_of`. -/
theorem C15_partial (cfg : Config) (root : Node) (history : List (List Bytes)) (args : List Bytes)
    (hn : NoOneOf root = true) :
    (parseArgs cfg root args (parseAll cfg root history .fresh)).1 =
      (parseArgs cfg root args .fresh).1 :=
  (C33_history cfg root history args hn).1

end Props

end ArgRouter
