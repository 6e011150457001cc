import Verif.Spec.Worth
import Verif.Props.Proper
import Verif.Props.NewLabels

/-!
# C124: how arguments are called and typed makes no difference to what is done with them
-/

namespace ArgRouter.Props

open Spec

/-! ## Policies -/

/-- The same, as far as values go. -/
def ValueAlike (p q : List Policy) : Prop := p.filterMap AboutValues = q.filterMap AboutValues

variable {p q : List Policy}

theorem worth_findSome (h : ValueAlike p q) {β : Type} {f : Policy → Option β}
    (hf : ∀ x, f x = (AboutValues x).bind f) : q.findSome? f = p.findSome? f := by
  have h1 : ∀ l : List Policy, l.findSome? f = (l.filterMap AboutValues).findSome? f := by
    intro l
    induction l with
    | nil => rfl
    | cons x l ih =>
      rw [List.findSome?_cons, hf x, List.filterMap_cons]
      cases AboutValues x with
      | none => exact ih
      | some y => simp only [Option.bind_some, List.findSome?_cons]; rw [ih]
  rw [h1 q, h1 p, h]

theorem worth_any (h : ValueAlike p q) {f : Policy → Bool} (hf : ∀ x, f x = (AboutValues x).any f) :
    q.any f = p.any f := by
  have h1 : ∀ l : List Policy, l.any f = (l.filterMap AboutValues).any f := by
    intro l
    induction l with
    | nil => rfl
    | cons x l ih =>
      rw [List.any_cons, hf x, List.filterMap_cons]
      cases AboutValues x with
      | none => exact ih
      | some y => simp only [Option.any_some, List.any_cons]; rw [ih]
  rw [h1 q, h1 p, h]

theorem validationOf_worth (n : Node) (v : Value) (l : List Policy) :
    validationOf n v l = validationOf n v (l.filterMap AboutValues) := by
  induction l with
  | nil => rfl
  | cons x l ih =>
    rw [List.filterMap_cons]
    cases x <;> simp only [AboutValues, validationOf, ih]

theorem missingOf_worth (n : Node) (l : List Policy) (r : Option Value) :
    missingOf n l r = missingOf n (l.filterMap AboutValues) r := by
  induction l generalizing r with
  | nil => rfl
  | cons x l ih =>
    rw [List.filterMap_cons]
    cases x with
    | required => rfl
    | runtimeEnableRequired e v =>
      show (if e then _ else missingOf n l (some v)) = if e then _ else missingOf n _ (some v)
      rw [← ih]
    | _ => exact ih _

/-! ## Values -/

variable {σ : Nat → Nat} {mode mode' : Node}

/-- The same object in the two modes. -/
def WorthPair (σ : Nat → Nat) (mode mode' x x' : Node) : Prop :=
  x ∈ mode.nodes ∧ x' ∈ mode'.nodes ∧ Alike ValueAlike σ x x'

local notation "Pr" => WorthPair σ mode mode'

theorem worth_throw {α : Type} {x x' : Node} (h : Pr x x') (ec : ErrorCode) :
    EndPair mode mode' (.throw ⟨ec, [x.tokenType]⟩ : Out α) (.throw ⟨ec, [x'.tokenType]⟩) :=
  .inr (.throws rfl (.cons (.inr ⟨x, h.1, x', h.2.1, h.2.2.uid.symm, rfl, rfl⟩) .nil))

theorem worth_validation {c c' : Node} (h : Pr c c') (v : Value) :
    EndPair mode mode' (validationOf c v c.policies) (validationOf c' v c'.policies) := by
  rw [validationOf_worth c, validationOf_worth c', ← show _ = _ from h.2.2.policies]
  generalize c.policies.filterMap AboutValues = l
  induction l with
  | nil => exact .refl _
  | cons x l ih =>
    cases x with
    | minMaxValue lo hi less =>
      simp only [validationOf]
      split
      · exact worth_throw h _
      · split
        · exact worth_throw h _
        · exact ih
    | validation t f =>
      simp only [validationOf]
      exact .bind (.refl _) fun _ => ih
    | _ => exact ih

theorem worth_missing {c c' : Node} (h : Pr c c') (r : Option Value) :
    EndPair mode mode' (missingOf c c.policies r) (missingOf c' c'.policies r) := by
  rw [missingOf_worth c, missingOf_worth c', ← show _ = _ from h.2.2.policies]
  generalize c.policies.filterMap AboutValues = l
  induction l generalizing r with
  | nil => exact .refl _
  | cons x l ih =>
    cases x with
    | required => exact worth_throw h _
    | runtimeEnableRequired e v =>
      simp only [missingOf]
      split
      · exact worth_throw h _
      · exact ih _
    | defaultValue v => exact ih _
    | _ => exact ih _

theorem worth_parseValue {c c' : Node} (h : Alike ValueAlike σ c c') (ts : List Token) :
    parseValue c' ts = parseValue c ts := by
  have hp : parseToken c' = parseToken c := by
    funext s
    unfold parseToken
    rw [h.vt, worth_findSome h.policies (by intro x; cases x <;> rfl)]
  have hl : ∀ ts, parseTokens c' ts = parseTokens c ts := by
    intro ts
    induction ts with
    | nil => rfl
    | cons t ts ih => simp only [parseTokens, hp, ih]
  simp only [parseValue, hp, hl, h.vt]

/-- The same use. -/
def WorthUse (σ : Nat → Nat) (mode mode' : Node) (l l' : Leaf) : Prop :=
  WorthPair σ mode mode' l.node l'.node ∧ l.tokens = l'.tokens

local notation "Us" => WorthUse σ mode mode'

theorem worth_valueOf {l l' : Leaf} (h : Us l l') : EndPair mode mode' (valueOf l) (valueOf l') := by
  have ht : TakesValues l'.node = TakesValues l.node := by
    rw [TakesValues, TakesValues, h.1.2.2.kind]
  unfold valueOf
  rw [ht, ← h.2, worth_parseValue h.1.2.2]
  split
  · exact .bind (.refl _) fun v => .bind (worth_validation h.1 v) fun _ => .refl _
  · exact .refl _

theorem worth_noResult {c c' : Node} (h : Alike ValueAlike σ c c') : c'.hasNoResult = c.hasNoResult :=
  worth_any h.policies (by intro x; cases x <;> rfl)

theorem worth_multi {c c' : Node} (h : Alike ValueAlike σ c c') : c'.isMultiStage = c.isMultiStage :=
  worth_any h.policies (by intro x; cases x <;> rfl)

theorem worth_findChild (hσ : ∀ a b, σ a = σ b → a = b) {x x' : Node} (hx : Pr x x')
    {cs ds : List Node} (h : Zip (Alike ValueAlike σ) cs ds) (i : Nat) :
    OptRel (fun x y => x.1 = y.1 ∧ Alike ValueAlike σ x.2.1 y.2.1 ∧ Alike ValueAlike σ x.2.2 y.2.2)
      (findChild x.hash cs i) (findChild x'.hash ds i) := by
  induction h generalizing i with
  | nil => exact .none
  | @cons c d _ _ h1 _ ih =>
    simp only [findChild]
    have hm : OptRel (Alike ValueAlike σ) (matchChild x.hash c) (matchChild x'.hash d) := by
      refine zip_find (fun y z hyz => ?_) (nodes_relabel c h1)
      have he : (z.hash == x'.hash) = (y.hash == x.hash) := by
        rw [hyz.hash, hx.2.2.hash]
        by_cases e : y.hash = x.hash
        · simp [e]
        · rw [beq_eq_false_iff_ne.2 e, beq_eq_false_iff_ne.2 fun e' => e (hσ _ _ e')]
      rw [he, Node.hasParse, Node.hasParse, hyz.kind]
    revert hm
    generalize matchChild x.hash c = o
    generalize matchChild x'.hash d = o'
    intro hm
    cases hm with
    | none => exact ih _
    | some hm => exact .some ⟨rfl, h1, hm⟩

theorem worth_collect (hσ : ∀ a b, σ a = σ b → a = b) (hm : Alike ValueAlike σ mode mode')
    {ls ls' : List Leaf} (hl : Zip Us ls ls') (rs : List (Option Value)) :
    EndPair mode mode' (collectOf mode.children ls rs) (collectOf mode'.children ls' rs) := by
  induction hl generalizing rs with
  | nil => exact .refl _
  | @cons l l' _ _ h1 _ ih =>
    simp only [collectOf]
    refine .bind (worth_valueOf h1) fun v => ?_
    have hf := worth_findChild hσ h1.1 hm.children 0
    have hmem : ∀ y, findChild l.node.hash mode.children 0 = some y → y.2.2 ∈ mode.nodes :=
      fun y hy => child_mem_nodes (findChild_mem (c := y.2.1) (n := y.2.2) (j := y.1) hy).1 _
        (findChild_mem (c := y.2.1) (n := y.2.2) (j := y.1) hy).2.1
    have hmem' : ∀ y, findChild l'.node.hash mode'.children 0 = some y → y.2.2 ∈ mode'.nodes :=
      fun y hy => child_mem_nodes (findChild_mem (c := y.2.1) (n := y.2.2) (j := y.1) hy).1 _
        (findChild_mem (c := y.2.1) (n := y.2.2) (j := y.1) hy).2.1
    revert hf hmem hmem'
    generalize findChild _ mode.children 0 = o
    generalize findChild _ mode'.children 0 = o'
    intro hf hmem hmem'
    cases hf with
    | none => exact ih _
    | @some a c hf =>
      have hin := hmem _ rfl
      have hin' := hmem' _ rfl
      obtain ⟨i, ca, sa⟩ := a
      obtain ⟨j, cc, sc⟩ := c
      obtain ⟨e, h2, h3⟩ := hf
      simp only at e h2 h3 hin hin'
      subst e
      have hmv : mergeValue sc = mergeValue sa := by
        funext old v
        unfold mergeValue
        rw [worth_findSome h3.policies (by intro x; cases x <;> rfl)]
      simp only [worth_noResult h2, worth_multi h3, hmv]
      split
      · exact ih _
      · split
        · exact ih _
        · split
          · exact worth_throw (σ := σ) ⟨hin, hin', h3⟩ _
          · exact ih _

theorem worth_fill {c c' : Node} (h : Pr c c') (r : Option Value) :
    EndPair mode mode' (fillValue c r) (fillValue c' r) := by
  cases r with
  | some v => exact .refl _
  | none =>
    refine .bind (worth_missing h none) fun r => ?_
    rw [h.2.2.vt]
    exact .bind (worth_validation h _) fun _ => .refl _

theorem worth_check {c c' : Node} (h : Pr c c') (v : Value) :
    EndPair mode mode' (checkValue c v) (checkValue c' v) := by
  have ha : c'.children.any Node.isMultiStage = c.children.any Node.isMultiStage :=
    (zip_any (f := Node.isMultiStage) (g := Node.isMultiStage) (fun a b hab => (worth_multi hab).symm)
      h.2.2.children).symm
  unfold checkValue
  rw [worth_multi h.2.2, ha]
  split
  · exact worth_validation h v
  · exact .refl _

theorem worth_valued (hm : Alike ValueAlike σ mode mode') :
    Zip (fun x y => Pr x.1 y.1 ∧ x.2 = y.2) (valued mode.children) (valued mode'.children) := by
  have hz : Zip Pr mode.children mode'.children :=
    zip_imp hm.children fun x hx y hy hxy =>
      ⟨child_mem_nodes hx _ (self_mem_nodes _), child_mem_nodes hy _ (self_mem_nodes _), hxy⟩
  refine zip_filter (fun a b hab => by rw [worth_noResult hab.1.2.2]) ?_
  generalize mode.children = cs at hz ⊢
  generalize mode'.children = ds at hz ⊢
  generalize 0 = k
  induction hz generalizing k with
  | nil => exact .nil
  | cons h1 _ ih =>
    rw [List.zipIdx_cons, List.zipIdx_cons]
    exact .cons ⟨h1, rfl⟩ (ih _)

theorem worth_modeOf (hσ : ∀ a b, σ a = σ b → a = b) (hm : Alike ValueAlike σ mode mode')
    {ls ls' : List Leaf} (hl : Zip Us ls ls') :
    EndPair mode mode' (modeOf mode ls) (modeOf mode' ls') := by
  have hr : mode'.hasRouter = mode.hasRouter := worth_any hm.policies (by intro x; cases x <;> rfl)
  unfold modeOf
  rw [← zip_length hm.children, hr]
  refine .bind (worth_collect hσ hm hl _) fun rs => ?_
  refine .bind (relabel_oneByOne (fun a b hab => ?_) (worth_valued hm)) fun vals => ?_
  · rw [← hab.2]
    exact worth_fill hab.1 _
  refine .bind (relabel_oneByOne (fun a b hab => ?_) (zip_zip (worth_valued hm) vals)) fun _ => ?_
  · rw [← hab.2]
    exact worth_check hab.1.1 _
  split
  · exact .refl _
  · exact worth_throw (σ := σ) ⟨self_mem_nodes _, self_mem_nodes _, hm⟩ _

/-! ## C124 -/

variable {cfg cfg' : Config} {root root' : Node} {names names' : List Bytes} {depth depth' : Nat}

/-- C124: how arguments are called and typed makes no difference to what is done with them. In two programs
the modes have the same children, as far as values go. Typing the same arguments with the same values, each
as it is typed in the program, does the same: the routers of the modes are called with the same values, or
there is the same error, about the same argument. -/
theorem C124_called (hc : compiles cfg depth defaultRules root = true) (hu : Conventional root)
    (hobj : (root.nodes.map Node.uid).Nodup)
    (hc' : compiles cfg' depth' defaultRules root' = true) (hu' : Conventional root')
    (hobj' : (root'.nodes.map Node.uid).Nodup) (hσ : ∀ a b, σ a = σ b → a = b)
    (hm : SameValues σ mode mode') {ps ps' : List TypedArg} (hps : Zip (SameInput mode mode') ps ps')
    (s s' : St) (hl : LedTo cfg root mode names (typed ps)) (hl' : LedTo cfg' root' mode' names' (typed ps'))
    (hp : Proper cfg mode s.sel ps) (hp' : Proper cfg' mode' s'.sel ps')
    (htext : ∀ x ∈ names ++ typed ps, Readable cfg ⟨.none, x⟩)
    (hlen : ((names ++ typed ps).map List.length).sum + (names ++ typed ps).length < 2 ^ 63)
    (htext' : ∀ x ∈ names' ++ typed ps', Readable cfg' ⟨.none, x⟩)
    (hlen' : ((names' ++ typed ps').map List.length).sum + (names' ++ typed ps').length < 2 ^ 63) :
    SameWorth mode mode' s s' (parseArgs cfg root (names ++ typed ps) s)
      (parseArgs cfg' root' (names' ++ typed ps') s') := by
  obtain ⟨-, ch, hrun⟩ := proper_run hc hu hobj s hl hp htext hlen
  obtain ⟨-, ch', hrun'⟩ := proper_run hc' hu' hobj' s' hl' hp' htext' hlen'
  rw [hrun, hrun']
  have hz : Zip Us (ps.map TypedArg.use) (ps'.map TypedArg.use) := by
    refine zip_map (fun a b h => ?_) hps
    obtain ⟨⟨k, h1, h2⟩, h3⟩ := h
    have h4 := zip_getElem (argumentsFrom_relabel hm.children 0) k
    have h1' : (argumentsFrom 0 mode.children)[k]? = some a.argument := h1
    have h2' : (argumentsFrom 0 mode'.children)[k]? = some b.argument := h2
    rw [h1', h2'] at h4
    cases h4 with
    | some h4 =>
      exact ⟨⟨arguments_nodes (List.mem_of_getElem? h1), arguments_nodes (List.mem_of_getElem? h2), h4.2⟩, h3⟩
  have hmo := worth_modeOf hσ hm hz
  generalize modeOf mode _ = o at hmo
  generalize modeOf mode' _ = o' at hmo
  rcases hmo with ⟨vals, rfl, rfl⟩ | h
  · exact .calls vals rfl rfl
  · cases h with
    | throws hec ht => exact .fails (.throws hec ht) rfl rfl
    | foreign => exact .fails .foreign rfl rfl
    | undefined => exact .fails .undefined rfl rfl
    | forever => exact .fails .forever rfl rfl

/-! ## Examples -/

/-- A test for words that an argument has nothing to do with. -/
def unlike (c : Node) (w : Bytes) : Bool :=
  (match c.longName with | some l => !(w == b "--" ++ l) | none => true) &&
  (match c.shortName with | some l => !(w == b "-" ++ l) | none => true) &&
  (match c.noneName with | some l => !(w == l) | none => true) &&
  (c.policies.all fun | .valueSeparator s => s.all fun ch => !w.contains ch | _ => true) &&
  ((c.policies.all fun | .shortFormExpander => false | _ => true) ||
    match Utf8.graphemes (w.drop 1) with | .ok (g :: _) => !(c.shortName == some g) | _ => true)

theorem unmentioned_of_test {c : Node} {w : Bytes} (h : unlike c w = true) :
    ¬ Mentions .default c ⟨.none, w⟩ := by
  simp only [unlike, Bool.and_eq_true] at h
  obtain ⟨⟨⟨⟨h1, h2⟩, h3⟩, h4⟩, h5⟩ := h
  rintro (h' | ⟨l, ch, v, hw, h', _⟩ | ⟨x, g', gs, he, h', hg, hs⟩)
  · rcases h' with ⟨l', hl, hw⟩ | ⟨l', hl, hw, _⟩ | ⟨hl, _⟩
    · rw [hl] at h1
      simp only [Bool.not_eq_true', beq_eq_false_iff_ne] at h1
      exact h1 hw
    · rw [hl] at h2
      simp only [Bool.not_eq_true', beq_eq_false_iff_ne] at h2
      exact h2 hw
    · rw [hl] at h3
      simp at h3
  · have := List.all_eq_true.1 h4 _ h'
    simp only [List.all_cons, List.all_nil, Bool.and_true, Bool.not_eq_true', List.contains_eq_mem,
      decide_eq_false_iff_not] at this
    exact this (by rw [show w = _ from hw]; simp)
  · rcases h' with ⟨h', _⟩ | ⟨_, hw, _⟩
    · cases h'
    · have hx : w.drop 1 = x := by rw [show w = _ from hw]; rfl
      rw [hx, hg, hs, Bool.or_eq_true] at h5
      rcases h5 with h5 | h5
      · exact absurd (List.all_eq_true.1 h5 _ he) (by simp)
      · simp at h5

/-- `dulyRoot` with other names, a mode called `run`, and a separator. -/
def hereVerbose : Node := mkCountingFlag .default 202 302 64 [.longName (b "loud"), .shortName (b "l")]
def hereNum : Node := mkArg 203 303 digitType [.longName (b "size"), .valueSeparator (b "="), .required,
  .minMaxValue (some (.one (.int 2))) (some (.one (.int 7))) intLess]
def hereDepth : Node := mkArg 204 304 digitType [.shortName (b "d"), .defaultValue (.one (.int 1)),
  .dependent [.long (b "size")]]
def hereFiles : Node := mkPositional 205 305 textsType [.displayName (b "INPUT")]
def hereMode : Node := mkMode 206 306 [.noneName (b "run"), .router] [hereVerbose, hereNum, hereDepth, hereFiles]
def hereRoot : Node := mkRoot 207 307 [hereMode]

def hereTyped : List TypedArg :=
  [⟨(0, hereVerbose), shapeOf hereVerbose, b "--loud", [], []⟩,
   ⟨(1, hereNum), shapeOf hereNum, b "--size" ++ 61 :: b "5", [], [⟨.none, b "5"⟩]⟩,
   ⟨(0, hereVerbose), shapeOf hereVerbose, b "-l", [], []⟩,
   ⟨(2, hereDepth), shapeOf hereDepth, b "-d", [b "3"], [⟨.none, b "3"⟩]⟩,
   ⟨(3, hereFiles), shapeOf hereFiles, b "in", [b "out"], [⟨.none, b "in"⟩, ⟨.none, b "out"⟩]⟩]

theorem here_proper : Proper .default hereMode [] hereTyped where
  typed := by
    have h1 : ∀ w, w = b "-l" ∨ w = b "--loud" →
        TypedArg.Fits .default hereMode ⟨(0, hereVerbose), shapeOf hereVerbose, w, [], []⟩ := by
      intro w hw
      refine C114_label (more := []) (declared_of_test (by decide +kernel)) rfl (by decide) (by decide) rfl rfl
        ?_ ⟨[], [(1, hereNum), (2, hereDepth), (3, hereFiles)], rfl, by simp⟩
      rcases hw with rfl | rfl
      · exact .inr (.inl ⟨b "l", rfl, rfl, by decide⟩)
      · exact .inl ⟨b "loud", rfl, rfl⟩
    intro before p after h
    match before, h with
    | [], h => cases h; exact .inl (h1 _ (.inr rfl))
    | [_], h =>
      cases h
      refine .inl (C114_separator (declared_of_test (by decide +kernel)) rfl rfl (by decide)
        (by decide) (.inl ⟨b "size", rfl, rfl⟩)
        ⟨[(0, hereVerbose)], [(2, hereDepth), (3, hereFiles)], rfl, ?_⟩)
      simp only [List.mem_cons, List.not_mem_nil, or_false]
      rintro x rfl
      exact ⟨rfl, unmentioned_of_test (by decide +kernel)⟩
    | [_, _], h => cases h; exact .inl (h1 _ (.inl rfl))
    | [_, _, _], h =>
      cases h
      refine .inl (C114_label (more := [b "3"]) (declared_of_test (by decide +kernel)) rfl (by decide)
        (by decide) rfl rfl (.inr (.inl ⟨b "d", rfl, rfl, by decide⟩))
        ⟨[(0, hereVerbose), (1, hereNum)], [(3, hereFiles)], rfl, ?_⟩)
      simp only [List.mem_cons, List.not_mem_nil, or_false]
      rintro x (rfl | rfl)
      · exact ⟨rfl, unmentioned_of_test (by decide +kernel)⟩
      · exact ⟨rfl, unmentioned_of_test (by decide +kernel)⟩
    | [_, _, _, _], h =>
      cases h
      refine .inr ⟨rfl, declared_of_test (by decide +kernel), rfl, rfl, by decide +kernel, rfl,
        [(0, hereVerbose), (1, hereNum), (2, hereDepth)], [], rfl, ?_⟩
      simp only [List.mem_cons, List.not_mem_nil, or_false]
      rintro x (rfl | rfl | rfl)
      · exact ⟨rfl, unmentioned_of_test (by decide +kernel)⟩
      · exact ⟨rfl, unmentioned_of_test (by decide +kernel)⟩
      · exact ⟨rfl, unmentioned_of_test (by decide +kernel)⟩
    | _ :: _ :: _ :: _ :: _ :: before, h => simp [hereTyped] at h
  once := by
    have hm : ¬ OnceOnly hereVerbose := by
      rw [onceOnly_iff]
      decide
    simp only [hereTyped, List.pairwise_cons, List.mem_cons, List.not_mem_nil, or_false, forall_eq_or_imp,
      forall_eq]
    simp [hm]
  needs := by
    intro before p after h
    match before, h with
    | [], h => cases h; exact fun _ h => nomatch h
    | [_], h => cases h; exact fun _ h => nomatch h
    | [_, _], h => cases h; exact fun _ h => nomatch h
    | [_, x, _], h =>
      cases h
      intro refs hr y hy
      cases hr
      have : hereMode.owners [.long (b "size")] = [hereNum] := by rfl
      have hy : y ∈ hereMode.owners [.long (b "size")] := hy
      rw [this] at hy
      simp only [List.mem_cons, List.not_mem_nil, or_false] at hy
      subst hy
      exact ⟨_, List.mem_cons_of_mem _ List.mem_cons_self, rfl⟩
    | [_, _, _, _], h => cases h; exact fun _ h => nomatch h
    | _ :: _ :: _ :: _ :: _ :: before, h => simp [hereTyped] at h
  alternatives := by
    rintro p - o ⟨-, h, h2, -⟩
    cases h2
  own := by
    simp only [hereTyped, List.mem_cons, List.not_mem_nil, or_false]
    rintro p (rfl | rfl | rfl | rfl | rfl)
    all_goals
      refine ⟨rfl, (isFor_iff _ _ _).2 ⟨_, _, rfl⟩, fun c hc => ?_⟩
      cases hc
      exact (forArgument_iff _ _ _).2 rfl

theorem hereMode_led (rest : List Bytes) : LedTo .default hereRoot hereMode [b "run"] rest where
  way := ⟨[], hereMode, [], rfl, .names (.here ⟨rfl, rfl, .refl _⟩ ((labelTest_iff _ _ _).1 (by decide +kernel))), fun d hd => nomatch hd⟩
  here := by
    intro t _ d hd hk
    have : ∀ d ∈ hereMode.children, d.kind ≠ .mode := by decide
    exact absurd hk (this d hd)

/-- The hypotheses of `C124_called` are met, by `-v --num 5 --verbose --depth 3 in out` for the one program
and `run --loud --size=5 -l -d 3 in out` for the other. -/
example : compiles .default 100 defaultRules hereRoot = true ∧ Conventional hereRoot ∧
    (hereRoot.nodes.map Node.uid).Nodup ∧ SameValues (· + 100) dulyMode hereMode ∧
    Zip (SameInput dulyMode hereMode) dulyTyped hereTyped ∧
    Proper .default hereMode St.fresh.sel hereTyped ∧ LedTo .default hereRoot hereMode [b "run"] (typed hereTyped) ∧
    parseArgs .default hereRoot (b "run" :: typed hereTyped) .fresh =
      (.ok (), ⟨[], [⟨206, [.one (.int 2), .one (.int 5), .one (.int 3),
        .many [.str (b "in"), .str (b "out")]]⟩]⟩) :=
  ⟨by decide +kernel, conventional_of_test (by decide +kernel), by decide,
    .mk (by rfl) (.cons (.mk (by rfl) .nil) (.cons (.mk (by rfl) .nil) (.cons (.mk (by rfl) .nil)
      (.cons (.mk (by rfl) .nil) .nil)))),
    .cons ⟨⟨0, rfl, rfl⟩, rfl⟩ (.cons ⟨⟨1, rfl, rfl⟩, rfl⟩ (.cons ⟨⟨0, rfl, rfl⟩, rfl⟩
      (.cons ⟨⟨2, rfl, rfl⟩, rfl⟩ (.cons ⟨⟨3, rfl, rfl⟩, rfl⟩ .nil)))),
    here_proper, hereMode_led _, by decide +kernel⟩

/-- The same error, about the argument that the one program calls `--num` and the other `--size`. -/
example : parseArgs .default dulyRoot [b "-v", b "--num", b "9"] .fresh =
      (.throw ⟨.maximum_value_exceeded, [⟨.long, b "num"⟩]⟩, .fresh) ∧
    parseArgs .default hereRoot [b "run", b "-l", b "--size=9"] .fresh =
      (.throw ⟨.maximum_value_exceeded, [⟨.long, b "size"⟩]⟩, .fresh) := by
  decide +kernel

end ArgRouter.Props
