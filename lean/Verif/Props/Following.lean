import Verif.Spec.Following
import Verif.Props.Proper

/-!
# C125: doing what the error messages say leads to success
-/

namespace ArgRouter.Props

open Spec

variable {cfg : Config} {mode root : Node} {names : List Bytes} {depth : Nat}

/-! ## Parts of a proper command line -/

theorem proper_part {chosen : Choices} {xs ys : List TypedArg} (h : Proper cfg mode chosen (xs ++ ys)) :
    Proper cfg mode chosen xs where
  typed := by
    intro before p after he
    rcases h.typed before p (after ++ ys) (by rw [he]; simp) with h1 | ⟨h1, h2⟩
    · exact .inl h1
    · exact .inr ⟨(List.append_eq_nil_iff.1 h1).1, h2⟩
  once := (List.pairwise_append.1 h.once).1
  needs := fun before p after he => h.needs before p (after ++ ys) (by rw [he]; simp)
  alternatives := fun p hp => h.alternatives p (List.mem_append_left _ hp)
  own := fun p hp => h.own p (List.mem_append_left _ hp)

theorem head_part {α : Type} {l m : List α} {y : α} (h : y ∈ l.head?) : y ∈ (l ++ m).head? := by
  cases l with
  | nil => cases h
  | cons a l => exact h

theorem ledTo_part {xs ys : List Bytes} (h : LedTo cfg root mode names (xs ++ ys)) :
    LedTo cfg root mode names xs where
  way := by
    obtain ⟨before, m, after, h1, h2, h3⟩ := h.way
    refine ⟨before, m, after, h1, h2, fun d hd => ⟨(h3 d hd).1, fun y hy => (h3 d hd).2 y ?_⟩⟩
    rw [← List.append_assoc]
    exact head_part hy
  here := fun t ht => h.here t (by rw [List.map_append]; exact head_part ht)

theorem typed_append (xs ys : List TypedArg) : typed (xs ++ ys) = typed xs ++ typed ys :=
  List.flatMap_append

/-- Whether a child has a value depends on its own uses only. -/
theorem hasValue_same {ps qs : List TypedArg} {d : Node × Nat} {v : Value}
    (h : ps.filter (fun p => p.argument.1 == d.2) = qs.filter fun p => p.argument.1 == d.2)
    (hv : HasValue ps d v) : HasValue qs d v := by
  cases hv with
  | typed h1 h2 => exact .typed (h ▸ h1) h2
  | default h1 h2 h3 => exact .default (h ▸ h1) h2 h3

theorem valued_sorted (cs : List Node) : (valued cs).Pairwise fun x y => x.2 < y.2 := by
  refine List.Pairwise.filter _ ?_
  generalize 0 = k
  induction cs generalizing k with
  | nil => exact .nil
  | cons c cs ih =>
    rw [List.zipIdx_cons]
    refine .cons (fun x hx => ?_) (ih _)
    have := List.le_snd_of_mem_zipIdx hx
    exact this

theorem zip_left {α β : Type} {R : α → β → Prop} {as : List α} {bs : List β} (h : Zip R as bs) :
    ∀ a ∈ as, ∃ y, R a y := by
  induction h with
  | nil => simp
  | cons h1 _ ih =>
    intro a ha
    rcases List.mem_cons.1 ha with rfl | ha
    · exact ⟨_, h1⟩
    · exact ih a ha

/-! ## The first that is missing -/

theorem oneByOne_first {does : Node × Nat → Out Value → Prop} {before after : List (Node × Nat)}
    {d : Node × Nat} {e : Exc} (hb : ∀ x ∈ before, ∃ v, does x (.ok v)) (hd : does d (.throw e)) :
    OneByOne does (before ++ d :: after) (.throw e) := by
  induction before with
  | nil => exact .fails hd (.throws e)
  | cons x before ih =>
    obtain ⟨v, hv⟩ := hb x List.mem_cons_self
    exact .later hv (ih fun y hy => hb y (List.mem_cons_of_mem _ hy)) (.throws e)

theorem missing_does {ps : List TypedArg} {chosen : Choices} (hp : Proper cfg mode chosen ps)
    (hg : ∀ p ∈ ps, ∃ v, Gives p.use (.ok v)) {before after : List (Node × Nat)} {d : Node × Nat}
    (he : valued mode.children = before ++ d :: after) (hb : ∀ x ∈ before, ∃ v, HasValue ps x v)
    (hreq : MustBeGiven d.1) (hno : ∀ p ∈ ps, p.argument.1 ≠ d.2) :
    ModeDoes mode (ps.map TypedArg.use) (.throw ⟨.missing_required_argument, [d.1.tokenType]⟩) := by
  have ho : OwnUses mode ps := fun p hp' => (hp.own p hp').2
  obtain ⟨got, h3⟩ := collects_of ho (hp.once.imp fun h he => (h he).2) hg (got := fun _ => none)
    fun _ _ _ => rfl
  obtain ⟨-, h6⟩ := collects_gets ho h3
  refine .fillFails h3 (o := .throw ⟨.missing_required_argument, [d.1.tokenType]⟩) ?_ (.throws _)
  rw [he]
  refine oneByOne_first (fun x hx => ?_) ?_
  · obtain ⟨v, hv⟩ := hb x hx
    exact ⟨v, ((value_of_fills (h6 x (by rw [he]; simp [hx]))).2 hv).1⟩
  · have h7 := h6 d (by rw [he]; simp)
    have hf : (ps.filter fun p => p.argument.1 == d.2) = [] := by
      rw [List.filter_eq_nil_iff]
      intro p hp he
      exact hno p hp (by simpa using he)
    rw [hf] at h7
    generalize hr : got d.2 = r at h7 ⊢
    cases h7
    exact .missing hreq

/-! ## C125 -/

section
variable (hc : compiles cfg depth defaultRules root = true) (hu : Conventional root)
  (hobj : (root.nodes.map Node.uid).Nodup)
include hc hu hobj

/-- C125: of the required arguments that are missing, the error names the one declared first. -/
theorem C125_first {ps : List TypedArg} (s : St) (hl : LedTo cfg root mode names (typed ps))
    (hp : Proper cfg mode s.sel ps) (htext : ∀ x ∈ names ++ typed ps, Readable cfg ⟨.none, x⟩)
    (hlen : ((names ++ typed ps).map List.length).sum + (names ++ typed ps).length < 2 ^ 63)
    (hg : ∀ p ∈ ps, ∃ v, Gives p.use (.ok v)) {before after : List (Node × Nat)} {child : Node} {i : Nat}
    (he : valued mode.children = before ++ (child, i) :: after)
    (hb : ∀ x ∈ before, ∃ v, HasValue ps x v) (hreq : MustBeGiven child)
    (hno : ∀ p ∈ ps, p.argument.1 ≠ i) :
    (parseArgs cfg root (names ++ typed ps) s).1 =
      .throw ⟨.missing_required_argument, [child.tokenType]⟩ ∧
    (parseArgs cfg root (names ++ typed ps) s).2.calls = s.calls := by
  obtain ⟨huses, ch, hrun⟩ := proper_run hc hu hobj s hl hp htext hlen
  have hu' : ∀ l ∈ ps.map TypedArg.use, HasUses l.node := by
    intro l hl
    obtain ⟨p, hp, rfl⟩ := List.mem_map.1 hl
    exact huses p hp
  have h := (modeDoes_iff hu' _).1 (missing_does hp hg he hb hreq hno)
  rw [hrun, h]
  exact ⟨rfl, rfl⟩

/-- C125: doing what the error messages say leads to success. The command line `ps ++ qs` is accepted, and
`qs` are required arguments in the order of declaration. Someone who begins with `ps` and adds one after the
other is told each time which one is next, by its name, and the last time the router is called. -/
theorem C125_following {ps qs : List TypedArg} (s : St) (hl : LedTo cfg root mode names (typed (ps ++ qs)))
    (hp : Proper cfg mode s.sel (ps ++ qs)) (hrouter : .router ∈ mode.policies)
    (htext : ∀ x ∈ names ++ typed (ps ++ qs), Readable cfg ⟨.none, x⟩)
    (hlen : ((names ++ typed (ps ++ qs)).map List.length).sum + (names ++ typed (ps ++ qs)).length < 2 ^ 63)
    {vals : List Value} (hg : ∀ p ∈ ps ++ qs, ∃ v, Gives p.use (.ok v))
    (hvals : Zip (HasValue (ps ++ qs)) (valued mode.children) vals)
    (hq : ∀ q ∈ qs, ∃ child, Supplies mode ps child q)
    (horder : qs.Pairwise fun q r => q.argument.1 < r.argument.1) :
    (∀ done q todo child, qs = done ++ q :: todo → mode.children[q.argument.1]? = some child →
      (parseArgs cfg root (names ++ typed (ps ++ done)) s).1 =
        .throw ⟨.missing_required_argument, [child.tokenType]⟩ ∧
      (parseArgs cfg root (names ++ typed (ps ++ done)) s).2.calls = s.calls) ∧
    (parseArgs cfg root (names ++ typed (ps ++ qs)) s).1 = .ok () ∧
    (parseArgs cfg root (names ++ typed (ps ++ qs)) s).2.calls = s.calls ++ [⟨mode.uid, vals⟩] := by
  refine ⟨?_, (C123_accepted hc hu hobj s hl hp hrouter htext hlen vals).2 ⟨hg, hvals⟩⟩
  intro done q todo child he hchild
  obtain ⟨c, h1, h2, h3, h4⟩ := hq q (by rw [he]; simp)
  rw [hchild] at h1
  cases h1
  have hsplit : ps ++ qs = (ps ++ done) ++ q :: todo := by rw [he, List.append_assoc]
  have hord := horder
  rw [he, List.pairwise_append] at hord
  obtain ⟨-, ho1, ho2⟩ := hord
  have hsub : (names ++ typed (ps ++ done)).Sublist (names ++ typed (ps ++ qs)) := by
    rw [hsplit, typed_append (ps ++ done)]
    exact (List.Sublist.refl _).append (List.sublist_append_left _ _)
  have hmem : (child, q.argument.1) ∈ valued mode.children :=
    List.mem_filter.2 ⟨List.mem_zipIdx_iff_getElem?.2 hchild, by simp [h2]⟩
  obtain ⟨before, after, hv⟩ := List.append_of_mem hmem
  have hlow : ∀ x ∈ before, x.2 < q.argument.1 := by
    have h5 := valued_sorted mode.children
    rw [hv, List.pairwise_append] at h5
    exact fun x hx => h5.2.2 x hx _ List.mem_cons_self
  refine C125_first hc hu hobj s ?_ (proper_part (hsplit ▸ hp)) (fun x hx => htext x (hsub.subset hx))
    (fits_shorter hsub hlen) (fun p hp' => hg p (by rw [hsplit]; exact List.mem_append_left _ hp')) hv
    (fun x hx => ?_) h3 ?_
  · rw [hsplit, typed_append (ps ++ done)] at hl
    exact ledTo_part hl
  · have hxv : x ∈ valued mode.children := by rw [hv]; simp [hx]
    obtain ⟨v, hv'⟩ : ∃ v, HasValue (ps ++ qs) x v := by
      exact zip_left hvals x hxv
    refine ⟨v, hasValue_same ?_ hv'⟩
    rw [hsplit, List.filter_append]
    have hnil : ((q :: todo).filter fun p => p.argument.1 == x.2) = [] := by
      rw [List.filter_eq_nil_iff]
      intro r hr he'
      have he' : r.argument.1 = x.2 := by simpa using he'
      have h6 := hlow x hx
      rcases List.mem_cons.1 hr with rfl | hr
      · omega
      · have := (List.pairwise_cons.1 ho1).1 r hr
        omega
    rw [hnil, List.append_nil]
  · intro p hp' heq
    rcases List.mem_append.1 hp' with h | h
    · exact h4 p h heq
    · have := ho2 p h q List.mem_cons_self
      omega

end

/-! ## Examples -/

def askLevel : Node := mkArg 214 214 digitType [.longName (b "level"), .required]
def askMode : Node := mkMode 216 216 [.router] [dulyVerbose, dulyNum, askLevel, dulyFiles]
def askRoot : Node := mkRoot 217 217 [askMode]

def askFirst : List TypedArg := [⟨(0, dulyVerbose), shapeOf dulyVerbose, b "-v", [], []⟩]
def askNext : List TypedArg :=
  [⟨(1, dulyNum), shapeOf dulyNum, b "--num", [b "5"], [⟨.none, b "5"⟩]⟩,
   ⟨(2, askLevel), shapeOf askLevel, b "--level", [b "3"], [⟨.none, b "3"⟩]⟩]

theorem ask_proper : Proper .default askMode [] (askFirst ++ askNext) where
  typed := by
    intro before p after h
    match before, h with
    | [], h =>
      cases h
      exact .inl (C114_label (more := []) (declared_of_test (by decide +kernel)) rfl (by decide) (by decide) rfl
        rfl (.inr (.inl ⟨b "v", rfl, rfl, by decide⟩))
        ⟨[], [(1, dulyNum), (2, askLevel), (3, dulyFiles)], rfl, by simp⟩)
    | [_], h =>
      cases h
      refine .inl (C114_label (more := [b "5"]) (declared_of_test (by decide +kernel)) rfl (by decide)
        (by decide) rfl rfl (.inl ⟨b "num", rfl, rfl⟩)
        ⟨[(0, dulyVerbose)], [(2, askLevel), (3, dulyFiles)], rfl, ?_⟩)
      simp only [List.mem_cons, List.not_mem_nil, or_false]
      rintro x rfl
      exact ⟨rfl, dashes_unmentioned (l := b "num") (by decide) rfl (by decide)⟩
    | [_, _], h =>
      cases h
      refine .inl (C114_label (more := [b "3"]) (declared_of_test (by decide +kernel)) rfl (by decide)
        (by decide) rfl rfl (.inl ⟨b "level", rfl, rfl⟩)
        ⟨[(0, dulyVerbose), (1, dulyNum)], [(3, dulyFiles)], rfl, ?_⟩)
      simp only [List.mem_cons, List.not_mem_nil, or_false]
      rintro x (rfl | rfl)
      · exact ⟨rfl, dashes_unmentioned (l := b "level") (by decide) rfl (by decide)⟩
      · exact ⟨rfl, dashes_unmentioned (l := b "level") (by decide) rfl (by decide)⟩
    | _ :: _ :: _ :: before, h => simp [askFirst, askNext] at h
  once := by
    simp only [askFirst, askNext, List.cons_append, List.nil_append, List.pairwise_cons, List.mem_cons,
      List.not_mem_nil, or_false, forall_eq_or_imp, forall_eq]
    simp
  needs := by
    intro before p after h
    match before, h with
    | [], h => cases h; exact fun _ h => nomatch h
    | [_], h => cases h; exact fun _ h => nomatch h
    | [_, _], h => cases h; exact fun _ h => nomatch h
    | _ :: _ :: _ :: before, h => simp [askFirst, askNext] at h
  alternatives := by
    rintro p - o ⟨-, h, h2, -⟩
    cases h2
  own := by
    simp only [askFirst, askNext, List.cons_append, List.nil_append, List.mem_cons, List.not_mem_nil, or_false]
    rintro p (rfl | rfl | rfl)
    all_goals
      refine ⟨rfl, (isFor_iff _ _ _).2 ⟨_, _, rfl⟩, fun c hc => ?_⟩
      cases hc
      exact (forArgument_iff _ _ _).2 rfl

theorem askMode_led (rest : List Bytes) : LedTo .default askRoot askMode [] rest where
  way := ⟨[], askMode, [], rfl, .unnamed rfl (by decide), fun d hd => nomatch hd⟩
  here := by
    intro t _ d hd hk
    have : ∀ d ∈ askMode.children, d.kind ≠ .mode := by decide
    exact absurd hk (this d hd)

/-- The hypotheses of `C125_following` are met, by `-v`, with `--num 5` and `--level 3` to be added. The
values are what `C123_accepted` says of the whole command line. -/
example : compiles .default 100 defaultRules askRoot = true ∧ Conventional askRoot ∧
    (askRoot.nodes.map Node.uid).Nodup ∧ Proper .default askMode St.fresh.sel (askFirst ++ askNext) ∧
    LedTo .default askRoot askMode [] (typed (askFirst ++ askNext)) ∧ .router ∈ askMode.policies ∧
    (∀ q ∈ askNext, ∃ child, Supplies askMode askFirst child q) ∧
    (askNext.Pairwise fun q r => q.argument.1 < r.argument.1) ∧
    parseArgs .default askRoot (typed (askFirst ++ askNext)) .fresh =
      (.ok (), ⟨[], [⟨216, [.one (.int 1), .one (.int 5), .one (.int 3), .many []]⟩]⟩) := by
  refine ⟨by decide +kernel, conventional_of_test (by decide +kernel), by decide, ask_proper, askMode_led _,
    by simp [askMode, mkMode, modePolicies, Node.policies], ?_, by decide, by decide +kernel⟩
  simp only [askNext, List.mem_cons, List.not_mem_nil, or_false]
  rintro q (rfl | rfl)
  · exact ⟨dulyNum, rfl, rfl, .inl (by simp [dulyNum, mkArg, Node.policies]), by simp [askFirst]⟩
  · exact ⟨askLevel, rfl, rfl, .inl (by simp [askLevel, mkArg, Node.policies]), by simp [askFirst]⟩

/-- And this is what the user is told. -/
example : parseArgs .default askRoot [b "-v"] .fresh =
      (.throw ⟨.missing_required_argument, [⟨.long, b "num"⟩]⟩, .fresh) ∧
    parseArgs .default askRoot [b "-v", b "--num", b "5"] .fresh =
      (.throw ⟨.missing_required_argument, [⟨.long, b "level"⟩]⟩, .fresh) := by
  decide +kernel

end ArgRouter.Props
