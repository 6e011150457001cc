import Verif.Spec.Moved
import Verif.Props.TypedValue

/-!
# The same mode in another program

C120: a mode does the same wherever it is in a program, and whatever it is called.
-/

namespace ArgRouter.Props

open Spec

variable {cfg : Config} {depth : Nat} {root mode mode' : Node} {names : List Bytes}

theorem _root_.ArgRouter.Spec.SameInside.symm (h : SameInside mode mode') : SameInside mode' mode :=
  ⟨h.children.symm, h.router.symm, h.enabled.symm,
    fun s => by have := h.plain s; simp only [List.mem_append, not_or] at this ⊢; exact ⟨this.1.symm, this.2.symm⟩,
    fun c hc x hx => (h.proper c (h.children ▸ hc) x hx).symm⟩

theorem plain_refs {n : Node} (h : ∀ s, Policy.longName s ∉ n.policies ∧ Policy.shortName s ∉ n.policies) :
    n.nameRefs = [] := by
  rw [Node.nameRefs, List.filterMap_eq_nil_iff]
  intro p hp
  cases p with
  | longName s => exact absurd hp (h s).1
  | shortName s => exact absurd hp (h s).2
  | _ => rfl

theorem _root_.ArgRouter.Spec.SameInside.refs (h : SameInside mode mode') : mode.nameRefs = [] ∧ mode'.nameRefs = [] := by
  constructor <;> refine plain_refs fun s => ?_ <;> have := h.plain s <;>
    simp only [List.mem_append, not_or] at this
  · exact ⟨this.1.1, this.2.1⟩
  · exact ⟨this.1.2, this.2.2⟩

theorem owners_children {n : Node} (h : n.nameRefs = []) (refs : List NameRef) :
    n.owners refs = Node.ownersList refs n.children := by
  obtain ⟨k, u, hh, v, p, cs⟩ := n
  rw [Node.owners, h]
  simp [Node.children]

theorem namedNodes_children {n : Node} (h : n.nameRefs = []) (refs : List NameRef) :
    namedNodes n refs = (nodesList n.children).filter fun d => d.nameRefs.any fun r => refs.contains r := by
  obtain ⟨k, u, hh, v, p, cs⟩ := n
  rw [namedNodes, nodes_mk, List.filter_cons, h]
  simp [Node.children]

theorem same_owners (h : SameInside mode mode') (refs : List NameRef) :
    mode'.owners refs = mode.owners refs := by
  rw [owners_children h.refs.1, owners_children h.refs.2, h.children]

theorem same_namedNodes (h : SameInside mode mode') (refs : List NameRef) :
    namedNodes mode' refs = namedNodes mode refs := by
  rw [namedNodes_children h.refs.1, namedNodes_children h.refs.2, h.children]

theorem same_seen (h : SameInside mode mode') {refs : List NameRef} {x : Node}
    (hx : x ∈ mode.owners refs) (sofar : List Leaf) :
    Spec.Seen ⟨mode', [], sofar⟩ x ↔ Spec.Seen ⟨mode, [], sofar⟩ x := by
  have hin : ∃ c ∈ mode.children, x ∈ c.nodes := by
    obtain ⟨h1, r, h2, -⟩ := (mem_owners refs x mode).1 hx
    have hr := h.refs.1
    obtain ⟨k, u, hh, v, p, cs⟩ := mode
    rw [nodes_mk] at h1
    rcases List.mem_cons.1 h1 with rfl | h1
    · rw [hr] at h2; cases h2
    · exact List.mem_flatMap.1 h1
  obtain ⟨c, hc, hx⟩ := hin
  obtain ⟨h1, h2⟩ := h.proper c hc x hx
  constructor
  · rintro (h3 | h3)
    · exact absurd h3.symm h2
    · exact .inr h3
  · rintro (h3 | h3)
    · exact absurd h3.symm h1
    · exact .inr h3

theorem same_lacks (h : SameInside mode mode') {sofar : List Leaf} {sh : Shape} {d : Node}
    (hl : Lacks mode sofar sh d) : Lacks mode' sofar sh d := by
  obtain ⟨refs, pre, post, h1, h2, h3, h4⟩ := hl
  refine ⟨refs, pre, post, h1, (same_owners h refs).trans h2, fun x hx => ?_, fun h5 => h4 ?_⟩
  · exact (same_seen h (by rw [h2]; simp [hx]) sofar).2 (h3 x hx)
  · exact (same_seen h (by rw [h2]; simp) sofar).1 h5

theorem same_uses (h : SameInside mode mode') (sh : Shape) (c : Node) (vs : List Token) :
    sh.uses mode' c vs = sh.uses mode c vs := by
  unfold Shape.uses
  split
  · rfl
  · rw [same_namedNodes h]

theorem same_claims (h : SameInside mode mode') {sofar : List Leaf} {c : Node} {t : Token}
    {rest : List Token} {cl : Claim} (hc : Claims cfg mode sofar c t rest cl) :
    Claims cfg mode' sofar c t rest cl := by
  obtain ⟨sh, hd, hc⟩ := hc
  refine ⟨sh, hd, ?_⟩
  cases hc with
  | noSeparator h1 h2 h3 => exact .noSeparator h1 h2 h3
  | count h1 h2 => exact .count h1 h2
  | lacks h1 h2 h3 => exact .lacks h1 h2 (same_lacks h h3)
  | takes h1 h2 h3 =>
    rw [← same_uses h]
    exact .takes h1 h2 fun d hd => h3 d (same_lacks h.symm hd)

theorem same_wants (h : SameInside mode mode') {sofar : List Leaf} {used : List Nat} {t : Token}
    {rest : List Token} {a : Nat × Node} (hw : Wants cfg mode sofar used t rest a) :
    Wants cfg mode' sofar used t rest a :=
  ⟨hw.1.imp fun _ => same_claims h, hw.2⟩

theorem same_arguments (h : SameInside mode mode') : arguments mode' = arguments mode := by
  rw [arguments, arguments, h.children]

theorem same_first (h : SameInside mode mode') {sofar : List Leaf} {used : List Nat} {t : Token}
    {rest : List Token} {a : Nat × Node} (hf : First cfg mode sofar used t rest a) :
    First cfg mode' sofar used t rest a := by
  obtain ⟨before, after, h1, h2, h3⟩ := hf
  exact ⟨before, after, (same_arguments h).trans h1, fun x hx hw => h2 x hx (same_wants h.symm hw),
    same_wants h h3⟩

theorem same_oneOfAt (h : SameInside mode mode') (a : Nat × Node) :
    oneOfAt mode' a = oneOfAt mode a := by
  rw [oneOfAt, oneOfAt, h.children]

theorem same_clashes (h : SameInside mode mode') {chosen : Choices} {a : Nat × Node} {o : Node} :
    Clashes mode' chosen a o ↔ Clashes mode chosen a o := by
  rw [Clashes, Clashes, same_oneOfAt h]

theorem same_choose (h : SameInside mode mode') (chosen : Choices) (a : Nat × Node) :
    choose mode' chosen a = choose mode chosen a := by
  rw [choose, choose, same_oneOfAt h]

theorem same_reading (h : SameInside mode mode') {chosen ch : Choices} {sofar : List Leaf}
    {used : List Nat} {args : List Token} {r : Result}
    (hr : Reading cfg mode chosen sofar used args r ch) :
    Reading cfg mode' chosen sofar used args r ch := by
  induction hr with
  | done => exact .done
  | take hf hk ha hc _ ih =>
    refine .take (same_first h hf) (fun o ho => hk o ((same_clashes h).1 ho)) ha (same_claims h hc) ?_
    rw [same_choose h]
    exact ih
  | clash hf hk => exact .clash (same_first h hf) ((same_clashes h).2 hk)
  | again hf hk ha =>
    rw [← same_choose h]
    exact .again (same_first h hf) (fun o ho => hk o ((same_clashes h).1 ho)) ha
  | refused hf hk ha hc =>
    rw [← same_choose h]
    exact .refused (same_first h hf) (fun o ho => hk o ((same_clashes h).1 ho)) ha (same_claims h hc)
  | unhandled hn hu =>
    refine .unhandled (fun a ha hw => hn a ?_ (same_wants h.symm hw)) ?_
    · rwa [same_arguments h] at ha
    · rwa [← h.children]
  | unknown hn hu =>
    refine .unknown (fun a ha hw => hn a ?_ (same_wants h.symm hw)) ?_
    · rwa [same_arguments h] at ha
    · rwa [← h.children]

/-! ## Suggestions -/

mutual
theorem walk_shift (ps qs : List Node) : ∀ n : Node,
    Node.walk (ps ++ qs) n = (Node.walk ps n).map fun x => (x.1, x.2 ++ qs)
  | .mk k u h v p cs => by
    simp only [Node.walk, List.map_cons]
    rw [← List.cons_append, walkList_shift _ qs cs]
theorem walkList_shift (ps qs : List Node) : ∀ ns : List Node,
    Node.walkList (ps ++ qs) ns = (Node.walkList ps ns).map fun x => (x.1, x.2 ++ qs)
  | [] => rfl
  | c :: cs => by
    simp only [Node.walkList, List.map_append]
    rw [walk_shift ps qs c, walkList_shift ps qs cs]
end

theorem candidates_children (n : Node) :
    candidates n = (Node.walkList [] n.children).flatMap fun x =>
      if isRuntimeDisabled (x.1 :: x.2) || n.runtimeEnabled == some false then []
      else x.1.nameTokens.map fun t => t :: x.2.map Node.tokenType := by
  have hw : Node.walk [] n = (n, []) :: Node.walkList [n] n.children := by
    obtain ⟨k, u, h, v, p, cs⟩ := n
    rw [Node.walk]; rfl
  rw [candidates, hw, List.flatMap_cons]
  rw [show [n] = [] ++ [n] from rfl, walkList_shift, List.flatMap_map]
  simp only [List.isEmpty_nil, Bool.true_or, if_true, List.nil_append]
  congr 1
  funext x
  have h1 : (x.2 ++ [n]).isEmpty = false := by simp
  have h2 : isRuntimeDisabled (x.1 :: (x.2 ++ [n])) =
      (isRuntimeDisabled (x.1 :: x.2) || n.runtimeEnabled == some false) := by
    simp only [isRuntimeDisabled, List.any_cons, List.any_append, List.any_nil, Bool.or_false,
      Bool.or_assoc]
  simp only [h1, h2, Bool.false_or, List.dropLast_concat]

theorem same_candidates (h : SameInside mode mode') : candidates mode' = candidates mode := by
  rw [candidates_children, candidates_children, h.children, h.enabled]

theorem same_unknown (h : SameInside mode mode') (t : Token) :
    (unknownArgument cfg mode' t : Out Unit) = unknownArgument cfg mode t := by
  rw [unknownArgument, unknownArgument, closest, closest, same_candidates h]

/-! ## C120 -/

theorem same_router (h : SameInside mode mode') : mode'.hasRouter = mode.hasRouter := by
  have := h.router
  rw [← hasRouter_iff, ← hasRouter_iff] at this
  rw [Bool.eq_iff_iff]
  exact this.symm

theorem same_modeOf (h : SameInside mode mode') (uses : List Leaf) :
    (∃ vals, modeOf mode uses = .ok vals ∧ modeOf mode' uses = .ok vals) ∨
    (modeOf mode' uses = modeOf mode uses ∧ ∀ v, modeOf mode uses ≠ .ok v) ∨
    (modeOf mode uses = .throw ⟨.mode_requires_arguments, [mode.tokenType]⟩ ∧
      modeOf mode' uses = .throw ⟨.mode_requires_arguments, [mode'.tokenType]⟩) := by
  simp only [modeOf, same_router h, ← h.children]
  cases collectOf mode.children uses (List.replicate mode.children.length none) with
  | ok rs =>
    simp only [Out.ok_bind]
    cases oneByOne (fun x => fillValue x.1 (gotOf rs x.2)) (valued mode.children) with
    | ok vals =>
      simp only [Out.ok_bind]
      cases oneByOne (fun x => checkValue x.1.1 x.2) ((valued mode.children).zip vals) with
      | ok _ =>
        simp only [Out.ok_bind]
        cases mode.hasRouter with
        | true => exact .inl ⟨vals, rfl, rfl⟩
        | false => exact .inr (.inr ⟨rfl, rfl⟩)
      | _ => exact .inr (.inl ⟨rfl, fun v h => nomatch h⟩)
    | _ => exact .inr (.inl ⟨rfl, fun v h => nomatch h⟩)
  | _ => exact .inr (.inl ⟨rfl, fun v h => nomatch h⟩)

/-- C120: a mode does the same wherever it is in a program, and whatever it is called. Two programs
have modes with the same children, each reached by its own names (none, if the mode has no name and is
the child of the root). What is typed after the names is the same. Then the two programs do the same:
each calls its router, with the same values, or both fail in the same way (the same error about the
same tokens, with the same suggestion). Only where a mode has no router does the error have the name of
the mode. -/
theorem C120_moved {depth' : Nat} {root' : Node} {names' rest : List Bytes}
    (hc : compiles cfg depth defaultRules root = true) (hu : Conventional root)
    (hc' : compiles cfg depth' defaultRules root' = true) (hu' : Conventional root')
    (hl : LedTo cfg root mode names rest) (hl' : LedTo cfg root' mode' names' rest)
    (h : SameInside mode mode') (s : St)
    (htext : ∀ x ∈ names ++ names' ++ rest, Readable cfg ⟨.none, x⟩)
    (hlen : ((names ++ names' ++ rest).map List.length).sum + (names ++ names' ++ rest).length < 2 ^ 63) :
    SameThere mode mode' s (parseArgs cfg root (names ++ rest) s)
      (parseArgs cfg root' (names' ++ rest) s) := by
  obtain ⟨hmem, hk⟩ := ledTo_mem hl
  obtain ⟨hmem', hk'⟩ := ledTo_mem hl'
  obtain ⟨ho, hrep⟩ := ledTo_ordinary (C92_ordinary_partial hc hu) hl
  have hs1 : (names ++ rest).Sublist (names ++ names' ++ rest) := by simp
  have hs2 : (names' ++ rest).Sublist (names ++ names' ++ rest) := by simp
  have hs3 : rest.Sublist (names ++ names' ++ rest) := List.sublist_append_right _ _
  obtain ⟨r, ch, hr⟩ := reading_of (cfg := cfg) (chosen := s.sel) ho hrep
    (rest := rest.map (Token.mk .none)) (Nat.lt_of_le_of_lt (weight_raw _) (fits_shorter hs3 hlen)) (by
      intro _ t ht
      obtain ⟨x, hx, rfl⟩ := List.mem_map.1 ht
      exact htext x (hs3.subset hx))
  have hr' := same_reading h hr
  rw [led_run hc hu hl s (fun x hx => htext x (hs1.subset hx)) (fits_shorter hs1 hlen) hr,
    led_run hc' hu' hl' s (fun x hx => htext x (hs2.subset hx)) (fits_shorter hs2 hlen) hr']
  cases r with
  | accepts uses =>
    rw [accepted_outcome hc hmem hk hr, accepted_outcome hc' hmem' hk' hr']
    rcases same_modeOf h uses with ⟨vals, h1, h2⟩ | ⟨h1, h2⟩ | ⟨h1, h2⟩
    · rw [h1, h2]
      exact .calls vals ch
    · rw [h1]
      generalize modeOf mode uses = o at h2
      cases o with
      | ok v => exact absurd rfl (h2 v)
      | _ => exact .fails _ ch (fun h => nomatch h)
    · rw [h1, h2]
      exact .noRouter ch
  | fails e => exact .fails _ ch (fun h => nomatch h)
  | unknown t =>
    have hne := (lost_unknown cfg mode t).1
    show SameThere mode mode' s (unknownArgument cfg mode t, _) (unknownArgument cfg mode' t, _)
    rw [same_unknown h]
    exact .fails _ ch hne

/-! ## Concrete cases -/

def workMode : Node :=
  mkMode 91 91 [.noneName (b "work"), .router] [toolFlag, toolVerbose, toolNum, toolOut]
def siteMode : Node := mkMode 92 92 [.noneName (b "site"), .router] [toolFlag, workMode]
def siteRoot : Node := mkRoot 93 93 [otherMode, siteMode]

theorem work_led (rest : List Bytes) :
    LedTo .default siteRoot workMode [b "site", b "work"] rest where
  way := by
    refine ⟨[otherMode], siteMode, [], rfl, ?_, ?_⟩
    · refine .names (.down ⟨rfl, rfl, .refl _⟩ ((labelTest_iff _ _ _).1 (by decide +kernel))
        (before := [toolFlag]) (after := []) rfl rfl ?_
        (.here ⟨rfl, rfl, .refl _⟩ ((labelTest_iff _ _ _).1 (by decide +kernel))))
      intro d hd hk
      simp only [List.mem_cons, List.not_mem_nil, or_false] at hd
      subst hd
      cases hk
    · intro d hd
      simp only [List.mem_cons, List.not_mem_nil, or_false] at hd
      subst hd
      refine ⟨fun _ => by decide, other_unmentioned (argv := [b "site", b "work"] ++ rest) ?_⟩
      intro y hy
      cases hy
      decide
  here := by
    intro t _ d hd hk
    have : ∀ d ∈ workMode.children, d.kind ≠ .mode := by decide
    exact absurd hk (this d hd)

theorem tool_work : SameInside toolMode workMode where
  children := rfl
  router := by simp [toolMode, workMode, mkMode, Node.policies, modePolicies]
  enabled := by decide
  plain s := by simp [toolMode, workMode, mkMode, Node.policies, modePolicies]
  proper := by decide

/-- The hypotheses of C120 are met: the only mode of a program becomes a mode with a name, in a mode
in another program. -/
example (rest : List Bytes) : compiles .default 100 defaultRules toolRoot = true ∧
    Conventional toolRoot ∧ compiles .default 100 defaultRules siteRoot = true ∧
    Conventional siteRoot ∧ LedTo .default toolRoot toolMode [] rest ∧
    LedTo .default siteRoot workMode [b "site", b "work"] rest ∧ SameInside toolMode workMode :=
  ⟨by decide +kernel, conventional_of_test (by decide +kernel), by decide +kernel,
    conventional_of_test (by decide +kernel), toolMode_led rest, work_led rest, tool_work⟩

/-- The two programs with a good and a bad command line. -/
example :
    parseArgs .default toolRoot [b "--num", b "5", b "-a"] .fresh =
      (.ok (), ⟨[], [⟨45, [.one (.bool true), .one (.int 0), .one (.int 5), .one (.int 9)]⟩]⟩) ∧
    parseArgs .default siteRoot [b "site", b "work", b "--num", b "5", b "-a"] .fresh =
      (.ok (), ⟨[], [⟨91, [.one (.bool true), .one (.int 0), .one (.int 5), .one (.int 9)]⟩]⟩) ∧
    parseArgs .default siteRoot [b "site", b "work", b "-a", b "--nun", b "5"] .fresh =
      parseArgs .default toolRoot [b "-a", b "--nun", b "5"] .fresh ∧
    parseArgs .default toolRoot [b "-a", b "--nun", b "5"] .fresh =
      (.throw ⟨.unknown_argument_with_suggestion, [⟨.none, b "--nun"⟩, ⟨.long, b "num"⟩]⟩, .fresh) := by
  decide +kernel

end ArgRouter.Props
