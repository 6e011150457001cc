import Verif.Props.Calls
import Verif.Props.Selected
import Verif.Parse.Throwing

/-!
# C105: what a router throws
-/

namespace ArgRouter

open Spec

namespace Props

theorem callWith_returns (n : Node) (vs : List Value) :
    callWith (fun _ _ => .ok ()) n vs = callRouter n vs := rfl

theorem callIfWith_returns (n : Node) (vs : List Value) :
    callIfWith (fun _ _ => .ok ()) n vs = callIfRouter n vs := rfl

theorem parseLeafWith_returns (l : Leaf) : parseLeafWith (fun _ _ => .ok ()) l = parseLeaf l := by
  unfold parseLeafWith parseLeaf
  rfl

theorem processSubsWith_returns (cs : List Node) (ls : List Leaf) :
    ∀ rs, processSubsWith (fun _ _ => .ok ()) cs ls rs = processSubs cs ls rs := by
  induction ls with
  | nil => intro rs; rfl
  | cons l ls ih =>
    intro rs
    rw [processSubsWith, processSubs, parseLeafWith_returns]
    congr 1
    funext o
    cases o with
    | none => exact ih rs
    | some v =>
      simp only
      cases findChild l.node.hash cs 0 with
      | none => exact ih rs
      | some x =>
        simp only [ih]

theorem rootLoopWith_returns (cfg : Config) (root : Node) (args : List Token) (cs : List Node) :
    rootLoopWith (fun _ _ => .ok ()) cfg root args cs = rootLoop cfg root args cs := by
  induction cs with
  | nil => rfl
  | cons c cs ih =>
    rw [rootLoopWith, rootLoop]
    congr 1
    funext o
    cases o with
    | none => exact ih
    | some x =>
      simp only [runTargetWith, runTarget, parseModeWith, parseMode, parseLeafWith_returns,
        processSubsWith_returns, callWith_returns]

/-- With routers that return, this is the model of `Parse/Mode.lean`. -/
theorem parseWith_returns (cfg : Config) (root : Node) (argv : List Bytes) :
    parseWith (fun _ _ => .ok ()) cfg root argv = parseArgs cfg root argv := by
  unfold parseWith parseArgs rootParse
  simp only [rootLoopWith_returns]

/-- Both programs end in the same way, unless a router is called: then it is the last thing that
happens, and the one program ends as the router does. -/
def LastCall {α : Type} (rt : Routers) (m m' : M α) : Prop := ∀ s,
  (m' s = m s ∧ (m s).2.calls = s.calls) ∨
  ∃ a s' n vs, m s = (.ok a, s') ∧ s'.calls = s.calls ++ [⟨n, vs⟩] ∧
    m' s = (rt n vs >>= fun _ => .ok a, s')

namespace LastCall

variable {α β : Type} {rt : Routers}

theorem same {m : M α} (h : Quiet m) : LastCall rt m m := fun s => .inl ⟨rfl, h s⟩

theorem after {m : M α} {f g : α → M β} (hm : Quiet m) (h : ∀ a, LastCall rt (f a) (g a)) :
    LastCall rt (m >>= f) (m >>= g) := by
  intro s
  have h1 := hm s
  simp only [M.bind_apply]
  match hx : m s with
  | (.ok a, s1) =>
    rw [hx] at h1
    simp only at h1
    rcases h a s1 with ⟨e1, e2⟩ | ⟨b, s', n, vs, e1, e2, e3⟩
    · exact .inl ⟨e1, e2.trans h1⟩
    · exact .inr ⟨b, s', n, vs, e1, by rw [e2, h1], e3⟩
  | (.throw e, s1) => rw [hx] at h1; exact .inl ⟨rfl, h1⟩
  | (.foreign, s1) => rw [hx] at h1; exact .inl ⟨rfl, h1⟩
  | (.ub, s1) => rw [hx] at h1; exact .inl ⟨rfl, h1⟩
  | (.diverge, s1) => rw [hx] at h1; exact .inl ⟨rfl, h1⟩

theorem ending {m m' : M α} {f : α → β} (h : LastCall rt m m') :
    LastCall rt (m >>= fun a => pure (f a)) (m' >>= fun a => pure (f a)) := by
  intro s
  simp only [M.bind_apply]
  rcases h s with ⟨e1, e2⟩ | ⟨a, s', n, vs, e1, e2, e3⟩
  · left
    rw [e1]
    refine ⟨rfl, ?_⟩
    match hx : m s with
    | (.ok a, s1) => rw [hx] at e2; exact e2
    | (.throw e, s1) => rw [hx] at e2; exact e2
    | (.foreign, s1) => rw [hx] at e2; exact e2
    | (.ub, s1) => rw [hx] at e2; exact e2
    | (.diverge, s1) => rw [hx] at e2; exact e2
  · right
    refine ⟨f a, s', n, vs, by rw [e1]; rfl, e2, ?_⟩
    rw [e3]
    cases rt n vs <;> rfl

theorem call (n : Node) (vs : List Value) : LastCall rt (callRouter n vs) (callWith rt n vs) := by
  intro s
  refine .inr ⟨(), _, n.uid, vs, rfl, rfl, ?_⟩
  unfold callWith
  cases rt n.uid vs <;> rfl

theorem callIf (n : Node) (vs : List Value) :
    LastCall rt (callIfRouter n vs) (callIfWith rt n vs) := by
  unfold callIfRouter callIfWith
  split
  · exact call n vs
  · exact same (Quiet.pure _)

end LastCall

theorem quiet_validation (n : Node) (v : Value) (ps : List Policy) : Quiet (runValidation n v ps) := by
  intro s
  rw [runValidation_eq]
  rfl

theorem parseLeafWith_last (rt : Routers) (l : Leaf) :
    LastCall rt (parseLeaf l) (parseLeafWith rt l) := by
  have value : LastCall rt (do
      let v ← M.lift (parseValue l.node l.tokens)
      runValidation l.node v l.node.policies
      callIfRouter l.node [v]
      pure (some v)) (do
      let v ← M.lift (parseValue l.node l.tokens)
      runValidation l.node v l.node.policies
      callIfWith rt l.node [v]
      pure (some v)) :=
    LastCall.after (Quiet.lift _) fun v => LastCall.after (quiet_validation _ _ _) fun _ =>
      LastCall.ending (LastCall.callIf _ _)
  unfold parseLeaf parseLeafWith
  cases l.node.kind <;> simp only
  case flag => exact LastCall.ending (LastCall.callIf _ _)
  case countingFlag => exact LastCall.same (Quiet.pure _)
  case help =>
    exact LastCall.after (Quiet.lift _) fun _ => LastCall.ending (LastCall.call _ _)
  case arg => exact value
  case multiArg => exact value
  case positional => exact value
  case forwarding => exact value
  all_goals exact LastCall.same (Quiet.lift _)

theorem parseLeafWith_silent (rt : Routers) (l : Leaf)
    (h : l.node.kind ≠ .mode → l.node.hasRouter = false ∧ l.node.kind ≠ .help) :
    parseLeafWith rt l = parseLeaf l := by
  unfold parseLeaf parseLeafWith
  cases hk : l.node.kind <;> simp only
  case help => exact absurd hk (h (by rw [hk]; simp)).2
  all_goals
    have hr := (h (by rw [hk]; simp)).1
    simp [callIfRouter, callIfWith, hr]

theorem processSubsWith_silent (rt : Routers) (cs : List Node) (ls : List Leaf)
    (h : ∀ l ∈ ls, l.node.kind ≠ .mode → l.node.hasRouter = false ∧ l.node.kind ≠ .help) :
    ∀ rs, processSubsWith rt cs ls rs = processSubs cs ls rs := by
  induction ls with
  | nil => intro rs; rfl
  | cons l ls ih =>
    intro rs
    have ih := ih fun x hx => h x (List.mem_cons_of_mem _ hx)
    rw [processSubsWith, processSubs, parseLeafWith_silent rt l (h l List.mem_cons_self)]
    congr 1
    funext o
    cases o with
    | none => exact ih rs
    | some v =>
      simp only
      cases findChild l.node.hash cs 0 with
      | none => exact ih rs
      | some x => simp only [ih]

theorem parseModeWith_last (rt : Routers) (mode : Node) (ls : List Leaf)
    (h : ∀ l ∈ ls, l.node.kind ≠ .mode → l.node.hasRouter = false ∧ l.node.kind ≠ .help) :
    LastCall rt (parseMode mode ls) (parseModeWith rt mode ls) := by
  unfold parseMode parseModeWith
  simp only [processSubsWith_silent rt _ _ h]
  refine LastCall.after (quiet_processSubs _ _ h _) fun rs => ?_
  refine LastCall.after (quiet_fillMissing _ _) fun rs => ?_
  refine LastCall.after (quiet_stages _ _) fun _ => ?_
  split
  · exact LastCall.call _ _
  · exact LastCall.same (Quiet.throw _)

theorem rootLoopWith_last (rt : Routers) (cfg : Config) (root : Node) (args : List Token)
    (hr : RoutersOnTop root)
    (hflat : ∀ c ∈ root.children, c.kind ≠ .mode → ∀ x ∈ c.nodes, x.kind ≠ .mode)
    (cs : List Node) (hcs : ∀ c ∈ cs, c ∈ root.children) :
    LastCall rt (rootLoop cfg root args cs) (rootLoopWith rt cfg root args cs) := by
  induction cs with
  | nil => exact LastCall.same (Quiet.pure _)
  | cons c cs ih =>
    have hc := hcs c List.mem_cons_self
    have ih := ih fun x hx => hcs x (List.mem_cons_of_mem _ hx)
    intro s
    have hq := quiet_offerTo cfg root args c s
    rw [rootLoop, rootLoopWith, M.bind_apply, M.bind_apply]
    match ho : offerTo cfg root args c s with
    | (.ok none, s1) =>
      rw [ho] at hq
      simp only at hq ⊢
      rcases ih s1 with ⟨e1, e2⟩ | ⟨b, s', n, vs, e1, e2, e3⟩
      · exact .inl ⟨e1, e2.trans hq⟩
      · exact .inr ⟨b, s', n, vs, e1, by rw [e2, hq], e3⟩
    | (.ok (some (t, rest)), s1) =>
      rw [ho] at hq
      simp only at hq ⊢
      have run : LastCall rt (runTarget t) (runTargetWith rt t) := by
        unfold runTarget runTargetWith
        by_cases hk : c.kind = .mode
        · obtain ⟨htk, hsub⟩ := subs_silent hr hc hk ho
          rw [if_pos (by simp [htk]), if_pos (by simp [htk])]
          exact parseModeWith_last rt _ _ hsub
        · have hpp := ho
          unfold offerTo at hpp
          rw [if_neg (by simp [hk])] at hpp
          obtain ⟨m, hm, -, ⟨v, s2, s3, hlf⟩, -⟩ := match_leaf _ _ _ _ hpp
          have hn : t.node = m := (leafPreParse_node hlf).1
          have hmk : t.node.kind ≠ .mode := by rw [hn]; exact hflat c hc hk m hm
          rw [if_neg (by simp [hmk]), if_neg (by simp [hmk])]
          exact LastCall.ending (parseLeafWith_last rt _)
      split
      · exact .inl ⟨rfl, hq⟩
      · rcases LastCall.ending (f := fun _ => true) run s1 with ⟨e1, e2⟩ | ⟨b, s', n, vs, e1, e2, e3⟩
        · exact .inl ⟨e1, e2.trans hq⟩
        · exact .inr ⟨b, s', n, vs, e1, by rw [e2, hq], e3⟩
    | (.throw e, s1) => rw [ho] at hq; exact .inl ⟨rfl, hq⟩
    | (.foreign, s1) => rw [ho] at hq; exact .inl ⟨rfl, hq⟩
    | (.ub, s1) => rw [ho] at hq; exact .inl ⟨rfl, hq⟩
    | (.diverge, s1) => rw [ho] at hq; exact .inl ⟨rfl, hq⟩

/-- C105: whatever the routers of a program do, a parse ends in the same way and in the same state as if
they all returned, except that if a router is called, the parse ends as this router does. It is the only
one called, and what is passed to it does not depend on the routers. -/
theorem C105_router_outcome (rt : Routers) (cfg : Config) (root : Node) (argv : List Bytes) (s : St)
    (hr : RoutersOnTop root)
    (hflat : ∀ c ∈ root.children, c.kind ≠ .mode → ∀ x ∈ c.nodes, x.kind ≠ .mode) :
    (parseWith rt cfg root argv s).2 = (parseArgs cfg root argv s).2 ∧
    (((parseWith rt cfg root argv s).2.calls = s.calls ∧
        (parseWith rt cfg root argv s).1 = (parseArgs cfg root argv s).1) ∨
      ∃ n vs, (parseWith rt cfg root argv s).2.calls = s.calls ++ [⟨n, vs⟩] ∧
        (parseWith rt cfg root argv s).1 = rt n vs) := by
  have h := rootLoopWith_last rt cfg root (argv.map (Token.mk .none)) hr hflat root.children
    (fun _ h => h) s
  have hC := C26_at_most_one cfg root argv s (parseArgs cfg root argv s).2
    (parseArgs cfg root argv s).1 hr rfl
  unfold parseWith parseArgs rootParse at *
  simp only [M.bind_apply] at *
  rcases h with ⟨e1, e2⟩ | ⟨b, s', n, vs, e1, e2, e3⟩
  · rw [e1]
    refine ⟨rfl, .inl ⟨?_, rfl⟩⟩
    match hx : rootLoop cfg root (argv.map (Token.mk .none)) root.children s with
    | (.ok true, s1) => rw [hx] at e2; exact e2
    | (.ok false, s1) =>
      rw [hx] at e2
      simp only [Bool.false_eq_true, if_false]
      split
      · exact e2
      · exact e2
    | (.throw e, s1) => rw [hx] at e2; exact e2
    | (.foreign, s1) => rw [hx] at e2; exact e2
    | (.ub, s1) => rw [hx] at e2; exact e2
    | (.diverge, s1) => rw [hx] at e2; exact e2
  · have hb : b = true := by
      cases b
      · rw [e1] at hC
        simp only [Bool.false_eq_true, if_false] at hC
        split at hC <;> rcases hC with ⟨h1, -⟩ | ⟨-, h2⟩
        · cases h1
        · simp [M.throw, e2] at h2
        · exact absurd h1 (unknownArgument_ne_ok _ _ _ _)
        · simp [e2] at h2
      · rfl
    subst hb
    rw [e1, e3]
    cases hrt : rt n vs with
    | ok u => exact ⟨rfl, .inr ⟨n, vs, e2, by rw [hrt]; rfl⟩⟩
    | throw e => exact ⟨rfl, .inr ⟨n, vs, e2, by rw [hrt]; rfl⟩⟩
    | foreign => exact ⟨rfl, .inr ⟨n, vs, e2, by rw [hrt]; rfl⟩⟩
    | ub => exact ⟨rfl, .inr ⟨n, vs, e2, by rw [hrt]; rfl⟩⟩
    | diverge => exact ⟨rfl, .inr ⟨n, vs, e2, by rw [hrt]; rfl⟩⟩

/-- C105, what the caller of `parse` sees: if the router called returns, so does `parse`; an exception
of the user's passes through unchanged; one of the library's own is reported with its message. -/
theorem C105_seen (rt : Routers) (cfg : Config) (custom fallback : Translations) (root : Node)
    (argv : List Bytes) (s : St) (n : Nat) (vs : List Value) (hr : RoutersOnTop root)
    (hflat : ∀ c ∈ root.children, c.kind ≠ .mode → ∀ x ∈ c.nodes, x.kind ≠ .mode)
    (hcall : (seenWith rt cfg custom fallback root argv s).2.calls = s.calls ++ [⟨n, vs⟩]) :
    (rt n vs = .ok () → (seenWith rt cfg custom fallback root argv s).1 = .returned) ∧
    (rt n vs = .foreign → (seenWith rt cfg custom fallback root argv s).1 = .foreign) ∧
    (∀ e msg, rt n vs = .throw e → translate cfg custom fallback e.ec.num e.tokens = .ok msg →
      (seenWith rt cfg custom fallback root argv s).1 = .parseException msg) ∧
    rootSeen cfg custom fallback root argv s =
      (.returned, (seenWith rt cfg custom fallback root argv s).2) := by
  have h := C105_router_outcome rt cfg root argv s hr hflat
  have hC := C26_at_most_one cfg root argv s (parseArgs cfg root argv s).2
    (parseArgs cfg root argv s).1 hr rfl
  have hst : (seenWith rt cfg custom fallback root argv s).2 = (parseWith rt cfg root argv s).2 := by
    unfold seenWith
    match parseWith rt cfg root argv s with
    | (.ok _, s') => rfl
    | (.throw e, s') => rfl
    | (.foreign, s') => rfl
    | (.ub, s') => rfl
    | (.diverge, s') => rfl
  rw [hst] at hcall ⊢
  obtain ⟨h1, h2⟩ := h
  rcases h2 with ⟨h2, -⟩ | ⟨n', vs', h2, h3⟩
  · rw [h2] at hcall; simp at hcall
  · rw [h2] at hcall
    simp only [List.append_cancel_left_eq, List.cons.injEq, Call.mk.injEq, and_true] at hcall
    obtain ⟨rfl, rfl⟩ := hcall
    have hok : (parseArgs cfg root argv s).1 = .ok () := by
      rcases hC with ⟨h4, -⟩ | ⟨-, h4⟩
      · exact h4
      · rw [← h1, h2] at h4; simp at h4
    have hpair : parseWith rt cfg root argv s = (rt n' vs', (parseWith rt cfg root argv s).2) := by
      rw [← h3]
    refine ⟨?_, ?_, ?_, ?_⟩
    · intro h5
      rw [h5] at hpair
      unfold seenWith
      rw [hpair]
    · intro h5
      rw [h5] at hpair
      unfold seenWith
      rw [hpair]
    · intro e msg h5 h6
      rw [h5] at hpair
      unfold seenWith
      rw [hpair]
      simp only [h6]
    · have : parseArgs cfg root argv s = (.ok (), (parseWith rt cfg root argv s).2) := by
        rw [← hok, h1]
      unfold rootSeen
      rw [this]

/-- A router of `run` that throws an exception of the user's if `--force` is given, and one of the
library's otherwise. -/
def moodyRouters : Routers
  | 62, [_, .one (.bool true)] => .foreign
  | 62, _ => .throw ⟨.failed_to_parse, [⟨.none, b "x"⟩]⟩
  | _, _ => .ok ()

/-- The claims are about this program (`pick_ok`), and this is what it does. -/
example :
    parseWith moodyRouters .default pickRoot [b "run", b "--force"] .fresh =
      (.foreign, ⟨[], [⟨62, [.one (.str (b "low")), .one (.bool true)]⟩]⟩) ∧
    parseWith moodyRouters .default pickRoot [b "run"] .fresh =
      (.throw ⟨.failed_to_parse, [⟨.none, b "x"⟩]⟩,
        ⟨[], [⟨62, [.one (.str (b "low")), .one (.bool false)]⟩]⟩) ∧
    parseWith moodyRouters .default pickRoot [b "--version"] .fresh =
      (.ok (), ⟨[], [⟨64, [.one (.bool true)]⟩]⟩) ∧
    parseWith moodyRouters .default pickRoot [b "fly"] .fresh =
      parseArgs .default pickRoot [b "fly"] .fresh := by
  decide +kernel

end Props

end ArgRouter
