import Verif.Lemmas.Typed

/-!
# The same arguments, typed in another way

C114: the order in which arguments are typed makes no difference. C115: which label of an argument is
typed makes no difference.
-/

namespace ArgRouter.Props

open Spec

variable {cfg : Config} {depth : Nat} {root mode : Node} {names : List Bytes}

/-! ## Command lines for a mode -/

theorem way_mode {m : Node} {ts : List Token} (h : Way cfg m ts mode) :
    mode ∈ m.nodes ∧ mode.kind = .mode ∧ m.kind = .mode := by
  cases h with
  | unnamed h1 _ => exact ⟨self_mem_nodes _, h1, h1⟩
  | names h => exact path_mem h

theorem ledTo_mem {rest : List Bytes} (h : LedTo cfg root mode names rest) :
    mode ∈ root.nodes ∧ mode.kind = .mode := by
  obtain ⟨before, m, after, h1, h2, -⟩ := h.way
  obtain ⟨h3, h4, -⟩ := way_mode h2
  exact ⟨nodes_trans _ _ (child_mem_nodes (by rw [h1]; simp) _ (self_mem_nodes m)) _ h3, h4⟩

theorem ledTo_ordinary (hprog : OrdinaryProgram root) {rest : List Bytes}
    (h : LedTo cfg root mode names rest) : Ordinary mode ∧ RepeatableNamed mode := by
  obtain ⟨before, m, after, h1, h2, -⟩ := h.way
  have hx : m ∈ root.children := by rw [h1]; simp
  obtain ⟨h3, h4, hk⟩ := way_mode h2
  generalize names.map (Token.mk .none) = ns at h2
  cases h2 with
  | unnamed _ hanon =>
    rcases hprog mode hx with h | h | h | ⟨-, -, h⟩
    · exact absurd hk (topArgument_leaf h).1
    · rw [h.named] at hanon; cases hanon
    · have := (h.modes mode (self_mem_nodes mode) hk).1.named
      rw [this] at hanon; cases hanon
    · exact h
  | names hp =>
    obtain ⟨t, ts, rfl, hnm, hl⟩ := path_begins hp
    rcases hprog m hx with h | h | h | ⟨-, hanon, -⟩
    · exact absurd hk (topArgument_leaf h).1
    · obtain ⟨p, hp, hdp⟩ := h.disabled
      have hpm : p.matters = true := by
        cases p <;> simp [Policy.disables, Policy.matters] at hdp ⊢ <;> exact hdp
      have := hnm.matching.mem_iff.1 (List.mem_filter.2 ⟨hp, hpm⟩)
      cases this
    · exact (h.modes mode h3 h4).2
    · rw [hnm.named] at hanon; cases hanon

/-- Only the first word matters. -/
theorem ledTo_head {rest rest' : List Bytes} (hh : rest.head? = rest'.head?)
    (h : LedTo cfg root mode names rest) : LedTo cfg root mode names rest' := by
  obtain ⟨before, m, after, h1, h2, h3⟩ := h.way
  refine ⟨⟨before, m, after, h1, h2, ?_⟩, ?_⟩
  · rw [List.head?_append, ← hh, ← List.head?_append]
    exact h3
  · have := h.here
    unfold NoSubMode at this ⊢
    rwa [List.head?_map, ← hh, ← List.head?_map]

/-- A command line for a mode does what the mode makes of it. -/
theorem led_run (hc : compiles cfg depth defaultRules root = true) (hu : Conventional root)
    {rest : List Bytes} (h : LedTo cfg root mode names rest) (s : St)
    (htext : ∀ x ∈ names ++ rest, Readable cfg ⟨.none, x⟩)
    (hlen : ((names ++ rest).map List.length).sum + (names ++ rest).length < 2 ^ 63) {r : Result}
    {ch : Choices} (hr : Reading cfg mode s.sel [] [] (rest.map (Token.mk .none)) r ch) :
    parseArgs cfg root (names ++ rest) s = outcomeOf cfg mode r { s with sel := ch } := by
  have hprog := C92_ordinary_partial hc hu
  obtain ⟨v, h1, h2⟩ := C92_program_partial hc hu (names ++ rest) s htext hlen
  obtain ⟨before, m, after, h3, h4, h5⟩ := h.way
  have hpr : ProgramReading cfg root s.sel ((names ++ rest).map (Token.mk .none))
      (.answer (.reads mode r ch)) := by
    refine .child h3 (fun d hd a ha => ?_) ?_
    · obtain ⟨h6, h7⟩ := h5 d hd
      obtain ⟨y, hy, hm⟩ := responds_begins hprog (by rw [h3]; simp [hd]) h6 ha
      exact h7 y hy hm
    · rw [List.map_append]
      generalize hn : names.map (Token.mk .none) = ns at h4 ⊢
      cases h4 with
      | unnamed hk ha => exact .anonymous hk ha hr
      | names hp => exact .path hp h.here hr
  rw [h2, ← (h1 _).1 hpr]
  rfl

theorem accepted_outcome (hc : compiles cfg depth defaultRules root = true)
    (hm : mode ∈ root.nodes) (hk : mode.kind = .mode) {chosen ch : Choices} {args : List Token}
    {uses : List Leaf} (hr : Reading cfg mode chosen [] [] args (.accepts uses) ch) (s : St) :
    outcomeOf cfg mode (.accepts uses) s = ended (called mode (modeOf mode uses)) s := by
  have huses := reading_uses ⟨_, hc⟩ hm hk hr (fun l hl => nomatch hl) uses rfl
  refine parseMode_modeOf mode uses s (fun l hl => (huses l hl).1) fun l hl => ?_
  have := (huses l hl).2
  rw [← hasRouter_iff] at this
  simpa using this

theorem typed_tokens (ps : List TypedArg) :
    (typed ps).map (Token.mk .none) = ps.flatMap TypedArg.tokens := by
  induction ps with
  | nil => rfl
  | cons p ps ih =>
    show (p.words ++ typed ps).map _ = _
    rw [List.map_append, ih]
    rfl

/-! ## Two neighbours -/

/-- What becomes of a command line and the same with two parts the other way round. -/
inductive SwappedReading (cfg : Config) (mode : Node) (chosen : Choices) (sofar : List Leaf)
    (used : List Nat) (before : List Token) (p q : TypedArg) :
    Result → Choices → Result → Choices → Prop
  | failed {r : Result} {c c' : Choices} : (∀ uses, r ≠ .accepts uses) →
      SwappedReading cfg mode chosen sofar used before p q r c r c'
  | accepted {b more : List Leaf} {c c' cp cq : Choices} : (∀ u, c.lookup u = c'.lookup u) →
      Reading cfg mode chosen sofar used (before ++ p.tokens) (.accepts (b ++ p.uses mode)) cp →
      Reading cfg mode chosen sofar used (before ++ q.tokens) (.accepts (b ++ q.uses mode)) cq →
      SwappedReading cfg mode chosen sofar used before p q
        (.accepts (b ++ (p.uses mode ++ q.uses mode) ++ more)) c
        (.accepts (b ++ (q.uses mode ++ p.uses mode) ++ more)) c'
  | both {e e' : Exc} {c c' cp cq : Choices} :
      Reading cfg mode chosen sofar used (before ++ p.tokens) (.fails e) cp →
      Reading cfg mode chosen sofar used (before ++ q.tokens) (.fails e') cq →
      SwappedReading cfg mode chosen sofar used before p q (.fails e) c (.fails e') c'

theorem neighbours {p q : TypedArg} (ho : Ordinary mode) (hobj : Objects mode)
    (hp : p.Fits cfg mode) (hq : q.Fits cfg mode) (hs : Separate mode p q) {after : List Token}
    {chosen c : Choices} {sofar : List Leaf} {used : List Nat} {r : Result}
    (hw : weight (p.tokens ++ (q.tokens ++ after)) < 2 ^ 63)
    (hread : Expanding mode → ∀ t ∈ p.tokens ++ (q.tokens ++ after), Readable cfg t)
    (hr : Reading cfg mode chosen sofar used (p.tokens ++ (q.tokens ++ after)) r c) :
    ∃ r' c', Reading cfg mode chosen sofar used (q.tokens ++ (p.tokens ++ after)) r' c' ∧
      SwappedReading cfg mode chosen sofar used [] p q r c r' c' := by
  have hw2 : weight (q.tokens ++ after) < 2 ^ 63 := by
    rw [weight_append] at hw
    omega
  have hread2 : Expanding mode → ∀ t ∈ q.tokens ++ after, Readable cfg t := fun he t ht =>
    hread he t (List.mem_append_right _ ht)
  rcases stops_or_goes mode p chosen sofar used with ⟨e, ce, hps⟩ | hpg
  · obtain ⟨rfl, rfl⟩ := reading_unique ho (piece_stops hp hps _) hw hread hr
    rcases stops_or_goes mode q chosen sofar used with ⟨e', ce', hqs⟩ | hqg
    · exact ⟨_, _, piece_stops hq hqs _, .both (by simpa using piece_stops hp hps [])
        (by simpa using piece_stops hq hqs [])⟩
    · obtain ⟨c', h⟩ := stops_apart hobj hs.children hs.needs hps
      exact ⟨_, _, piece_goes hq hqg (piece_stops hp h after), .failed (by simp)⟩
  · have hr1 := piece_inv hp ho hpg hw hread hr
    rcases stops_or_goes mode q chosen sofar used with ⟨e', ce', hqs⟩ | hqg
    · obtain ⟨c', h⟩ := stops_apart hobj (Ne.symm hs.children) hs.needed hqs
      obtain ⟨rfl, rfl⟩ := reading_unique ho (piece_stops hq h _) hw2 hread2 hr1
      exact ⟨_, _, piece_stops hq hqs _, .failed (by simp)⟩
    · have hr2 := piece_inv hq ho ((goes_apart hobj (Ne.symm hs.children) hs.needed).2 hqg) hw2
        hread2 hr1
      obtain ⟨r', c', h1, h2, h3⟩ := reading_same hr2 (chosen' := choose mode (choose mode chosen q.argument) p.argument)
        (sofar' := sofar ++ q.uses mode ++ p.uses mode)
        (used' := p.argument.1 :: q.argument.1 :: used)
        ⟨choose_commutes hobj hs.children chosen,
          fun x => by
            rw [seen_append, seen_append, seen_append, seen_append, or_assoc, or_assoc,
              or_comm (a := ∃ l ∈ p.uses mode, _)],
          fun i => by
            simp only [List.mem_cons]
            rw [← or_assoc, ← or_assoc, or_comm (a := i = q.argument.1)]⟩
      refine ⟨r', c', piece_goes hq hqg (piece_goes hp
        ((goes_apart hobj hs.children hs.needs).2 hpg) h1), ?_⟩
      rcases h2 with ⟨more, rfl, rfl⟩ | ⟨rfl, h2⟩
      · rw [List.append_assoc sofar (p.uses mode), List.append_assoc sofar (q.uses mode)]
        have hp' := piece_goes hp hpg (rest := []) .done
        have hq' := piece_goes hq hqg (rest := []) .done
        rw [List.append_nil] at hp' hq'
        exact .accepted (before := []) h3 hp' hq'
      · exact .failed h2

theorem after_others {p q : TypedArg} (ho : Ordinary mode) (hobj : Objects mode)
    (hp : p.Fits cfg mode) (hq : q.Fits cfg mode) (hs : Separate mode p q) {after : List Token}
    {before : List TypedArg} (hb : ∀ x ∈ before, x.Fits cfg mode) :
    ∀ {chosen c : Choices} {sofar : List Leaf} {used : List Nat} {r : Result},
    weight (before.flatMap TypedArg.tokens ++ (p.tokens ++ (q.tokens ++ after))) < 2 ^ 63 →
    (Expanding mode → ∀ t ∈ before.flatMap TypedArg.tokens ++ (p.tokens ++ (q.tokens ++ after)),
      Readable cfg t) →
    Reading cfg mode chosen sofar used
      (before.flatMap TypedArg.tokens ++ (p.tokens ++ (q.tokens ++ after))) r c →
    ∃ r' c', Reading cfg mode chosen sofar used
        (before.flatMap TypedArg.tokens ++ (q.tokens ++ (p.tokens ++ after))) r' c' ∧
      SwappedReading cfg mode chosen sofar used (before.flatMap TypedArg.tokens) p q r c r' c' := by
  induction before with
  | nil => exact fun hw hread hr => neighbours ho hobj hp hq hs hw hread hr
  | cons x before ih =>
    intro chosen c sofar used r hw hread hr
    have ih := fun {chosen c sofar used r} => ih (fun y hy => hb y (List.mem_cons_of_mem _ hy))
      (chosen := chosen) (c := c) (sofar := sofar) (used := used) (r := r)
    have hx := hb x List.mem_cons_self
    simp only [List.flatMap_cons, List.append_assoc] at hw hread hr ⊢
    rcases stops_or_goes mode x chosen sofar used with ⟨e, ce, hxs⟩ | hxg
    · obtain ⟨rfl, rfl⟩ := reading_unique ho (piece_stops hx hxs _) hw hread hr
      exact ⟨_, _, piece_stops hx hxs _, .failed (by simp)⟩
    · have hr1 := piece_inv hx ho hxg hw hread hr
      obtain ⟨r', c', h1, h2⟩ := ih (by rw [weight_append] at hw; omega)
        (fun he t ht => hread he t (List.mem_append_right _ ht)) hr1
      refine ⟨r', c', piece_goes hx hxg h1, ?_⟩
      cases h2 with
      | failed h => exact .failed h
      | accepted h3 h4 h5 =>
        have h4' := piece_goes hx hxg h4
        have h5' := piece_goes hx hxg h5
        rw [← List.append_assoc] at h4' h5'
        exact .accepted h3 h4' h5'
      | both h4 h5 =>
        have h4' := piece_goes hx hxg h4
        have h5' := piece_goes hx hxg h5
        rw [← List.append_assoc] at h4' h5'
        exact .both h4' h5'

/-! ## C114 -/

theorem bind_not_ok {α β : Type} {o : Out α} (h : ∀ x, o ≠ .ok x) (f : α → Out β) (y : β) :
    (o >>= f) ≠ .ok y := by
  cases o with
  | ok x => exact absurd rfl (h x)
  | _ => exact fun h => nomatch h

theorem bind_same {α β : Type} {o : Out α} (h : ∀ x, o ≠ .ok x) (f g : α → Out β) :
    (o >>= f) = (o >>= g) := by
  cases o with
  | ok x => exact absurd rfl (h x)
  | _ => rfl

/-- What the values of a mode come to, if two parts of the command line are the other way round. -/
theorem modeOf_swapped {b p q more : List Leaf}
    (hd : ∀ x ∈ p, ∀ y ∈ q, ∀ i, IsFor mode.children x i → ¬ IsFor mode.children y i) :
    modeOf mode (b ++ (p ++ q) ++ more) = modeOf mode (b ++ (q ++ p) ++ more) ∨
    (modeOf mode (b ++ (p ++ q) ++ more) = modeOf mode (b ++ p) ∧
      modeOf mode (b ++ (q ++ p) ++ more) = modeOf mode (b ++ q) ∧
      (∀ v, modeOf mode (b ++ p) ≠ .ok v) ∧ ∀ v, modeOf mode (b ++ q) ≠ .ok v) := by
  unfold modeOf
  generalize List.replicate mode.children.length (none : Option Value) = rs
  simp only [collectOf_append]
  cases hb : collectOf mode.children b rs with
  | ok rb =>
    simp only [Out.ok_bind]
    rcases collectOf_commutes hd rb with h | ⟨h1, h2⟩
    · rw [collectOf_append, collectOf_append] at h
      left
      rw [h]
    · right
      cases h3 : collectOf mode.children p rb with
      | ok x => exact absurd h3 (h1 x)
      | _ =>
        cases h4 : collectOf mode.children q rb with
        | ok x => exact absurd h4 (h2 x)
        | _ => exact ⟨rfl, rfl, (fun v h => nomatch h), fun v h => nomatch h⟩
  | _ => exact .inl rfl

theorem outcome_failed (cfg : Config) (mode : Node) {r : Result} (h : ∀ uses, r ≠ .accepts uses) :
    ∃ o, o ≠ .ok () ∧ ∀ s, outcomeOf cfg mode r s = (o, s) := by
  cases r with
  | accepts uses => exact absurd rfl (h uses)
  | fails e => exact ⟨.throw e, (fun h => nomatch h), fun s => rfl⟩
  | unknown t => exact ⟨unknownArgument cfg mode t, (lost_unknown cfg mode t).1, fun s => rfl⟩

theorem ended_same {o : Out (List Call)} {s s' : St} (hc : s.calls = s'.calls)
    (hsel : ∀ u, s.sel.lookup u = s'.sel.lookup u) : EndAlike (ended o s) (ended o s') := by
  cases o with
  | ok calls => exact ⟨rfl, by simp [ended, hc], fun _ => hsel⟩
  | throw e => exact ⟨rfl, hc, fun _ => hsel⟩
  | foreign => exact ⟨rfl, hc, fun _ => hsel⟩
  | ub => exact ⟨rfl, hc, fun _ => hsel⟩
  | diverge => exact ⟨rfl, hc, fun _ => hsel⟩

theorem ended_failed {n : Node} {o : Out (List Value)} (h : ∀ v, o ≠ .ok v) :
    ∃ o', o' ≠ .ok () ∧ ∀ s, ended (called n o) s = (o', s) := by
  cases o with
  | ok v => exact absurd rfl (h v)
  | throw e => exact ⟨.throw e, (fun h => nomatch h), fun s => rfl⟩
  | foreign => exact ⟨.foreign, (fun h => nomatch h), fun s => rfl⟩
  | ub => exact ⟨.ub, (fun h => nomatch h), fun s => rfl⟩
  | diverge => exact ⟨.diverge, (fun h => nomatch h), fun s => rfl⟩

theorem fits_shorter {argv cut : List Bytes} (h : cut.Sublist argv)
    (hlen : (argv.map List.length).sum + argv.length < 2 ^ 63) :
    (cut.map List.length).sum + cut.length < 2 ^ 63 := by
  have h1 := h.length_le
  have h2 : (cut.map List.length).sum ≤ (argv.map List.length).sum := by
    clear hlen h1
    induction h with
    | slnil => simp
    | cons _ _ ih => simp only [List.map_cons, List.sum_cons]; omega
    | cons_cons _ _ ih => simp only [List.map_cons, List.sum_cons]; omega
  omega

theorem fits_perm {argv other : List Bytes} (h : argv.Perm other)
    (hlen : (argv.map List.length).sum + argv.length < 2 ^ 63) :
    (other.map List.length).sum + other.length < 2 ^ 63 := by
  rw [← h.length_eq, ← (h.map _).sum_nat]
  exact hlen

section
variable (hc : compiles cfg depth defaultRules root = true) (hu : Conventional root)
  (hobj : (root.nodes.map Node.uid).Nodup)
include hc hu hobj

/-- C114: the order in which two arguments are typed, one after the other, makes no difference: the
outcome and the calls are the same. The exception is a command line with an error in either of them:
then the first of the two is reported, as if the command line ended there. -/
theorem C114_swap {before : List TypedArg} {p q : TypedArg} {after : List Bytes} (s : St)
    (hl : LedTo cfg root mode names (typed before ++ p.words ++ q.words ++ after))
    (hl' : LedTo cfg root mode names (typed before ++ q.words ++ p.words ++ after))
    (hb : ∀ x ∈ before, x.Fits cfg mode) (hp : p.Fits cfg mode) (hq : q.Fits cfg mode)
    (hs : Separate mode p q)
    (htext : ∀ x ∈ names ++ (typed before ++ p.words ++ q.words ++ after), Readable cfg ⟨.none, x⟩)
    (hlen : ((names ++ (typed before ++ p.words ++ q.words ++ after)).map List.length).sum +
      (names ++ (typed before ++ p.words ++ q.words ++ after)).length < 2 ^ 63) :
    EitherOrder s (parseArgs cfg root (names ++ (typed before ++ p.words ++ q.words ++ after)) s)
      (parseArgs cfg root (names ++ (typed before ++ q.words ++ p.words ++ after)) s)
      (parseArgs cfg root (names ++ (typed before ++ p.words)) s)
      (parseArgs cfg root (names ++ (typed before ++ q.words)) s) := by
  have hprog := C92_ordinary_partial hc hu
  obtain ⟨hm, hk⟩ := ledTo_mem hl
  obtain ⟨hord, hrep⟩ := ledTo_ordinary hprog hl
  have hobjm : Objects mode := objects_below hobj hm
  have hperm : (names ++ (typed before ++ p.words ++ q.words ++ after)).Perm
      (names ++ (typed before ++ q.words ++ p.words ++ after)) := by
    refine List.Perm.append_left _ (List.Perm.append_right _ ?_)
    rw [List.append_assoc, List.append_assoc]
    exact List.Perm.append_left _ List.perm_append_comm
  have htoks : (typed before ++ p.words ++ q.words ++ after).map (Token.mk .none) =
      before.flatMap TypedArg.tokens ++ (p.tokens ++ (q.tokens ++ after.map (Token.mk .none))) := by
    rw [List.map_append, List.map_append, List.map_append, typed_tokens, List.append_assoc,
      List.append_assoc]
    rfl
  have htoks' : (typed before ++ q.words ++ p.words ++ after).map (Token.mk .none) =
      before.flatMap TypedArg.tokens ++ (q.tokens ++ (p.tokens ++ after.map (Token.mk .none))) := by
    rw [List.map_append, List.map_append, List.map_append, typed_tokens, List.append_assoc,
      List.append_assoc]
    rfl
  have hcut : ∀ x : TypedArg, (typed before ++ x.words).map (Token.mk .none) =
      before.flatMap TypedArg.tokens ++ x.tokens := by
    intro x
    rw [List.map_append, typed_tokens]
    rfl
  have hw : weight ((typed before ++ p.words ++ q.words ++ after).map (Token.mk .none)) < 2 ^ 63 := by
    refine Nat.lt_of_le_of_lt (weight_raw _) (fits_shorter ?_ hlen)
    exact List.sublist_append_right _ _
  have hread : Expanding mode → ∀ t ∈ (typed before ++ p.words ++ q.words ++ after).map
      (Token.mk .none), Readable cfg t := by
    intro _ t ht
    obtain ⟨y, hy, rfl⟩ := List.mem_map.1 ht
    exact htext y (List.mem_append_right _ hy)
  obtain ⟨r, c, hr⟩ := reading_of (chosen := s.sel) hord hrep hw hread
  have hrun := led_run hc hu hl s htext hlen hr
  rw [htoks] at hw hread hr
  obtain ⟨r', c', hr', hsw⟩ := after_others hord hobjm hp hq hs hb hw hread hr
  rw [← htoks'] at hr'
  have hrun' := led_run hc hu hl' s (fun x hx => htext x (hperm.mem_iff.2 hx))
    (fits_perm hperm hlen) hr'
  -- the command lines that end after the first of the two
  have hrunp : ∀ {r c}, Reading cfg mode s.sel [] [] (before.flatMap TypedArg.tokens ++ p.tokens) r c →
      parseArgs cfg root (names ++ (typed before ++ p.words)) s =
        outcomeOf cfg mode r { s with sel := c } := by
    intro r c h
    rw [← hcut] at h
    refine led_run hc hu (ledTo_head ?_ hl) s (fun x hx => htext x ?_) (fits_shorter ?_ hlen) h
    · cases typed before <;> simp [TypedArg.words]
    · simp only [List.mem_append] at hx ⊢
      rcases hx with h | h | h
      · exact .inl h
      · exact .inr (.inl (.inl (.inl h)))
      · exact .inr (.inl (.inl (.inr h)))
    · refine List.Sublist.append_left ?_ _
      rw [List.append_assoc]
      exact List.sublist_append_left _ _
  have hrunq : ∀ {r c}, Reading cfg mode s.sel [] [] (before.flatMap TypedArg.tokens ++ q.tokens) r c →
      parseArgs cfg root (names ++ (typed before ++ q.words)) s =
        outcomeOf cfg mode r { s with sel := c } := by
    intro r c h
    rw [← hcut] at h
    refine led_run hc hu (ledTo_head ?_ hl') s (fun x hx => htext x ?_)
      (fits_shorter ?_ (fits_perm hperm hlen)) h
    · cases typed before <;> simp [TypedArg.words]
    · simp only [List.mem_append] at hx ⊢
      rcases hx with h | h | h
      · exact .inl h
      · exact .inr (.inl (.inl (.inl h)))
      · exact .inr (.inl (.inr h))
    · refine List.Sublist.append_left ?_ _
      rw [List.append_assoc]
      exact List.sublist_append_left _ _
  rw [hrun, hrun']
  have hacc : ∀ {uses r c args}, Reading cfg mode s.sel [] [] args r c → r = .accepts uses →
      outcomeOf cfg mode r { s with sel := c } =
        ended (called mode (modeOf mode uses)) { s with sel := c } := by
    intro uses r c args h he
    subst he
    exact accepted_outcome hc hm hk h _
  cases hsw with
  | failed hf =>
    obtain ⟨o, h1, h2⟩ := outcome_failed cfg mode hf
    rw [h2, h2]
    exact .alike ⟨rfl, rfl, fun h => absurd h h1⟩
  | accepted hch hcp hcq =>
    rw [hacc hr rfl, hacc hr' rfl, hrunp hcp, hrunq hcq, hacc hcp rfl, hacc hcq rfl]
    rcases modeOf_swapped (mode := mode) (b := _) (more := _) hs.values with h | ⟨h1, h2, h3, h4⟩
    · rw [h]
      exact .alike (ended_same rfl hch)
    · rw [h1, h2]
      obtain ⟨o, h5, h6⟩ := ended_failed (n := mode) h3
      obtain ⟨o', h7, h8⟩ := ended_failed (n := mode) h4
      rw [h6, h8, h6, h8]
      exact .errors h5 h7 rfl rfl rfl rfl
  | both hcp hcq =>
    rw [hrunp hcp, hrunq hcq]
    exact .errors (fun h => nomatch h) (fun h => nomatch h) rfl rfl rfl rfl

omit hc hu hobj in
theorem ledTo_typed {ps : List TypedArg} {after : List Bytes}
    (hl : ∀ p ∈ ps, LedTo cfg root mode names p.words) (hne : ps ≠ []) :
    LedTo cfg root mode names (typed ps ++ after) := by
  cases ps with
  | nil => exact absurd rfl hne
  | cons p ps => exact ledTo_head (by simp [typed, TypedArg.words]) (hl p (by simp))

/-- C114: the order in which arguments are typed makes no difference to whether the command line is
accepted, to what is called, and to the values. -/
theorem C114_any_order {ps qs : List TypedArg} {after : List Bytes} (s : St) (hperm : ps.Perm qs)
    (hl : ∀ p ∈ ps, LedTo cfg root mode names p.words) (hf : ∀ p ∈ ps, p.Fits cfg mode)
    (hs : ps.Pairwise (Separate mode))
    (htext : ∀ x ∈ names ++ (typed ps ++ after), Readable cfg ⟨.none, x⟩)
    (hlen : ((names ++ (typed ps ++ after)).map List.length).sum +
      (names ++ (typed ps ++ after)).length < 2 ^ 63) :
    EndAlike (parseArgs cfg root (names ++ (typed ps ++ after)) s)
        (parseArgs cfg root (names ++ (typed qs ++ after)) s) ∨
      ((parseArgs cfg root (names ++ (typed ps ++ after)) s).1 ≠ .ok () ∧
        (parseArgs cfg root (names ++ (typed qs ++ after)) s).1 ≠ .ok () ∧
        (parseArgs cfg root (names ++ (typed ps ++ after)) s).2.calls = s.calls ∧
        (parseArgs cfg root (names ++ (typed qs ++ after)) s).2.calls = s.calls) := by
  -- with other arguments before
  suffices H : ∀ before : List TypedArg, (∀ p ∈ before ++ ps, LedTo cfg root mode names p.words) →
      (∀ p ∈ before ++ ps, p.Fits cfg mode) →
      (∀ x ∈ names ++ (typed (before ++ ps) ++ after), Readable cfg ⟨.none, x⟩) →
      ((names ++ (typed (before ++ ps) ++ after)).map List.length).sum +
        (names ++ (typed (before ++ ps) ++ after)).length < 2 ^ 63 →
      EndAlike (parseArgs cfg root (names ++ (typed (before ++ ps) ++ after)) s)
          (parseArgs cfg root (names ++ (typed (before ++ qs) ++ after)) s) ∨
        ((parseArgs cfg root (names ++ (typed (before ++ ps) ++ after)) s).1 ≠ .ok () ∧
          (parseArgs cfg root (names ++ (typed (before ++ qs) ++ after)) s).1 ≠ .ok () ∧
          (parseArgs cfg root (names ++ (typed (before ++ ps) ++ after)) s).2.calls = s.calls ∧
          (parseArgs cfg root (names ++ (typed (before ++ qs) ++ after)) s).2.calls = s.calls) from
    H [] hl hf htext hlen
  clear hl hf htext hlen
  induction hperm with
  | nil => exact fun before _ _ _ _ => .inl ⟨rfl, rfl, fun _ _ => rfl⟩
  | @cons x l l' _ ih =>
    intro before hl hf htext hlen
    have hx : ∀ l : List TypedArg, before ++ x :: l = (before ++ [x]) ++ l := by simp
    rw [hx] at hl hf htext hlen ⊢
    rw [hx l']
    exact ih (List.pairwise_cons.1 hs).2 (before ++ [x]) hl hf htext hlen
  | swap q p l =>
    intro before hl hf htext hlen
    have hsep : Separate mode p q := (List.pairwise_cons.1 hs).1 q (by simp)
    have hx : ∀ x y : TypedArg, typed (before ++ x :: y :: l) ++ after =
        typed before ++ x.words ++ y.words ++ (typed l ++ after) := by simp [typed]
    have hl1 : LedTo cfg root mode names (typed (before ++ p :: q :: l) ++ after) :=
      ledTo_typed hl (by simp)
    have hl2 : LedTo cfg root mode names (typed (before ++ q :: p :: l) ++ after) :=
      ledTo_typed (fun z hz => hl z (by
        rcases List.mem_append.1 hz with h | h
        · exact List.mem_append_left _ h
        · refine List.mem_append_right _ ?_
          simp only [List.mem_cons] at h ⊢
          rcases h with h | h | h
          · exact .inr (.inl h)
          · exact .inl h
          · exact .inr (.inr h))) (by simp)
    rw [hx] at hl1 hl2 htext hlen ⊢
    rw [hx q p]
    cases C114_swap hc hu hobj s hl1 hl2 (fun z hz => hf z (by simp [hz])) (hf p (by simp))
      (hf q (by simp)) hsep htext hlen with
    | alike h => exact .inl h
    | errors h1 h2 _ _ h3 h4 => exact .inr ⟨h1, h2, h3, h4⟩
  | @trans l1 l2 l3 h12 h23 ih1 ih2 =>
    intro before hl hf htext hlen
    have hb : (before ++ l1).Perm (before ++ l2) := h12.append_left _
    have hargv : (names ++ (typed (before ++ l1) ++ after)).Perm
        (names ++ (typed (before ++ l2) ++ after)) :=
      (List.Perm.append_right _ (hb.flatMap_right _)).append_left _
    have hs2 : l2.Pairwise (Separate mode) :=
      hs.perm h12 fun h => ⟨h.children.symm, fun x hx y hy i h1 h2 => h.values y hy x hx i h2 h1,
        h.needed, h.needs⟩
    have h1 := ih1 hs before hl hf htext hlen
    have h2 := ih2 hs2 before (fun p hp => hl p (hb.mem_iff.2 hp)) (fun p hp => hf p (hb.mem_iff.2 hp))
      (fun x hx => htext x (hargv.mem_iff.2 hx)) (fits_perm hargv hlen)
    rcases h1 with h1 | ⟨a1, a2, a3, a4⟩
    · rcases h2 with h2 | ⟨b1, b2, b3, b4⟩
      · exact .inl ⟨h1.outcome.trans h2.outcome, h1.calls.trans h2.calls, fun h u =>
          (h1.choices h u).trans (h2.choices (h1.outcome ▸ h) u)⟩
      · exact .inr ⟨fun h => b1 (h1.outcome ▸ h), b2, h1.calls.trans b3, b4⟩
    · rcases h2 with h2 | ⟨b1, b2, b3, b4⟩
      · exact .inr ⟨a1, fun h => a2 (h2.outcome.trans h), a3, h2.calls.symm.trans a4⟩
      · exact .inr ⟨a1, b2, a3, b4⟩

end

/-! ## C115 -/

/-- What becomes of a command line and the same in other words. -/
inductive OtherReading (ps ps' : List TypedArg) : Result → Choices → Result → Choices → Prop
  | same {r : Result} {c : Choices} : OtherReading ps ps' r c r c
  | again {p p' : TypedArg} {c c' : Choices} : (p, p') ∈ ps.zip ps' →
      OtherReading ps ps' (.fails ⟨.argument_has_already_been_set, [⟨.none, p.word⟩]⟩) c
        (.fails ⟨.argument_has_already_been_set, [⟨.none, p'.word⟩]⟩) c'

theorem other_words (ho : Ordinary mode) {after : List Token} {ps ps' : List TypedArg}
    (hz : Zip SameUse ps ps') :
    (∀ p ∈ ps, p.Fits cfg mode) → (∀ p ∈ ps', p.Fits cfg mode) →
    ∀ {chosen c : Choices} {sofar : List Leaf} {used : List Nat} {r : Result},
    weight (ps.flatMap TypedArg.tokens ++ after) < 2 ^ 63 →
    (Expanding mode → ∀ t ∈ ps.flatMap TypedArg.tokens ++ after, Readable cfg t) →
    Reading cfg mode chosen sofar used (ps.flatMap TypedArg.tokens ++ after) r c →
    ∃ r' c', Reading cfg mode chosen sofar used (ps'.flatMap TypedArg.tokens ++ after) r' c' ∧
      OtherReading ps ps' r c r' c' := by
  induction hz with
  | nil => exact fun _ _ _ _ _ _ _ _ _ hr => ⟨_, _, hr, .same⟩
  | @cons p p' l l' hsame hz ih =>
    intro hf hf' chosen c sofar used r hw hread hr
    have ih := fun {chosen c sofar used r} => ih (fun y hy => hf y (List.mem_cons_of_mem _ hy))
      (fun y hy => hf' y (List.mem_cons_of_mem _ hy))
      (chosen := chosen) (c := c) (sofar := sofar) (used := used) (r := r)
    have hp := hf p List.mem_cons_self
    have hp' := hf' p' List.mem_cons_self
    simp only [List.flatMap_cons, List.append_assoc] at hw hread hr ⊢
    obtain ⟨ha, hsh, hv⟩ := hsame
    rcases stops_or_goes mode p chosen sofar used with ⟨e, ce, hs⟩ | hg
    · obtain ⟨rfl, rfl⟩ := reading_unique ho (piece_stops hp hs _) hw hread hr
      cases hs with
      | clash h =>
        exact ⟨_, _, piece_stops hp' (.clash (ha ▸ h)) _, .same⟩
      | again h1 h2 =>
        exact ⟨_, _, piece_stops hp' (.again (ha ▸ h1) (ha ▸ h2)) _, .again (by simp)⟩
      | lacks h1 h2 h3 =>
        refine ⟨_, _, piece_stops hp' (.lacks (ha ▸ h1) (ha ▸ h2) (hsh ▸ h3)) _, ?_⟩
        rw [ha]
        exact .same
    · have hr1 := piece_inv hp ho hg hw hread hr
      have hu : p.uses mode = p'.uses mode := by
        unfold TypedArg.uses
        rw [ha, hsh, hv]
      obtain ⟨r', c', h1, h2⟩ := ih (by rw [weight_append] at hw; omega)
        (fun he t ht => hread he t (List.mem_append_right _ ht)) hr1
      rw [ha, hu] at h1
      refine ⟨r', c', piece_goes hp' ⟨ha ▸ hg.clash, ha ▸ hg.available, hsh ▸ hg.needs⟩ h1, ?_⟩
      cases h2 with
      | same => exact .same
      | again h => exact .again (by simp [h])

section
variable (hc : compiles cfg depth defaultRules root = true) (hu : Conventional root)
include hc hu

/-- C115: which of its labels an argument is typed with makes no difference, for any number of
arguments, whatever follows them. Only the error about an argument that has been given before tells
the label. -/
theorem C115_labels {ps ps' : List TypedArg} {after : List Bytes} (s : St)
    (hz : Zip SameUse ps ps')
    (hl : LedTo cfg root mode names (typed ps ++ after))
    (hl' : LedTo cfg root mode names (typed ps' ++ after))
    (hf : ∀ p ∈ ps, p.Fits cfg mode) (hf' : ∀ p ∈ ps', p.Fits cfg mode)
    (htext : ∀ x ∈ names ++ (typed ps ++ after), Readable cfg ⟨.none, x⟩)
    (htext' : ∀ x ∈ names ++ (typed ps' ++ after), Readable cfg ⟨.none, x⟩)
    (hlen : ((names ++ (typed ps ++ after)).map List.length).sum +
      (names ++ (typed ps ++ after)).length < 2 ^ 63)
    (hlen' : ((names ++ (typed ps' ++ after)).map List.length).sum +
      (names ++ (typed ps' ++ after)).length < 2 ^ 63) :
    OtherWords s ps ps' (parseArgs cfg root (names ++ (typed ps ++ after)) s)
      (parseArgs cfg root (names ++ (typed ps' ++ after)) s) := by
  have hprog := C92_ordinary_partial hc hu
  obtain ⟨hord, hrep⟩ := ledTo_ordinary hprog hl
  have htoks : ∀ ps : List TypedArg, (typed ps ++ after).map (Token.mk .none) =
      ps.flatMap TypedArg.tokens ++ after.map (Token.mk .none) := by
    intro ps
    rw [List.map_append, typed_tokens]
  have hw : weight ((typed ps ++ after).map (Token.mk .none)) < 2 ^ 63 := by
    refine Nat.lt_of_le_of_lt (weight_raw _) (fits_shorter ?_ hlen)
    exact List.sublist_append_right _ _
  have hread : Expanding mode → ∀ t ∈ (typed ps ++ after).map (Token.mk .none), Readable cfg t := by
    intro _ t ht
    obtain ⟨y, hy, rfl⟩ := List.mem_map.1 ht
    exact htext y (List.mem_append_right _ hy)
  obtain ⟨r, c, hr⟩ := reading_of (chosen := s.sel) hord hrep hw hread
  have hrun := led_run hc hu hl s htext hlen hr
  rw [htoks] at hw hread hr
  obtain ⟨r', c', hr', ho⟩ := other_words hord hz hf hf' hw hread hr
  rw [← htoks] at hr'
  rw [hrun, led_run hc hu hl' s htext' hlen' hr']
  cases ho with
  | same => exact .alike ⟨rfl, rfl, fun _ _ => rfl⟩
  | again h => exact .again h rfl rfl rfl rfl

end

/-! ## What fits -/

/-- A label of an argument, and as many words as it takes values. -/
theorem C114_label {c : Node} {i : Nat} {sh : Shape} {word : Bytes} {more : List Bytes}
    (hd : Declared c sh) (hn : c.isNamed = true) (hs : sh.separator = none) (hm : sh.marker = none)
    (hmin : sh.min = more.length) (hmax : sh.max = more.length) (hl : Spelled cfg c word)
    (hf : ∃ before after, arguments mode = before ++ (i, c) :: after ∧
      ∀ x ∈ before, x.2.isNamed = true ∧ ¬ Mentions cfg x.2 ⟨.none, word⟩) :
    TypedArg.Fits cfg mode ⟨(i, c), sh, word, more, more.map (Token.mk .none)⟩ where
  declared := hd
  named := hn
  takes rest := by
    refine ⟨_, .label hs hl, ?_⟩
    have h1 : ¬ (more.map (Token.mk .none) ++ rest).length < sh.min := by simp [hmin]
    simp only [Shape.values, hm, if_neg h1, hmax]
    rw [List.take_left' (by simp), List.drop_left' (by simp)]
  first := hf

/-- A label of an argument with the value after the separator, in one word. -/
theorem C114_separator {c : Node} {i : Nat} {sh : Shape} {l v : Bytes} {ch : UInt8}
    (hd : Declared c sh) (hs : sh.separator = some ch) (hm : sh.marker = none) (hch : ch ∉ l)
    (hv : v ≠ []) (hl : Spelled cfg c l)
    (hf : ∃ before after, arguments mode = before ++ (i, c) :: after ∧
      ∀ x ∈ before, x.2.isNamed = true ∧ ¬ Mentions cfg x.2 ⟨.none, l ++ ch :: v⟩) :
    TypedArg.Fits cfg mode ⟨(i, c), sh, l ++ ch :: v, [], [⟨.none, v⟩]⟩ := by
  obtain ⟨hn, -, hmin, hmax, -⟩ := hd.separated (by simp [hs])
  refine ⟨hd, hn, fun rest => ⟨_, .separated hs rfl hch hv hl, ?_⟩, hf⟩
  simp [Shape.values, hm, hmin, hmax]

/-! ## Examples -/

theorem dashes_unmentioned {c : Node} {l : Bytes} (hl : c.longName ≠ some l)
    (hn : c.noneName = none) (hv : ∀ p ∈ c.policies, (match p with
      | .valueSeparator _ => false | _ => true) = true) :
    ¬ Mentions .default c ⟨.none, b "--" ++ l⟩ := by
  have hpre : Config.default.longPrefix <+: b "--" ++ l := ⟨l, rfl⟩
  rintro (h | ⟨_, ch, _, _, h, _⟩ | ⟨_, _, _, _, h, _⟩)
  · rcases h with ⟨l', h1, h2⟩ | ⟨_, _, _, h⟩ | ⟨h, _⟩
    · exact hl (by rw [h1, List.append_cancel_left (as := b "--") h2])
    · exact h hpre
    · rw [hn] at h; cases h
  · exact absurd (hv _ h) (by simp)
  · rcases h with ⟨h, _⟩ | ⟨_, _, h⟩
    · cases h
    · exact h hpre

theorem toolMode_led (rest : List Bytes) : LedTo .default toolRoot toolMode [] rest where
  way := ⟨[], toolMode, [], rfl, .unnamed rfl (by decide), fun d hd => nomatch hd⟩
  here := by
    intro t _ d hd hk
    have : ∀ d ∈ toolMode.children, d.kind ≠ .mode := by decide
    exact absurd hk (this d hd)

def numTyped (v : Bytes) : TypedArg :=
  ⟨(2, toolNum), shapeOf toolNum, b "--num", [v], [⟨.none, v⟩]⟩
def outTyped (v : Bytes) : TypedArg :=
  ⟨(3, toolOut), shapeOf toolOut, b "--out", [v], [⟨.none, v⟩]⟩
def allTyped (word : Bytes) : TypedArg := ⟨(0, toolFlag), shapeOf toolFlag, word, [], []⟩

theorem num_fits (v : Bytes) : (numTyped v).Fits .default toolMode :=
  C114_label (declared_of_test (by decide +kernel)) rfl (by decide) (by decide) rfl rfl
    (.inl ⟨b "num", rfl, rfl⟩)
    ⟨[(0, toolFlag), (1, toolVerbose)], [(3, toolOut)], rfl, by
      intro x hx
      simp only [List.mem_cons, List.not_mem_nil, or_false] at hx
      rcases hx with rfl | rfl
      · exact ⟨rfl, dashes_unmentioned (l := b "num") (by decide) rfl (by decide)⟩
      · exact ⟨rfl, dashes_unmentioned (l := b "num") (by decide) rfl (by decide)⟩⟩

theorem out_fits (v : Bytes) : (outTyped v).Fits .default toolMode :=
  C114_label (declared_of_test (by decide +kernel)) rfl (by decide) (by decide) rfl rfl
    (.inl ⟨b "out", rfl, rfl⟩)
    ⟨[(0, toolFlag), (1, toolVerbose), (2, toolNum)], [], rfl, by
      intro x hx
      simp only [List.mem_cons, List.not_mem_nil, or_false] at hx
      rcases hx with rfl | rfl | rfl
      · exact ⟨rfl, dashes_unmentioned (l := b "out") (by decide) rfl (by decide)⟩
      · exact ⟨rfl, dashes_unmentioned (l := b "out") (by decide) rfl (by decide)⟩
      · exact ⟨rfl, dashes_unmentioned (l := b "out") (by decide) rfl (by decide)⟩⟩

theorem all_fits : (allTyped (b "--all")).Fits .default toolMode ∧
    (allTyped (b "-a")).Fits .default toolMode :=
  ⟨C114_label (more := []) (declared_of_test (by decide +kernel)) rfl (by decide) (by decide) rfl rfl
    (.inl ⟨b "all", rfl, rfl⟩) ⟨[], [(1, toolVerbose), (2, toolNum), (3, toolOut)], rfl, by simp⟩,
   C114_label (more := []) (declared_of_test (by decide +kernel)) rfl (by decide) (by decide) rfl rfl
    (.inr (.inl ⟨b "a", rfl, rfl, by decide⟩))
    ⟨[], [(1, toolVerbose), (2, toolNum), (3, toolOut)], rfl, by simp⟩⟩

theorem tool_separate {p q : TypedArg} (hpq : p.argument.1 ≠ q.argument.1)
    (hp : p.uses toolMode = [⟨p.argument.2, p.values⟩]) (hq : q.uses toolMode = [⟨q.argument.2, q.values⟩])
    (hpi : ∃ c n, findChild p.argument.2.hash toolMode.children 0 = some (p.argument.1, c, n))
    (hqi : ∃ c n, findChild q.argument.2.hash toolMode.children 0 = some (q.argument.1, c, n))
    (hpn : p.shape.needs = none) (hqn : q.shape.needs = none) : Separate toolMode p q where
  children := hpq
  values := by
    rw [hp, hq]
    simp only [List.mem_singleton]
    rintro x rfl y rfl i h1 h2
    rw [isFor_iff] at h1 h2
    obtain ⟨_, _, h1⟩ := h1
    obtain ⟨_, _, h2⟩ := h2
    obtain ⟨_, _, h3⟩ := hpi
    obtain ⟨_, _, h4⟩ := hqi
    rw [h3] at h1
    rw [h4] at h2
    simp only [Option.some.injEq, Prod.mk.injEq] at h1 h2
    exact hpq (h1.1.trans h2.1.symm)
  needs := by rw [hpn]; exact fun _ h => nomatch h
  needed := by rw [hqn]; exact fun _ h => nomatch h

/-- The hypotheses of the C114 theorems are met: `--num` and `--out` with values, and `--all`, in any
order. -/
example (v w : Bytes) : [numTyped v, outTyped w, allTyped (b "-a")].Pairwise (Separate toolMode) ∧
    (∀ p ∈ [numTyped v, outTyped w, allTyped (b "-a")], p.Fits .default toolMode) ∧
    (∀ p ∈ [numTyped v, outTyped w, allTyped (b "-a")], LedTo .default toolRoot toolMode [] p.words) ∧
    (toolRoot.nodes.map Node.uid).Nodup := by
  refine ⟨?_, ?_, fun p _ => toolMode_led p.words, by decide⟩
  · simp only [List.pairwise_cons, List.mem_cons, List.not_mem_nil, or_false]
    refine ⟨?_, ?_, ?_, .nil⟩
    · rintro q (rfl | rfl)
      · exact tool_separate (fun h => nomatch h) rfl rfl ⟨_, _, rfl⟩ ⟨_, _, rfl⟩ rfl rfl
      · exact tool_separate (fun h => nomatch h) rfl rfl ⟨_, _, rfl⟩ ⟨_, _, rfl⟩ rfl rfl
    · rintro q rfl
      exact tool_separate (fun h => nomatch h) rfl rfl ⟨_, _, rfl⟩ ⟨_, _, rfl⟩ rfl rfl
    · exact fun _ h => nomatch h
  · simp only [List.mem_cons, List.not_mem_nil, or_false]
    rintro p (rfl | rfl | rfl)
    · exact num_fits v
    · exact out_fits w
    · exact all_fits.2

/-- What C114 is about: the values, and why errors are apart. -/
example :
    parseArgs .default toolRoot [b "--num", b "5", b "--out", b "3", b "-a"] .fresh =
      (.ok (), ⟨[], [⟨45, [.one (.bool true), .one (.int 0), .one (.int 5), .one (.int 3)]⟩]⟩) ∧
    parseArgs .default toolRoot [b "-a", b "--out", b "3", b "--num", b "5"] .fresh =
      (.ok (), ⟨[], [⟨45, [.one (.bool true), .one (.int 0), .one (.int 5), .one (.int 3)]⟩]⟩) ∧
    parseArgs .default toolRoot [b "--num", b "x", b "--out", b "y"] .fresh =
      (.throw ⟨.failed_to_parse, [⟨.none, b "x"⟩]⟩, .fresh) ∧
    parseArgs .default toolRoot [b "--out", b "y", b "--num", b "x"] .fresh =
      (.throw ⟨.failed_to_parse, [⟨.none, b "y"⟩]⟩, .fresh) := by
  decide +kernel

/-- C115: `-a` and `--all` are the same use of the flag. -/
example (v : Bytes) : Zip SameUse [allTyped (b "-a"), numTyped v] [allTyped (b "--all"), numTyped v] :=
  .cons ⟨rfl, rfl, rfl⟩ (.cons ⟨rfl, rfl, rfl⟩ .nil)

/-- What C115 is about: the calls, and the error that tells the label. -/
example :
    parseArgs .default toolRoot [b "-a", b "--num", b "5"] .fresh =
      parseArgs .default toolRoot [b "--all", b "--num", b "5"] .fresh ∧
    parseArgs .default toolRoot [b "-a", b "-a"] .fresh =
      (.throw ⟨.argument_has_already_been_set, [⟨.none, b "-a"⟩]⟩, .fresh) ∧
    parseArgs .default toolRoot [b "-a", b "--all"] .fresh =
      (.throw ⟨.argument_has_already_been_set, [⟨.none, b "--all"⟩]⟩, .fresh) := by
  decide +kernel

end ArgRouter.Props
