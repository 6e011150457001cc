import Verif.Spec.InOneWord
import Verif.Props.NewLabels

/-!
# C09: short names in one word, whatever the arguments are
-/

namespace ArgRouter.Props

open Spec Utf8

variable {cfg : Config} {mode root : Node} {names : List Bytes} {depth : Nat}

/-- The token `t` is a label of the argument, with the values that follow; `left` comes after. -/
structure TokenFits (cfg : Config) (mode : Node) (p : TypedArg) (t : Token) (rest left : List Token) :
    Prop where
  declared : Declared p.argument.2 p.shape
  named : p.argument.2.isNamed = true
  takes : ∃ follows, Labels cfg p.argument.2 p.shape t rest follows ∧
    p.shape.values p.argument.2 follows = .ok (p.values, left)
  first : ∃ before after, arguments mode = before ++ p.argument :: after ∧
    ∀ x ∈ before, x.2.isNamed = true ∧ ¬ Mentions cfg x.2 t

theorem token_first {p : TypedArg} {t : Token} {rest left : List Token}
    (h : TokenFits cfg mode p t rest left) (sofar : List Leaf) (used : List Nat) :
    First cfg mode sofar used t rest p.argument := by
  obtain ⟨before, after, h1, h2⟩ := h.first
  refine ⟨before, after, h1, ?_, ?_, .inl h.named⟩
  · rintro x hx ⟨⟨cl, hcl⟩, -⟩
    obtain ⟨h3, h4⟩ := h2 x hx
    exact h4 (claims_mentions h3 hcl)
  · obtain ⟨follows, h3, -⟩ := h.takes
    obtain ⟨cl, hcl⟩ := labels_claims (mode := mode) (sofar := sofar) h3
    exact ⟨cl, p.shape, h.declared, hcl⟩

/-- What becomes of the flags in one word, and apart. -/
inductive ApartReading (P : TypedArg → Token → Prop) : Result → Choices → Result → Choices → Prop
  | same {r : Result} {c : Choices} : ApartReading P r c r c
  | again {p : TypedArg} {t : Token} {c : Choices} : P p t →
      ApartReading P (.fails ⟨.argument_has_already_been_set, [⟨.none, p.word⟩]⟩) c
        (.fails ⟨.argument_has_already_been_set, [t]⟩) c

/-- One argument, typed as a word of its own or not. -/
theorem token_step (ho : Ordinary mode) {p : TypedArg} {t : Token} {rest left after : List Token}
    (hp : p.Fits cfg mode) (ht : TokenFits cfg mode p t rest left) {chosen c : Choices}
    {sofar : List Leaf} {used : List Nat} {r : Result} {P : TypedArg → Token → Prop} (hP : P p t)
    (hw : weight (p.tokens ++ after) < 2 ^ 63)
    (hread : Expanding mode → ∀ t ∈ p.tokens ++ after, Readable cfg t)
    (hr : Reading cfg mode chosen sofar used (p.tokens ++ after) r c)
    (ih : ∀ {chosen sofar used}, Reading cfg mode chosen sofar used after r c →
      ∃ r' c', Reading cfg mode chosen sofar used left r' c' ∧ ApartReading P r c r' c') :
    ∃ r' c', Reading cfg mode chosen sofar used (t :: rest) r' c' ∧ ApartReading P r c r' c' := by
  have hf := token_first ht sofar used
  obtain ⟨follows, h3, h4⟩ := ht.takes
  rcases stops_or_goes mode p chosen sofar used with ⟨e, ce, hs⟩ | hg
  · obtain ⟨rfl, rfl⟩ := reading_unique ho (piece_stops hp hs _) hw hread hr
    cases hs with
    | clash h => exact ⟨_, _, .clash hf h, .same⟩
    | again h1 h2 => exact ⟨_, _, .again hf h1 h2, .again hP⟩
    | lacks h1 h2 h5 =>
      exact ⟨_, _, .refused hf h1 h2 ⟨p.shape, ht.declared, .lacks h3 h4 h5⟩, .same⟩
  · obtain ⟨r', c', h1, h2⟩ := ih (piece_inv hp ho hg hw hread hr)
    exact ⟨r', c', .take hf hg.clash hg.available
      ⟨p.shape, ht.declared, .takes h3 h4 hg.needs⟩ h1, h2⟩

/-- What mentions the short flag mentions it as a word of its own. -/
theorem short_mentions {c : Node} {g : Bytes} (hs : ¬ cfg.longPrefix <+: cfg.shortPrefix ++ g)
    (h : Mentions cfg c ⟨.short, g⟩) : Mentions cfg c ⟨.none, cfg.shortPrefix ++ g⟩ := by
  rcases h with h | ⟨l, ch, v, h1, h2, h3⟩ | ⟨x, g', gs, h1, h2, h3⟩
  · exact .inl (.inr (.inl ⟨g, h, rfl, hs⟩))
  · refine .inr (.inl ⟨cfg.shortPrefix ++ l, ch, v, ?_, h2, .inr (.inl ⟨l, h3, rfl, ?_⟩)⟩)
    · simp only at h1
      simp only [h1, List.append_assoc]
    · intro h
      refine hs (h.trans ⟨ch :: v, ?_⟩)
      simp only at h1
      rw [h1, List.append_assoc]
  · refine .inr (.inr ⟨x, g', gs, h1, .inr ⟨rfl, ?_, hs⟩, h3⟩)
    rcases h2 with ⟨-, h2⟩ | ⟨h2, -⟩
    · simp only at h2
      rw [h2]
    · cases h2

theorem short_fits {p : TypedArg} {g : Bytes} (hp : p.Fits cfg mode) (hg : ByShortName cfg p g)
    (rest : List Token) :
    TokenFits cfg mode p ⟨.short, g⟩ (p.more.map (Token.mk .none) ++ rest) rest where
  declared := hp.declared
  named := hp.named
  takes := ⟨_, .label hg.separator hg.name, hg.values rest⟩
  first := by
    obtain ⟨before, after, h1, h2⟩ := hp.first
    refine ⟨before, after, h1, fun x hx => ⟨(h2 x hx).1, fun hm => (h2 x hx).2 ?_⟩⟩
    rw [hg.word]
    exact short_mentions (hg.word ▸ hg.short) hm

/-- The letters after the first. -/
theorem letters_apart (ho : Ordinary mode) {after : List Token} {P : TypedArg → Token → Prop}
    {fs : List TypedArg} {gs : List Bytes} (hz : Zip (ByShortName cfg) fs gs) :
    (∀ p ∈ fs, p.Fits cfg mode) → (∀ p ∈ fs.dropLast, p.more = []) →
    (∀ p ∈ fs, ∀ g, p.argument.2.shortName = some g → P p ⟨.short, g⟩) →
    weight (fs.flatMap TypedArg.tokens ++ after) < 2 ^ 63 →
    (Expanding mode → ∀ t ∈ fs.flatMap TypedArg.tokens ++ after, Readable cfg t) →
    ∀ {chosen c : Choices} {sofar : List Leaf} {used : List Nat} {r : Result},
    Reading cfg mode chosen sofar used (fs.flatMap TypedArg.tokens ++ after) r c →
    ∃ r' c', Reading cfg mode chosen sofar used
      (gs.map (Token.mk .short) ++ ((fs.flatMap (·.more)).map (Token.mk .none) ++ after)) r' c' ∧
      ApartReading P r c r' c' := by
  induction hz with
  | nil => exact fun _ _ _ _ _ _ _ _ _ _ hr => ⟨_, _, hr, .same⟩
  | @cons p g l l' hg hz ih =>
    intro hf hm hP hw hread chosen c sofar used r hr
    have hp := hf p List.mem_cons_self
    simp only [List.flatMap_cons, List.append_assoc] at hw hread hr
    have key : ∀ rest, (g :: l').map (Token.mk .short) ++
        (((p :: l).flatMap (·.more)).map (Token.mk .none) ++ rest) = ⟨.short, g⟩ ::
        (p.more.map (Token.mk .none) ++ (l'.map (Token.mk .short) ++
          ((l.flatMap (·.more)).map (Token.mk .none) ++ rest))) := by
      intro rest
      cases hz with
      | nil => simp
      | cons _ _ => simp [hm p (by simp)]
    rw [key]
    refine token_step ho hp (short_fits hp hg _) (hP p List.mem_cons_self g hg.name) hw hread hr
      fun hr1 => ih (fun q hq => hf q (List.mem_cons_of_mem _ hq)) (fun q hq => hm q ?_)
        (fun q hq => hP q (List.mem_cons_of_mem _ hq)) (by rw [weight_append] at hw; omega)
        (fun he t ht => hread he t (List.mem_append_right _ ht)) hr1
    cases hz with
    | nil => cases hq
    | cons _ _ =>
      rw [List.dropLast_cons_of_ne_nil (by simp)]
      exact List.mem_cons_of_mem _ hq

section
variable (hc : compiles cfg depth defaultRules root = true) (hu : Conventional root)
include hc hu

/-- C09 for every mode and every argument: short names in one word mean the same as each in a word of its
own, whatever comes before and whatever follows. The arguments may be repeated, need others, be aliases
or alternatives of a `one_of`, and the last may have values; and it holds for the errors. -/
theorem C09_any {before fs : List TypedArg} {word : Bytes} {after : List Bytes} (s : St)
    (hone : InOneWord cfg mode word fs)
    (hl : LedTo cfg root mode names (typed before ++ (typed fs ++ after)))
    (hl' : LedTo cfg root mode names (typed before ++ (word :: fs.flatMap (·.more) ++ after)))
    (hb : ∀ p ∈ before, p.Fits cfg mode) (hf : ∀ p ∈ fs, p.Fits cfg mode)
    (htext : ∀ x ∈ names ++ (typed before ++ (typed fs ++ after)), Readable cfg ⟨.none, x⟩)
    (htext' : ∀ x ∈ names ++ (typed before ++ (word :: fs.flatMap (·.more) ++ after)),
      Readable cfg ⟨.none, x⟩)
    (hlen : ((names ++ (typed before ++ (typed fs ++ after))).map List.length).sum +
      (names ++ (typed before ++ (typed fs ++ after))).length < 2 ^ 63)
    (hlen' : ((names ++ (typed before ++ (word :: fs.flatMap (·.more) ++ after))).map List.length).sum +
      (names ++ (typed before ++ (word :: fs.flatMap (·.more) ++ after))).length < 2 ^ 63) :
    SameAsApart s word fs
      (parseArgs cfg root (names ++ (typed before ++ (word :: fs.flatMap (·.more) ++ after))) s)
      (parseArgs cfg root (names ++ (typed before ++ (typed fs ++ after))) s) := by
  have hprog := C92_ordinary_partial hc hu
  obtain ⟨hord, hrep⟩ := ledTo_ordinary hprog hl
  have htoks : (typed before ++ (typed fs ++ after)).map (Token.mk .none) =
      before.flatMap TypedArg.tokens ++ (fs.flatMap TypedArg.tokens ++ after.map (Token.mk .none)) := by
    rw [List.map_append, List.map_append, typed_tokens, typed_tokens]
  have hw : weight ((typed before ++ (typed fs ++ after)).map (Token.mk .none)) < 2 ^ 63 := by
    refine Nat.lt_of_le_of_lt (weight_raw _) (fits_shorter ?_ hlen)
    exact List.sublist_append_right _ _
  have hread : Expanding mode →
      ∀ t ∈ (typed before ++ (typed fs ++ after)).map (Token.mk .none), Readable cfg t := by
    intro _ t ht
    obtain ⟨y, hy, rfl⟩ := List.mem_map.1 ht
    exact htext y (List.mem_append_right _ hy)
  obtain ⟨r, c, hr⟩ := reading_of (chosen := s.sel) hord hrep hw hread
  have hrun := led_run hc hu hl s htext hlen hr
  rw [htoks] at hw hread hr
  rw [hrun]
  have hrun' := @led_run _ _ _ _ _ hc hu _ hl' s htext' hlen'
  rcases before_any hord hb hw hread hr with ⟨e, rfl, h⟩ | ⟨ch, b, used, h1, h2⟩
  · have h := h ((word :: fs.flatMap (·.more) ++ after).map (Token.mk .none))
    rw [← typed_tokens, ← List.map_append] at h
    rw [hrun' h]
    exact .same rfl
  · have hw2 := hw
    rw [weight_append] at hw2
    have hread2 : Expanding mode → ∀ t ∈ fs.flatMap TypedArg.tokens ++ after.map (Token.mk .none),
        Readable cfg t := fun he t ht => hread he t (List.mem_append_right _ ht)
    obtain ⟨x, gs, hx, hg, hz⟩ := hone.letters
    have hsev := hone.several
    obtain ⟨r', c', h3, h4⟩ : ∃ r' c', Reading cfg mode ch ([] ++ b) used
        ((word :: fs.flatMap (·.more) ++ after).map (Token.mk .none)) r' c' ∧
        ApartReading (fun p t => p ∈ fs ∧ (fs.head? = some p ∧ t = ⟨.none, word⟩ ∨
          ∃ g, p.argument.2.shortName = some g ∧ t = ⟨.short, g⟩)) r c r' c' := by
      cases hz with
      | nil => simp at hsev
      | @cons p g l l' hpg hz =>
        have hm : p.more = [] := hone.flags p (by cases l with
          | nil => simp at hsev
          | cons q l => simp)
        have hp := hf p List.mem_cons_self
        cases hz with
        | nil => simp at hsev
        | @cons q g2 l l' hqg hz =>
          have key : (word :: (p :: q :: l).flatMap (·.more) ++ after).map (Token.mk .none) =
              ⟨.none, word⟩ :: (((q :: l).flatMap (·.more)).map (Token.mk .none) ++
                after.map (Token.mk .none)) := by
            simp [hm]
          rw [key]
          rw [List.flatMap_cons, List.append_assoc] at h1 hread2
          refine token_step hord (left := (g2 :: l').map (Token.mk .short) ++
              (((q :: l).flatMap (·.more)).map (Token.mk .none) ++ after.map (Token.mk .none)))
            hp ⟨hp.declared, hp.named, ⟨_, .collapsed (hone.expands p rfl) hx hg hpg.name, ?_⟩,
              hone.first p rfl⟩ ⟨List.mem_cons_self, .inl ⟨rfl, rfl⟩⟩
            (by rw [List.flatMap_cons, List.append_assoc] at hw2; omega) hread2 h1 fun hr1 => ?_
          · have := hpg.values ((g2 :: l').map (Token.mk .short) ++
              (((q :: l).flatMap (·.more)).map (Token.mk .none) ++ after.map (Token.mk .none)))
            rw [hm] at this
            exact this
          · rw [List.flatMap_cons, List.append_assoc, weight_append] at hw2
            refine letters_apart hord (.cons hqg hz) (fun y hy => hf y (List.mem_cons_of_mem _ hy))
              (fun y hy => hone.flags y ?_) (fun y hy g hyg => ⟨List.mem_cons_of_mem _ hy, .inr ⟨g, hyg, rfl⟩⟩)
              (by omega) (fun he t ht => hread2 he t (List.mem_append_right _ ht)) hr1
            rw [List.dropLast_cons_of_ne_nil (by simp)]
            exact List.mem_cons_of_mem _ hy
    have h5 := h2 _ _ _ h3
    rw [← typed_tokens, ← List.map_append] at h5
    rw [hrun' h5]
    cases h4 with
    | same => exact .same rfl
    | again h => exact .again h.1 h.2 rfl rfl rfl

end

/-! ## Examples -/

def oneFlag : TypedArg := ⟨(0, labelFlag), shapeOf labelFlag, b "-a", [], []⟩
def oneVerbose : TypedArg := ⟨(1, labelVerbose), shapeOf labelVerbose, b "-v", [], []⟩
def oneNum (v : Bytes) : TypedArg := ⟨(2, labelNum), shapeOf labelNum, b "-n", [v], [⟨.none, v⟩]⟩

theorem dash_unmentioned {c : Node} {g l : Bytes} (hg : c.shortName = some g)
    (hn : c.noneName = none) (hv : ∀ p ∈ c.policies, (match p with
      | .valueSeparator _ => false | _ => true) = true) (hl : l ≠ g)
    (hp : ¬ Config.default.longPrefix <+: b "-" ++ l) (hgr : ∃ h hs, graphemes l = .ok (h :: hs) ∧ h ≠ g) :
    ¬ Mentions .default c ⟨.none, b "-" ++ l⟩ := by
  obtain ⟨h, hs, h1, h2⟩ := hgr
  rintro (h' | ⟨_, ch, _, _, h', _⟩ | ⟨x, g', gs, _, h', h3, h4⟩)
  · rcases h' with ⟨l', _, h4⟩ | ⟨l', h3, h4, _⟩ | ⟨h', _⟩
    · simp only at h4
      exact hp ⟨l', by rw [h4]⟩
    · rw [hg] at h3
      cases h3
      exact hl (List.append_cancel_left (as := b "-") h4)
    · rw [hn] at h'; cases h'
  · exact absurd (hv _ h') (by simp)
  · rcases h' with ⟨h', _⟩ | ⟨_, h', _⟩
    · cases h'
    · have : l = x := List.append_cancel_left (as := b "-") h'
      subst this
      rw [h1] at h3
      rw [hg] at h4
      simp only [Out.ok.injEq, List.cons.injEq, Option.some.injEq] at h3 h4
      exact h2 (h3.1.trans h4.symm)

theorem label_fits (v : Bytes) : oneFlag.Fits .default labelMode ∧ oneVerbose.Fits .default labelMode ∧
    (oneNum v).Fits .default labelMode := by
  refine ⟨?_, ?_, ?_⟩
  · exact C114_label (more := []) (declared_of_test (by decide +kernel)) rfl (by decide) (by decide) rfl rfl
      (.inr (.inl ⟨b "a", rfl, rfl, by decide⟩))
      ⟨[], [(1, labelVerbose), (2, labelNum), (3, labelOut)], rfl, by simp⟩
  · refine C114_label (more := []) (declared_of_test (by decide +kernel)) rfl (by decide) (by decide) rfl rfl
      (.inr (.inl ⟨b "v", rfl, rfl, by decide⟩))
      ⟨[(0, labelFlag)], [(2, labelNum), (3, labelOut)], rfl, ?_⟩
    intro x hx
    simp only [List.mem_cons, List.not_mem_nil, or_false] at hx
    subst hx
    exact ⟨rfl, dash_unmentioned (g := b "a") (l := b "v") rfl rfl (by decide) (by decide) (by decide)
      ⟨b "v", [], by decide +kernel, by decide⟩⟩
  · refine C114_label (more := [v]) (declared_of_test (by decide +kernel)) rfl (by decide) (by decide) rfl rfl
      (.inr (.inl ⟨b "n", rfl, rfl, by decide⟩))
      ⟨[(0, labelFlag), (1, labelVerbose)], [(3, labelOut)], rfl, ?_⟩
    intro x hx
    simp only [List.mem_cons, List.not_mem_nil, or_false] at hx
    rcases hx with rfl | rfl
    · exact ⟨rfl, dash_unmentioned (g := b "a") (l := b "n") rfl rfl (by decide) (by decide) (by decide)
        ⟨b "n", [], by decide +kernel, by decide⟩⟩
    · exact ⟨rfl, dash_unmentioned (g := b "v") (l := b "n") rfl rfl (by decide) (by decide) (by decide)
        ⟨b "n", [], by decide +kernel, by decide⟩⟩

/-- The hypotheses of `C09_any` are met: `-avn` with any value is `-a -v -n` with this value. -/
example (v : Bytes) : compiles .default 100 defaultRules labelRoot = true ∧ Conventional labelRoot ∧
    InOneWord .default labelMode (b "-avn") [oneFlag, oneVerbose, oneNum v] ∧
    (∀ rest, LedTo .default labelRoot labelMode [] rest) ∧
    ∀ p ∈ [oneFlag, oneVerbose, oneNum v], p.Fits .default labelMode := by
  refine ⟨by decide +kernel, conventional_of_test (by decide +kernel), ⟨⟨b "avn", [b "a", b "v", b "n"],
    .inr ⟨rfl, rfl, by decide⟩, by decide +kernel, .cons ?_ (.cons ?_ (.cons ?_ .nil))⟩, by simp, ?_, ?_, ?_⟩,
    labelMode_led, ?_⟩
  · exact ⟨rfl, rfl, by decide, by decide, fun rest => rfl⟩
  · exact ⟨rfl, rfl, by decide, by decide, fun rest => rfl⟩
  · have hshort : ¬ Config.default.longPrefix <+: b "-n" := by decide
    exact ⟨rfl, rfl, hshort, rfl, fun rest => by
      simp [oneNum, Shape.values, show (shapeOf labelNum).marker = none from rfl,
        show (shapeOf labelNum).min = 1 from rfl, show (shapeOf labelNum).max = 1 from rfl]⟩
  · simp [oneFlag, oneVerbose]
  · simp only [List.head?_cons, Option.mem_def, Option.some.injEq]
    rintro f rfl
    decide
  · simp only [List.head?_cons, Option.mem_def, Option.some.injEq]
    rintro f rfl
    exact ⟨[], [(1, labelVerbose), (2, labelNum), (3, labelOut)], rfl, by simp⟩
  · simp only [List.mem_cons, List.not_mem_nil, or_false]
    rintro p (rfl | rfl | rfl)
    · exact (label_fits v).1
    · exact (label_fits v).2.1
    · exact (label_fits v).2.2

/-- What `C09_any` is about: the calls, and the error that tells how the argument was typed. -/
example :
    parseArgs .default labelRoot [b "-avn", b "5", b "-v"] .fresh =
      (.ok (), ⟨[], [⟨45, [.one (.bool true), .one (.int 2), .one (.int 5), .one (.int 9)]⟩]⟩) ∧
    parseArgs .default labelRoot [b "-a", b "-v", b "-n", b "5", b "-v"] .fresh =
      (.ok (), ⟨[], [⟨45, [.one (.bool true), .one (.int 2), .one (.int 5), .one (.int 9)]⟩]⟩) ∧
    parseArgs .default labelRoot [b "-a", b "-va"] .fresh =
      (.throw ⟨.argument_has_already_been_set, [⟨.short, b "a"⟩]⟩, .fresh) ∧
    parseArgs .default labelRoot [b "-a", b "-v", b "-a"] .fresh =
      (.throw ⟨.argument_has_already_been_set, [⟨.none, b "-a"⟩]⟩, .fresh) := by
  decide +kernel

end ArgRouter.Props
