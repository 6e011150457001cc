import Verif.Spec.Final
import Verif.Props.Moved

/-!
# Errors that are final

C121: what is typed after an error does not change it.
-/

namespace ArgRouter.Props

open Spec

variable {cfg : Config} {depth : Nat} {root mode : Node} {names : List Bytes}

theorem labels_more {c : Node} {sh : Shape} {t : Token} {rest follows : List Token}
    (more : List Token) (h : Labels cfg c sh t rest follows) :
    Labels cfg c sh t (rest ++ more) (follows ++ more) := by
  cases h with
  | label hs hl => exact .label hs hl
  | collapsed he hx hg hn =>
    rw [List.append_assoc]
    exact .collapsed he hx hg hn
  | separated hs ht hc hv hl => exact .separated hs ht hc hv hl
  | positional hn => exact .positional hn

theorem labels_less {c : Node} {sh : Shape} {t : Token} {rest rest' follows : List Token}
    (h : Labels cfg c sh t rest follows) : ∃ follows', Labels cfg c sh t rest' follows' := by
  cases h with
  | label hs hl => exact ⟨_, .label hs hl⟩
  | collapsed he hx hg hn => exact ⟨_, .collapsed he hx hg hn⟩
  | separated hs ht hc hv hl => exact ⟨_, .separated hs ht hc hv hl⟩
  | positional hn => exact ⟨_, .positional hn⟩

/-- Whether an argument claims the command line depends on its first token only. -/
theorem claims_head {sofar : List Leaf} {c : Node} {t : Token} {rest rest' : List Token} {cl : Claim}
    (h : Claims cfg mode sofar c t rest cl) : ∃ cl', Claims cfg mode sofar c t rest' cl' := by
  obtain ⟨sh, hd, h⟩ := h
  cases h with
  | noSeparator h1 h2 h3 => exact ⟨_, sh, hd, .noSeparator h1 h2 h3⟩
  | count h1 _ | lacks h1 _ _ | takes h1 _ _ =>
    obtain ⟨f, hf⟩ := labels_less (rest' := rest') h1
    obtain ⟨cl, hcl⟩ := labels_claims (mode := mode) (sofar := sofar) hf
    exact ⟨cl, sh, hd, hcl⟩

theorem wants_head {sofar : List Leaf} {used : List Nat} {t : Token} {rest rest' : List Token}
    {a : Nat × Node} (h : Wants cfg mode sofar used t rest a) :
    Wants cfg mode sofar used t rest' a :=
  ⟨h.1.elim fun _ hc => claims_head hc, h.2⟩

theorem first_head {sofar : List Leaf} {used : List Nat} {t : Token} {rest rest' : List Token}
    {a : Nat × Node} (h : First cfg mode sofar used t rest a) :
    First cfg mode sofar used t rest' a := by
  obtain ⟨before, after, h1, h2, h3⟩ := h
  exact ⟨before, after, h1, fun x hx hw => h2 x hx (wants_head hw), wants_head h3⟩

theorem marker_more (m : Bytes) (l more : List Token) :
    (afterMarker m l ≠ [] → beforeMarker m (l ++ more) = beforeMarker m l ∧
      afterMarker m (l ++ more) = afterMarker m l ++ more) ∧
    (beforeMarker m l).length ≤ (beforeMarker m (l ++ more)).length := by
  induction l with
  | nil => exact ⟨fun h => absurd rfl h, Nat.zero_le _⟩
  | cons t l ih =>
    simp only [beforeMarker, afterMarker, List.cons_append, List.takeWhile_cons,
      List.dropWhile_cons] at ih ⊢
    cases hq : t.name != m with
    | true =>
      simp only [if_true, List.length_cons]
      exact ⟨fun h => ⟨by rw [(ih.1 h).1], (ih.1 h).2⟩, Nat.succ_le_succ ih.2⟩
    | false => simp

theorem values_more {sh : Shape} {c : Node} {follows vs left : List Token} (more : List Token)
    (h : sh.values c follows = .ok (vs, left)) (hl : left ≠ []) :
    sh.values c (follows ++ more) = .ok (vs, left ++ more) := by
  unfold Shape.values at h ⊢
  cases hm : sh.marker with
  | none =>
    simp only [hm] at h ⊢
    split at h
    · cases h
    · cases h
      rename_i hge
      have : sh.max < follows.length := by
        rcases Nat.lt_or_ge sh.max follows.length with h | h
        · exact h
        · exact absurd (List.drop_eq_nil_of_le h) hl
      rw [if_neg (by rw [List.length_append]; omega), List.take_append_of_le_length (by omega),
        List.drop_append_of_le_length (by omega)]
  | some m =>
    simp only [hm] at h ⊢
    split at h
    · cases h
    · split at h
      · cases h
      · cases h
        obtain ⟨h1, h2⟩ := (marker_more m follows more).1 hl
        rw [h1, h2, if_neg (by assumption), if_neg (by assumption)]

/-- Where something is left, it may be more. -/
theorem takes_more {sofar uses : List Leaf} {c : Node} {t : Token} {rest left : List Token}
    (more : List Token) (h : Claims cfg mode sofar c t rest (.takes uses left)) (hl : left ≠ []) :
    Claims cfg mode sofar c t (rest ++ more) (.takes uses (left ++ more)) := by
  obtain ⟨sh, hd, h⟩ := h
  refine ⟨sh, hd, ?_⟩
  cases h with
  | takes h1 h2 h3 => exact .takes (labels_more more h1) (values_more more h2 hl) h3

theorem refuses_more {sofar : List Leaf} {a : Nat × Node}
    (ha : a ∈ arguments mode) {t : Token} {rest : List Token} {e : Exc} (more : List Token)
    (hf : EndsThere mode (.fails e)) (h : Claims cfg mode sofar a.2 t rest (.refuses e)) :
    Claims cfg mode sofar a.2 t (rest ++ more) (.refuses e) := by
  obtain ⟨sh, hd, h⟩ := h
  refine ⟨sh, hd, ?_⟩
  cases hf with
  | fails hf hdep =>
    cases h with
    | noSeparator h1 h2 h3 => exact .noSeparator h1 h2 h3
    | @count follows _ h1 h2 =>
      refine .count (labels_more more h1) ?_
      unfold Shape.values at h2 ⊢
      cases hm : sh.marker with
      | none =>
        simp only [hm] at h2
        split at h2
        · cases h2; exact hf.elim
        · cases h2
      | some m =>
        simp only [hm] at h2 ⊢
        split at h2
        · cases h2
          rw [if_pos]
          have := (marker_more m follows more).2
          omega
        · split at h2
          · cases h2; exact hf.elim
          · cases h2
    | @lacks follows vs left d h1 h2 h3 =>
      have hnone : sh.marker = none := by
        cases hm : sh.marker with
        | none => rfl
        | some m =>
          obtain ⟨refs, _, _, hn, -⟩ := h3
          refine absurd ?_ (hdep rfl a ha m refs ?_)
          · exact (hd.policies.mem_iff.2 (by simp [Shape.policies, hn]) |> fun h => (List.mem_filter.1 h).1)
          · exact (hd.policies.mem_iff.2 (by simp [Shape.policies, hm]) |> fun h => (List.mem_filter.1 h).1)
      refine .lacks (vs := (follows ++ more).take sh.max) (left := (follows ++ more).drop sh.max)
        (labels_more more h1) ?_ h3
      unfold Shape.values at h2 ⊢
      simp only [hnone] at h2 ⊢
      split at h2
      · cases h2
      · rw [if_neg (by rw [List.length_append]; omega)]

theorem reading_more (more : List Token) {chosen ch : Choices}
    {sofar : List Leaf} {used : List Nat} {args : List Token} {r : Result} (hend : EndsThere mode r)
    (h : Reading cfg mode chosen sofar used args r ch) :
    Reading cfg mode chosen sofar used (args ++ more) r ch := by
  induction h with
  | done => cases hend
  | @take chosen chosen' sofar uses used t rest left a r hf hk ha hc hr ih =>
    have hl : left ≠ [] := by
      rintro rfl
      cases hr
      cases hend
    exact .take (first_head hf) hk ha (takes_more more hc hl) (ih hend)
  | clash hf hk => exact .clash (first_head hf) hk
  | again hf hk ha => exact .again (first_head hf) hk ha
  | refused hf hk ha hc =>
    exact .refused (first_head hf) hk ha (refuses_more (First.mem hf) more hend hc)
  | unhandled hn hu => cases hend with | fails hf _ => exact hf.elim
  | unknown hn hu => exact .unknown (fun a ha hw => hn a ha (wants_head hw)) hu

/-- The same for a command line that is too long. -/
theorem reading_longer (more : List Token) {chosen ch : Choices} {sofar : List Leaf}
    {used : List Nat} {args ts : List Token}
    (h : Reading cfg mode chosen sofar used args (.fails ⟨.unhandled_arguments, ts⟩) ch) :
    Reading cfg mode chosen sofar used (args ++ more) (.fails ⟨.unhandled_arguments, ts ++ more⟩) ch := by
  generalize hr : Result.fails ⟨.unhandled_arguments, ts⟩ = r at h
  induction h with
  | done => cases hr
  | @take chosen chosen' sofar uses used t rest left a r hf hk ha hc hrd ih =>
    have hl : left ≠ [] := by
      rintro rfl
      cases hrd
      cases hr
    exact .take (first_head hf) hk ha (takes_more more hc hl) (ih hr)
  | clash hf hk => cases hr
  | again hf hk ha => cases hr
  | refused hf hk ha hc =>
    cases hr
    obtain ⟨sh, hd, hc⟩ := hc
    cases hc with
    | count h1 h2 =>
      unfold Shape.values at h2
      split at h2
      · split at h2 <;> cases h2
      · split at h2
        · cases h2
        · split at h2 <;> cases h2
  | unhandled hn hu =>
    cases hr
    exact .unhandled (fun a ha hw => hn a ha (wants_head hw)) hu
  | unknown hn hu => cases hr

/-- C121: what is typed after an error does not change it. If the reading of a command line for a mode
(see C76) comes to a token that is unknown, an argument given a second time, or beside an alternative
of it, or without what it needs, or without its separator, or with too many values in a list, then
with anything after it the command line does exactly the same: the same error about the same tokens,
and the same is remembered. -/
theorem C121_final {rest : List Bytes} (more : List Bytes)
    (hc : compiles cfg depth defaultRules root = true) (hu : Conventional root)
    (hl : LedTo cfg root mode names rest) (s : St)
    (htext : ∀ x ∈ names ++ (rest ++ more), Readable cfg ⟨.none, x⟩)
    (hlen : ((names ++ (rest ++ more)).map List.length).sum + (names ++ (rest ++ more)).length < 2 ^ 63)
    {r : Result} {ch : Choices}
    (hr : Reading cfg mode s.sel [] [] (rest.map (Token.mk .none)) r ch) (hend : EndsThere mode r) :
    parseArgs cfg root (names ++ (rest ++ more)) s = parseArgs cfg root (names ++ rest) s ∧
    (parseArgs cfg root (names ++ rest) s).1 ≠ .ok () ∧
    (parseArgs cfg root (names ++ rest) s).2.calls = s.calls := by
  have hs : (names ++ rest).Sublist (names ++ (rest ++ more)) := by simp
  have hne : rest ≠ [] := by
    rintro rfl
    cases hr
    cases hend
  have hl' : LedTo cfg root mode names (rest ++ more) := by
    refine ledTo_head ?_ hl
    cases rest with
    | nil => exact absurd rfl hne
    | cons x xs => rfl
  have hr' := reading_more (more.map (Token.mk .none)) hend hr
  rw [← List.map_append] at hr'
  obtain ⟨o, h1, h2⟩ := outcome_failed cfg mode (r := r) (by rintro uses rfl; cases hend)
  rw [led_run hc hu hl s (fun x hx => htext x (hs.subset hx)) (fits_shorter hs hlen) hr,
    led_run hc hu hl' s htext hlen hr', h2]
  exact ⟨rfl, h1, rfl⟩

/-- C121: if a command line is too long, the error shows what is left, and so what is typed after it. -/
theorem C121_too_long {rest : List Bytes} (more : List Bytes)
    (hc : compiles cfg depth defaultRules root = true) (hu : Conventional root)
    (hl : LedTo cfg root mode names rest) (s : St)
    (htext : ∀ x ∈ names ++ (rest ++ more), Readable cfg ⟨.none, x⟩)
    (hlen : ((names ++ (rest ++ more)).map List.length).sum + (names ++ (rest ++ more)).length < 2 ^ 63)
    {ts : List Token} {ch : Choices}
    (hr : Reading cfg mode s.sel [] [] (rest.map (Token.mk .none))
      (.fails ⟨.unhandled_arguments, ts⟩) ch) :
    parseArgs cfg root (names ++ rest) s = (.throw ⟨.unhandled_arguments, ts⟩, { s with sel := ch }) ∧
    parseArgs cfg root (names ++ (rest ++ more)) s =
      (.throw ⟨.unhandled_arguments, ts ++ more.map (Token.mk .none)⟩, { s with sel := ch }) := by
  have hs : (names ++ rest).Sublist (names ++ (rest ++ more)) := by simp
  have hne : rest ≠ [] := by
    rintro rfl
    cases hr
  have hl' : LedTo cfg root mode names (rest ++ more) := by
    refine ledTo_head ?_ hl
    cases rest with
    | nil => exact absurd rfl hne
    | cons x xs => rfl
  have hr' := reading_longer (more.map (Token.mk .none)) hr
  rw [← List.map_append] at hr'
  rw [led_run hc hu hl s (fun x hx => htext x (hs.subset hx)) (fits_shorter hs hlen) hr,
    led_run hc hu hl' s htext hlen hr']
  exact ⟨rfl, rfl⟩

/-! ## Concrete cases -/

/-- The hypotheses of C121 are met: a number is given twice, the second time as something that is not
a number (which is not looked at any more). -/
theorem num_twice (v w : Bytes) (s : St) : Reading .default toolMode s.sel [] []
    ([b "--num", v, b "--num", w].map (Token.mk .none))
    (.fails ⟨.argument_has_already_been_set, [⟨.none, b "--num"⟩]⟩) s.sel := by
  have hno : ∀ chosen o, ¬ Clashes toolMode chosen (2, toolNum) o := by
    rintro chosen o ⟨h, -⟩
    have : (oneOfAt toolMode (2, toolNum)).isNone = true := by decide
    rw [h] at this
    cases this
  have hms : toolNum.isMultiStage = false := by decide
  have hsh : (shapeOf toolNum).needs = none := by decide
  have h2 := piece_stops (num_fits w) (chosen := s.sel) (sofar := (numTyped v).uses toolMode)
    (used := [2]) (.again (hno _) (by
      rintro (h | h)
      · exact nomatch hms.symm.trans h
      · exact h List.mem_cons_self)) []
  refine piece_goes (num_fits v) (chosen := s.sel) (sofar := []) (used := [])
    ⟨hno _, .inr (fun h => nomatch h), ?_⟩ h2
  rintro d ⟨refs, _, _, h, -⟩
  have hq : (numTyped v).shape.needs = none := hsh
  rw [hq] at h
  cases h

example (v w : Bytes) (s : St) : compiles .default 100 defaultRules toolRoot = true ∧
    Conventional toolRoot ∧ LedTo .default toolRoot toolMode [] [b "--num", v, b "--num", w] ∧
    Reading .default toolMode s.sel [] [] ([b "--num", v, b "--num", w].map (Token.mk .none))
      (.fails ⟨.argument_has_already_been_set, [⟨.none, b "--num"⟩]⟩) s.sel ∧
    EndsThere toolMode (.fails ⟨.argument_has_already_been_set, [⟨.none, b "--num"⟩]⟩) :=
  ⟨by decide +kernel, conventional_of_test (by decide +kernel), toolMode_led _, num_twice v w s,
    .fails trivial (fun h => nomatch h)⟩

example :
    parseArgs .default toolRoot [b "--num", b "5", b "--num", b "x"] .fresh =
      (.throw ⟨.argument_has_already_been_set, [⟨.none, b "--num"⟩]⟩, .fresh) ∧
    parseArgs .default toolRoot [b "--num", b "5", b "--num", b "x", b "--bad", b "-a"] .fresh =
      (.throw ⟨.argument_has_already_been_set, [⟨.none, b "--num"⟩]⟩, .fresh) ∧
    parseArgs .default toolRoot [b "--num"] .fresh =
      (.throw ⟨.minimum_count_not_reached, [⟨.long, b "num"⟩]⟩, .fresh) ∧
    (parseArgs .default toolRoot [b "--num", b "5"] .fresh).1 = .ok () := by
  decide +kernel

def listNeeds : Node := mkMultiArg 94 94 stringList
  [.longName (b "list"), .minMaxCount 1 2, .tokenEndMarker (b ";"), .dependent [.long (b "all")]]
def listNeedsRoot : Node := mkRoot 96 96 [mkMode 95 95 [.router] [toolFlag, listNeeds]]

/-- `ListsNeedNothing` is needed: there are programs in which the error is another one if the list
goes on. -/
example : compiles .default 100 defaultRules listNeedsRoot = true ∧
    parseArgs .default listNeedsRoot [b "--list", b "x", b "y"] .fresh =
      (.throw ⟨.dependent_argument_missing, [⟨.long, b "all"⟩]⟩, .fresh) ∧
    parseArgs .default listNeedsRoot [b "--list", b "x", b "y", b "z"] .fresh =
      (.throw ⟨.maximum_count_exceeded, [⟨.long, b "list"⟩]⟩, .fresh) := by
  decide +kernel

end ArgRouter.Props
