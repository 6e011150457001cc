import Verif.Props.WholeExamples
import Verif.Props.Number

/-!
# C88 for the example program `custom_policy_and_node`

The program has a policy and a node class of its own.
-/

namespace ArgRouter

open Spec Utf8 Examples

namespace Props

set_option maxRecDepth 100000
set_option maxHeartbeats 2000000

/-- The program compiles. -/
theorem even_compiles (columns : Nat) :
    compiles .default 100 defaultRules (exProgram evenFormat columns even) = true := by
  with_unfolding_all rfl

/-- C88 applies to it. -/
theorem even_ordinary (columns : Nat) : OrdinaryProgram (exProgram evenFormat columns even) :=
  program_of_test (by with_unfolding_all rfl)

/-- A token that is not a name of the argument is not for it, if it has names and no value separator
and does not expand. -/
theorem unnamed_no_claims {cfg : Config} {mode c : Node} {sofar : List Leaf} {t : Token}
    {rest : List Token} (hlab : ¬ IsLabel cfg c t) (hn : c.isNamed = true)
    (hp : (c.policies.any fun | .valueSeparator _ | .shortFormExpander => true | _ => false) = false) :
    ∀ cl, ¬ Claims cfg mode sofar c t rest cl := by
  rintro cl ⟨sh, hd, h⟩
  have hpol : ∀ p ∈ sh.policies, p ∈ c.policies := fun p hp =>
    (List.mem_filter.1 (hd.policies.mem_iff.2 hp)).1
  rw [List.any_eq_false] at hp
  have he : ¬ sh.expands = true := by
    intro h
    exact hp _ (hpol .shortFormExpander (by simp [Shape.policies, h])) rfl
  have hs : ∀ ch, sh.separator ≠ some ch := by
    intro ch h
    exact hp _ (hpol (.valueSeparator [ch]) (by simp [Shape.policies, h])) rfl
  have hno : ∀ follows, ¬ Labels cfg c sh t rest follows := by
    intro follows h
    cases h with
    | label _ h => exact hlab h
    | collapsed h => exact he h
    | separated h => exact hs _ h
    | positional h => rw [hn] at h; cases h
  cases h with
  | noSeparator _ _ h => exact hlab h
  | count h _ => exact hno _ h
  | lacks h _ _ => exact hno _ h
  | takes h _ _ => exact hno _ h

/-- The program reads every argument but its flags as the value. -/
theorem even_reading (columns : Nat) (x : Bytes) (chosen : Choices)
    (hx : x ∉ [b "-h", b "--help", b "--version"]) :
    ProgramReading .default (exProgram evenFormat columns even) chosen [⟨.none, x⟩]
      (.answer (.reads evenMode (.accepts [⟨evenValue, [⟨.none, x⟩]⟩]) chosen)) := by
  simp only [List.mem_cons, List.not_mem_nil, or_false, not_or] at hx
  obtain ⟨h1, h2, h3⟩ := hx
  have hroot : (exProgram evenFormat columns even).children =
      [(exProgram evenFormat columns even).children.headD evenMode, evenVersion] ++ evenMode :: [] := by
    with_unfolding_all rfl
  have hcl : Claims .default evenMode [] evenValue ⟨.none, x⟩ [] (.takes [⟨evenValue, [⟨.none, x⟩]⟩] []) :=
    ⟨shapeOf evenValue, declared_of_test (by with_unfolding_all rfl),
      .takes (.positional rfl) (by with_unfolding_all rfl) (by
        rintro d ⟨refs, _, _, h, -⟩; cases h)⟩
  refine .child hroot ?_ (.anonymous rfl rfl (.take (a := (0, evenValue)) ⟨[], [], by rfl,
    (fun _ h => nomatch h), ⟨_, hcl⟩, .inr (.inr (by simp))⟩ (by rintro o ⟨h, -⟩; cases h)
    (.inr (by simp)) hcl .done))
  intro d hd a ha
  simp only [List.mem_cons, List.not_mem_nil, or_false] at hd
  rcases hd with rfl | rfl
  · obtain ⟨t, rest, cl, h, hc⟩ := argument_responds (by
      have hk : ((exProgram evenFormat columns even).children.headD evenMode).kind = .help := by
        with_unfolding_all rfl
      rw [hk]; simp) ha
    cases h
    refine unnamed_no_claims ?_ (by with_unfolding_all rfl) (by with_unfolding_all rfl) cl hc
    rintro (⟨l, hl, h⟩ | ⟨l, hl, h, -⟩ | ⟨h, -⟩)
    · cases (show some (b "help") = some l from hl)
      exact h2 h
    · cases (show some (b "h") = some l from hl)
      exact h1 h
    · cases (show (none : Option Bytes) = some x from h)
  · obtain ⟨t, rest, cl, h, hc⟩ := argument_responds (by decide) ha
    cases h
    refine unnamed_no_claims ?_ (by with_unfolding_all rfl) (by with_unfolding_all rfl) cl hc
    rintro (⟨l, hl, h⟩ | ⟨l, hl, h, -⟩ | ⟨h, -⟩)
    · cases (show some (b "version") = some l from hl)
      exact h3 h
    · cases (show (none : Option Bytes) = some l from hl)
    · cases (show (none : Option Bytes) = some x from h)

/-- C88, the program `custom_policy_and_node`: with one argument that is not one of its flags it calls
its router once, with that number, if it is an even number that an `int` can hold; its own validation
policy stops it if the number is odd; and any other text is reported as one that cannot be parsed. In
the last two cases nothing is called. -/
theorem C88_even (columns : Nat) (x : Bytes) (s : St)
    (hx : x ∉ [b "-h", b "--help", b "--version"]) (hlen : x.length + 1 < 2 ^ 63) :
    (∀ v, Number x v → IntType.Holds ⟨32, true⟩ v → 2 ∣ v →
      parseArgs .default (exProgram evenFormat columns even) [x] s =
        (.ok (), { s with calls := s.calls ++ [⟨evenMode.uid, [.one (.int v)]⟩] })) ∧
    (∀ v, Number x v → IntType.Holds ⟨32, true⟩ v → ¬ 2 ∣ v →
      parseArgs .default (exProgram evenFormat columns even) [x] s = (.foreign, s)) ∧
    ((∀ v, ¬ (Number x v ∧ IntType.Holds ⟨32, true⟩ v)) →
      parseArgs .default (exProgram evenFormat columns even) [x] s =
        (.throw ⟨.failed_to_parse, [⟨.none, x⟩]⟩, s)) := by
  have hnoexp : ¬ ∃ n ∈ (exProgram evenFormat columns even).nodes,
      Policy.shortFormExpander ∈ n.policies := by
    have h : ((exProgram evenFormat columns even).nodes.any fun n => n.policies.any
        fun | .shortFormExpander => true | _ => false) = false := by with_unfolding_all rfl
    rintro ⟨n, hn, hp⟩
    rw [List.any_eq_false] at h
    exact h n hn (List.any_eq_true.2 ⟨_, hp, rfl⟩)
  have hrun : parseArgs .default (exProgram evenFormat columns even) [x] s =
      parseMode evenMode [⟨evenValue, [⟨.none, x⟩]⟩] s :=
    C88_program .default _ [x] _ s (even_ordinary columns) (fun h => absurd h hnoexp)
      (by simpa using hlen) (even_reading columns x s.sel hx)
  obtain ⟨hok, hbad⟩ := C85_signed_partial 32 (by decide) x
  have htmod : ∀ v : Int, v.tmod 2 = 0 ↔ 2 ∣ v := fun v => (Int.dvd_iff_tmod_eq_zero).symm
  have hval : parseValue evenValue [⟨.none, x⟩] =
      (parseInt ⟨32, true⟩ x >>= fun v => pure (.one (.int v))) := by
    show ((parseInt ⟨32, true⟩ x >>= fun v => pure (Scalar.int v)) >>= fun v => pure (Value.one v)) = _
    cases parseInt ⟨32, true⟩ x <;> rfl
  have hmode : parseMode evenMode [⟨evenValue, [⟨.none, x⟩]⟩] s =
      match parseInt ⟨32, true⟩ x with
      | .ok v => if v.tmod 2 ≠ 0 then (.foreign, s) else
          (.ok (), { s with calls := s.calls ++ [⟨evenMode.uid, [.one (.int v)]⟩] })
      | .throw e => (.throw e, s)
      | .foreign => (.foreign, s)
      | .ub => (.ub, s)
      | .diverge => (.diverge, s) := by
    have hl : parseLeaf ⟨evenValue, [⟨.none, x⟩]⟩ = (do
        let v ← M.lift (parseInt ⟨32, true⟩ x >>= fun v => pure (.one (.int v)))
        runValidation evenValue v evenValue.policies
        callIfRouter evenValue [v]
        pure (some v)) := by
      rw [← hval]
      rfl
    unfold parseMode
    cases hp : parseInt ⟨32, true⟩ x with
    | ok v =>
      rw [hp] at hl
      by_cases h : v.tmod 2 ≠ 0
      · have h2 : runValidation evenValue (.one (.int v)) evenValue.policies = M.lift .foreign := by
          show (M.lift (isEven (.one (.int v))) >>= fun _ => _) = _
          rw [show isEven (.one (.int v)) = .foreign from if_pos h]
          rfl
        have h3 : parseLeaf ⟨evenValue, [⟨.none, x⟩]⟩ = M.lift .foreign := by
          rw [hl]
          show (runValidation evenValue (.one (.int v)) evenValue.policies >>= fun _ => _) = _
          rw [h2]
          rfl
        rw [processSubs, h3]
        simp only [if_pos h]
        rfl
      · have h2 : runValidation evenValue (.one (.int v)) evenValue.policies = pure () := by
          show (M.lift (isEven (.one (.int v))) >>= fun _ => _) = _
          rw [show isEven (.one (.int v)) = .ok () from if_neg h]
          rfl
        have h3 : parseLeaf ⟨evenValue, [⟨.none, x⟩]⟩ = pure (some (.one (.int v))) := by
          rw [hl]
          show (runValidation evenValue (.one (.int v)) evenValue.policies >>= fun _ => _) = _
          rw [h2]
          rfl
        rw [processSubs, h3]
        simp only [if_neg h]
        rfl
    | throw e => rw [processSubs, hl, hp]; rfl
    | foreign => rw [processSubs, hl, hp]; rfl
    | ub => rw [processSubs, hl, hp]; rfl
    | diverge => rw [processSubs, hl, hp]; rfl
  rw [hrun, hmode]
  refine ⟨fun v hn hh h2 => ?_, fun v hn hh h2 => ?_, fun h => ?_⟩
  · rw [(hok v).2 ⟨hn, hh⟩]
    simp only [(htmod v).2 h2, ne_eq, not_true_eq_false, if_false]
  · rw [(hok v).2 ⟨hn, hh⟩]
    simp only [ne_eq, htmod, h2, not_false_eq_true, if_true]
  · rw [hbad h]

/-- Two numbers and a text. -/
example (columns : Nat) :
    parseArgs .default (exProgram evenFormat columns even) [b "-42"] .fresh =
      (.ok (), ⟨[], [⟨4, [.one (.int (-42))]⟩]⟩) ∧
    parseArgs .default (exProgram evenFormat columns even) [b "007"] .fresh = (.foreign, .fresh) ∧
    parseArgs .default (exProgram evenFormat columns even) [b "-"] .fresh =
      (.throw ⟨.failed_to_parse, [⟨.none, b "-"⟩]⟩, .fresh) := by
  have h42 := (lexSigned_iff 32 (by decide) (b "-42") (-42)).1 (by decide +kernel)
  have h7 := (lexSigned_iff 32 (by decide) (b "007") 7).1 (by decide +kernel)
  refine ⟨(C88_even columns (b "-42") .fresh (by decide) (by decide)).1 _ h42.1 h42.2 (by decide),
    (C88_even columns (b "007") .fresh (by decide) (by decide)).2.1 _ h7.1 h7.2 (by decide),
    (C88_even columns (b "-") .fresh (by decide) (by decide)).2.2 ?_⟩
  intro v h
  rw [← lexSigned_iff 32 (by decide)] at h
  exact absurd h (by rw [show lexSigned 32 (b "-") = none by decide +kernel]; simp)

end Props

end ArgRouter
