import Verif.Lemmas.OrdinaryTest
import Verif.Props.Examples
import Verif.Props.Unique
import Verif.Props.Accepted

/-!
# C88 for the example programs
-/

namespace ArgRouter

open Spec Utf8 Examples

namespace Props

set_option maxRecDepth 100000
set_option maxHeartbeats 2000000

/-- C88 applies to the example programs, whether or not the runtime switch is on. -/
theorem C88_examples (columns : Nat) (licensed : Bool) :
    OrdinaryProgram (exProgram justCatsFormat columns justCats) ∧
    OrdinaryProgram (exProgram simpleFormat columns simple) ∧
    OrdinaryProgram (exProgram launcherFormat columns launcher) ∧
    OrdinaryProgram (exProgram runtimeFormat columns (runtimeEnable licensed)) ∧
    OrdinaryProgram (exProgram basicCatFormat columns basicCat) := by
  refine ⟨program_of_test ?_, program_of_test ?_, program_of_test ?_, program_of_test ?_, program_of_test ?_⟩
  · with_unfolding_all rfl
  · with_unfolding_all rfl
  · with_unfolding_all rfl
  · cases licensed <;> with_unfolding_all rfl
  · with_unfolding_all rfl

/-- The example programs keep to the conventions of C92. -/
example (columns : Nat) (licensed : Bool) :
    Conventional (exProgram justCatsFormat columns justCats) ∧
    Conventional (exProgram simpleFormat columns simple) ∧
    Conventional (exProgram launcherFormat columns launcher) ∧
    Conventional (exProgram runtimeFormat columns (runtimeEnable licensed)) ∧
    Conventional (exProgram basicCatFormat columns basicCat) := by
  refine ⟨conventional_of_test ?_, conventional_of_test ?_, conventional_of_test ?_,
    conventional_of_test ?_, conventional_of_test ?_⟩
  · with_unfolding_all rfl
  · with_unfolding_all rfl
  · with_unfolding_all rfl
  · cases licensed <;> with_unfolding_all rfl
  · with_unfolding_all rfl

/-- C88 also applies to a program with nested modes. -/
example : OrdinaryProgram gitRoot := program_of_test (by with_unfolding_all rfl)

/-- The hypotheses of `C88_unique` can be met. -/
example (columns : Nat) (argv : List Bytes) (hplain : ∀ x ∈ argv, ¬ b "-" <+: x)
    (hlen : (argv.map List.length).sum + argv.length < 2 ^ 63) :
    ∃ v, ∀ v', ProgramReading .default (exProgram simpleFormat columns simple) []
      (argv.map (Token.mk .none)) v' ↔ v' = v := by
  have htext : ∀ x ∈ argv, Readable .default ⟨.none, x⟩ := by
    rintro x hx y (⟨h, -⟩ | ⟨-, h, -⟩)
    · cases h
    · exact absurd ⟨_, h.symm⟩ (hplain x hx)
  obtain ⟨v, h⟩ := C88_total .default (exProgram simpleFormat columns simple) []
    (argv.map (Token.mk .none))
  refine ⟨v, fun v' => ⟨fun h' => ?_, ?_⟩⟩
  · exact C88_unique _ _ _ _ _ _ (C88_examples columns true).2.1 (fun _ => htext) hlen h' h
  · rintro rfl
    exact h

/-! ## One command line of one program -/

/-- A token without a prefix is not for an argument that has only prefixed names. -/
theorem plain_no_claims {cfg : Config} {mode c : Node} {sofar : List Leaf} {x : Bytes}
    {rest : List Token} (hl : ¬ cfg.longPrefix <+: x) (hs : ¬ cfg.shortPrefix <+: x)
    (hn : c.isNamed = true) (hnn : c.noneName = none) :
    ∀ cl, ¬ Claims cfg mode sofar c ⟨.none, x⟩ rest cl := by
  have hlab : ∀ y : Bytes, y <+: x → ¬ IsLabel cfg c ⟨.none, y⟩ := by
    intro y hy h
    rcases h with ⟨l, -, h⟩ | ⟨l, -, h, -⟩ | ⟨h, -⟩
    · simp only at h
      exact hl (List.IsPrefix.trans ⟨l, h.symm⟩ hy)
    · simp only at h
      exact hs (List.IsPrefix.trans ⟨l, h.symm⟩ hy)
    · rw [hnn] at h; cases h
  have hno : ∀ sh follows, ¬ Labels cfg c sh ⟨.none, x⟩ rest follows := by
    intro sh follows h
    cases h with
    | label _ h => exact hlab x (List.prefix_refl x) h
    | collapsed _ hx _ _ =>
      rcases hx with ⟨h, -⟩ | ⟨-, h, -⟩
      · cases h
      · exact hs ⟨_, h.symm⟩
    | separated _ ht _ _ h => exact hlab _ ⟨_, ht.symm⟩ h
    | positional h => rw [hn] at h; cases h
  rintro cl ⟨sh, -, h⟩
  cases h with
  | noSeparator _ _ h => exact hlab x (List.prefix_refl x) h
  | count h _ => exact hno _ _ h
  | lacks h _ _ => exact hno _ _ h
  | takes h _ _ => exact hno _ _ h

theorem parse_paths (l : List Bytes) :
    parseTokens sources (l.map (Token.mk .none)) = .ok (l.map .str) := by
  induction l with
  | nil => rfl
  | cons x l ih =>
    rw [List.map_cons, parseTokens, ih]
    rfl

/-- What it means for an argument to respond. -/
theorem argument_responds {cfg : Config} {root c : Node} {chosen : Choices} {args : List Token}
    {a : Answer} (hk : c.kind ≠ .mode) (h : Responds cfg root chosen c args a) :
    ∃ t rest cl, args = t :: rest ∧ Claims cfg root [] c t rest cl := by
  cases h with
  | argument h => exact ⟨_, _, _, rfl, h⟩
  | leftover h _ => exact ⟨_, _, _, rfl, h⟩
  | refused h => exact ⟨_, _, _, rfl, h⟩
  | path h _ _ => exact absurd (path_mem h).2.2 hk
  | anonymous h _ _ => exact absurd h hk

/-- The reading of the arguments of `copy` after the flag. -/
theorem copy_reading (chosen : Choices) (flag : List Leaf) (used : List Nat) (hu : 1 ∉ used ∧ 2 ∉ used)
    (dst src : Bytes) (more : List Bytes) (hd : ¬ b "-" <+: dst) (hs : ¬ b "-" <+: src)
    (hlen : more.length + 1 ≤ sizeMax) :
    Reading .default copyMode chosen flag used ((dst :: src :: more).map (Token.mk .none))
      (.accepts (flag ++ [⟨destination 12, [⟨.none, dst⟩]⟩] ++
        [⟨sources, (src :: more).map (Token.mk .none)⟩])) chosen := by
  have hargs : arguments copyMode = [(0, force 11), (1, destination 12), (2, sources)] := by rfl
  have hlong : ∀ x : Bytes, ¬ b "-" <+: x → ¬ Config.default.longPrefix <+: x := fun x hx h =>
    hx (List.IsPrefix.trans (by decide) h)
  have hforce : ∀ (sofar : List Leaf) (used : List Nat) (x : Bytes) (rest : List Token),
      ¬ b "-" <+: x → ¬ Wants .default copyMode sofar used ⟨.none, x⟩ rest (0, force 11) := by
    rintro sofar used x rest hx ⟨⟨cl, hcl⟩, -⟩
    exact plain_no_claims (hlong x hx) hx rfl rfl cl hcl
  have hcl1 : Claims .default copyMode flag (destination 12) ⟨.none, dst⟩
      ((src :: more).map (Token.mk .none))
      (.takes [⟨destination 12, [⟨.none, dst⟩]⟩] ((src :: more).map (Token.mk .none))) :=
    ⟨shapeOf (destination 12), declared_of_test (by with_unfolding_all rfl),
      .takes (.positional rfl) (by with_unfolding_all rfl) (by
        rintro d ⟨refs, _, _, h, -⟩; cases h)⟩
  have hcl2 : ∀ sofar, Claims .default copyMode sofar sources ⟨.none, src⟩
      (more.map (Token.mk .none)) (.takes [⟨sources, (src :: more).map (Token.mk .none)⟩] []) := by
    intro sofar
    refine ⟨shapeOf sources, declared_of_test (by with_unfolding_all rfl),
      .takes (.positional rfl) ?_ (by rintro d ⟨refs, _, _, h, -⟩; cases h)⟩
    have h1 : (shapeOf sources).marker = none := rfl
    have h2 : (shapeOf sources).min = 1 := rfl
    have h3 : (shapeOf sources).max = sizeMax := rfl
    have hl : (more.map (Token.mk .none)).length = more.length := List.length_map _
    unfold Shape.values
    rw [h1, h2, h3]
    simp only
    rw [if_neg (by simp)]
    rw [List.take_of_length_le (by rw [List.length_cons]; omega),
      List.drop_of_length_le (by rw [List.length_cons]; omega)]
    rfl
  refine .take (a := (1, destination 12)) ⟨[(0, force 11)], [(2, sources)], hargs, ?_, ⟨_, hcl1⟩, ?_⟩
    (by rintro o ⟨h, -⟩; cases h) (.inr hu.1) hcl1 (.take (a := (2, sources)) ⟨[(0, force 11), (1, destination 12)], [], hargs, ?_,
      ⟨_, hcl2 _⟩, ?_⟩ (by rintro o ⟨h, -⟩; cases h) ?_ (hcl2 _) .done)
  · intro x hx
    rw [List.mem_singleton.1 hx]
    exact hforce _ _ _ _ hd
  · exact .inr (.inr hu.1)
  · intro x hx
    simp only [List.mem_cons, List.not_mem_nil, or_false] at hx
    rcases hx with rfl | rfl
    · exact hforce _ _ _ _ hs
    · rintro ⟨-, h | h | h⟩
      · cases h
      · cases h
      · simp at h
  · exact .inr (.inr (by simp [hu.2]))
  · exact .inr (by simp [hu.2])

/-- The same with the flag. -/
theorem copy_reading_forced (chosen : Choices) (f : Bytes) (hf : f = b "-f" ∨ f = b "--force")
    (dst src : Bytes) (more : List Bytes) (hd : ¬ b "-" <+: dst) (hs : ¬ b "-" <+: src)
    (hlen : more.length + 1 ≤ sizeMax) :
    Reading .default copyMode chosen [] [] ((f :: dst :: src :: more).map (Token.mk .none))
      (.accepts ([] ++ [⟨force 11, []⟩] ++ [⟨destination 12, [⟨.none, dst⟩]⟩] ++
        [⟨sources, (src :: more).map (Token.mk .none)⟩])) chosen := by
  have hl : IsLabel .default (force 11) ⟨.none, f⟩ := by
    rcases hf with rfl | rfl
    · exact (labelTest_iff _ _ _).1 (by decide +kernel)
    · exact (labelTest_iff _ _ _).1 (by decide +kernel)
  have hcl : Claims .default copyMode [] (force 11) ⟨.none, f⟩
      ((dst :: src :: more).map (Token.mk .none))
      (.takes [⟨force 11, []⟩] ((dst :: src :: more).map (Token.mk .none))) :=
    ⟨shapeOf (force 11), declared_of_test (by with_unfolding_all rfl),
      .takes (.label rfl hl) (by with_unfolding_all rfl) (by
        rintro d ⟨refs, _, _, h, -⟩; cases h)⟩
  refine .take (a := (0, force 11)) ⟨[], [(1, destination 12), (2, sources)], by rfl,
    (fun _ h => nomatch h), ⟨_, hcl⟩, .inl rfl⟩ (by rintro o ⟨h, -⟩; cases h) (.inr (by simp)) hcl
    (copy_reading chosen _ [0] (by simp) dst src more hd hs hlen)

/-- What `copy` does with its arguments. -/
theorem copy_outcome (dst : Bytes) (srcs : List Bytes) (forced : Bool) (s : St) :
    parseMode copyMode ((if forced then [⟨force 11, []⟩] else []) ++
      [⟨destination 12, [⟨.none, dst⟩]⟩] ++ [⟨sources, srcs.map (Token.mk .none)⟩]) s =
      (.ok (), { s with calls := s.calls ++
        [⟨copyMode.uid, [.one (.bool forced), .one (.str dst), .many (srcs.map .str)]⟩] }) := by
  have h1 : parseLeaf ⟨sources, srcs.map (Token.mk .none)⟩ =
      pure (some (.many (srcs.map .str))) := by
    have h2 : parseValue sources (srcs.map (Token.mk .none)) = .ok (.many (srcs.map .str)) := by
      unfold parseValue
      rw [if_pos (show sources.vt.isList = true from rfl), parse_paths]
      rfl
    show (M.lift (parseValue sources (srcs.map (Token.mk .none))) >>= _) = _
    rw [h2]
    rfl
  have h2 : parseLeaf ⟨destination 12, [⟨.none, dst⟩]⟩ = pure (some (.one (.str dst))) := by rfl
  have h3 : parseLeaf ⟨force 11, []⟩ = pure (some (.one (.bool true))) := by rfl
  unfold parseMode
  cases forced
  · simp only [Bool.false_eq_true, if_false, List.nil_append, List.singleton_append, processSubs, h1,
      h2, M.pure_bind]
    rfl
  · simp only [if_true, List.singleton_append, List.cons_append, List.nil_append, processSubs, h1, h2,
      h3, M.pure_bind]
    rfl

/-- C88, the program `simple`: `copy [-f|--force] DST SRC...` calls the router of `copy` once, with
whether the flag was given, the destination and the sources, and calls nothing else. This is so
whatever the files are called, if the destination and the first source do not begin with `-`: the
other sources may be called `-f` or like a mode. -/
theorem C88_copy (columns : Nat) (opts : List Bytes) (forced : Bool) (dst src : Bytes)
    (more : List Bytes) (s : St)
    (hopts : (opts = [] ∧ forced = false) ∨
      ((opts = [b "-f"] ∨ opts = [b "--force"]) ∧ forced = true))
    (hd : ¬ b "-" <+: dst) (hs : ¬ b "-" <+: src)
    (hmore : ∀ x ∈ more, Readable .default ⟨.none, x⟩)
    (hlen : dst.length + src.length + (more.map List.length).sum + more.length + 15 < 2 ^ 63) :
    parseArgs .default (exProgram simpleFormat columns simple)
        ([b "copy"] ++ opts ++ [dst] ++ src :: more) s =
      (.ok (), { s with calls := s.calls ++
        [⟨copyMode.uid, [.one (.bool forced), .one (.str dst),
          .many ((src :: more).map .str)]⟩] }) := by
  have hplain : ∀ x : Bytes, ¬ b "-" <+: x → Readable .default ⟨.none, x⟩ := by
    rintro x hx y (⟨h, -⟩ | ⟨-, h, -⟩)
    · cases h
    · exact absurd ⟨y, h.symm⟩ hx
  have hfr : Readable .default ⟨.none, b "-f"⟩ := by
    rintro y (⟨h, -⟩ | ⟨-, h, -⟩)
    · cases h
    · obtain rfl : b "f" = y := List.append_cancel_left (as := b "-") h
      exact ⟨by decide, ⟨['f'], by decide, by decide⟩⟩
  have hforcer : Readable .default ⟨.none, b "--force"⟩ := by
    rintro y (⟨h, -⟩ | ⟨-, -, h⟩)
    · cases h
    · exact absurd (by decide) h
  have hroot : (exProgram simpleFormat columns simple).children =
      [(exProgram simpleFormat columns simple).children.headD copyMode] ++ copyMode :: [moveMode] := by
    with_unfolding_all rfl
  have hread : Reading .default copyMode s.sel [] []
      ((opts ++ dst :: src :: more).map (Token.mk .none))
      (.accepts ((if forced then [⟨force 11, []⟩] else []) ++
        [⟨destination 12, [⟨.none, dst⟩]⟩] ++
        [⟨sources, (src :: more).map (Token.mk .none)⟩])) s.sel := by
    have hl : more.length + 1 ≤ sizeMax := by simp only [sizeMax]; omega
    rcases hopts with ⟨rfl, rfl⟩ | ⟨rfl | rfl, rfl⟩
    · exact copy_reading s.sel [] [] (by simp) dst src more hd hs hl
    · exact copy_reading_forced s.sel _ (.inl rfl) dst src more hd hs hl
    · exact copy_reading_forced s.sel _ (.inr rfl) dst src more hd hs hl
  have hnosub : NoSubMode .default copyMode ((opts ++ dst :: src :: more).map (Token.mk .none)) := by
    intro t _ d hd hk
    replace hd : d ∈ [force 11, destination 12, sources] := hd
    simp only [List.mem_cons, List.not_mem_nil, or_false] at hd
    rcases hd with rfl | rfl | rfl <;> cases hk
  have hargs : ([b "copy"] ++ opts ++ [dst] ++ src :: more).map (Token.mk .none) =
      [⟨.none, b "copy"⟩] ++ (opts ++ dst :: src :: more).map (Token.mk .none) := by simp
  have hv : ProgramReading .default (exProgram simpleFormat columns simple) s.sel
      (([b "copy"] ++ opts ++ [dst] ++ src :: more).map (Token.mk .none))
      (.answer (.reads copyMode (.accepts ((if forced then [⟨force 11, []⟩] else []) ++
        [⟨destination 12, [⟨.none, dst⟩]⟩] ++
        [⟨sources, (src :: more).map (Token.mk .none)⟩])) s.sel)) := by
    rw [hargs]
    refine .child hroot ?_ (.path (.here (namedMode_of_test (by with_unfolding_all rfl))
      ((labelTest_iff _ _ _).1 (by decide +kernel))) hnosub hread)
    intro d hd a ha
    rw [List.mem_singleton.1 hd] at ha
    obtain ⟨t, rest, cl, h1, h2⟩ := argument_responds (by
      have hk : ((exProgram simpleFormat columns simple).children.headD copyMode).kind = .help := by
        with_unfolding_all rfl
      rw [hk]; simp) ha
    cases h1
    exact plain_no_claims (by decide) (by decide) (by with_unfolding_all rfl)
      (by with_unfolding_all rfl) cl h2
  rw [C88_program .default _ _ _ s (C88_examples columns true).2.1 (fun _ => ?text) ?len hv]
  · exact copy_outcome dst (src :: more) forced s
  case text =>
    intro x hx
    simp only [List.append_assoc, List.singleton_append, List.mem_cons, List.mem_append] at hx
    rcases hx with (rfl | hx) | rfl | rfl | hx
    · exact hplain _ (by decide)
    · rcases hopts with ⟨rfl, -⟩ | ⟨rfl | rfl, -⟩
      · cases hx
      · rw [List.mem_singleton.1 hx]; exact hfr
      · rw [List.mem_singleton.1 hx]; exact hforcer
    · exact hplain _ hd
    · exact hplain _ hs
    · exact hmore x hx
  case len =>
    have h1 : (opts.map List.length).sum + opts.length ≤ 8 := by
      rcases hopts with ⟨rfl, -⟩ | ⟨rfl | rfl, -⟩ <;> decide
    have h2 : List.length (b "copy") = 4 := rfl
    simp only [List.map_append, List.map_cons, List.map_nil, List.sum_append, List.sum_cons,
      List.sum_nil, List.length_append, List.length_cons, List.length_nil, h2]
    omega

/-- The files may have confusing names. -/
example (columns : Nat) :
    parseArgs .default (exProgram simpleFormat columns simple)
      [b "copy", b "-f", b "move", b "copy", b "-f", b "--help", b "-猫"] .fresh =
    (.ok (), ⟨[], [⟨10, [.one (.bool true), .one (.str (b "move")),
      .many [.str (b "copy"), .str (b "-f"), .str (b "--help"), .str (b "-猫")]]⟩]⟩) := by
  have htext : ∀ s, Text s → s ≠ [] → Readable .default ⟨.none, b "-" ++ s⟩ := by
    rintro s hs hne y (⟨h, -⟩ | ⟨-, h, -⟩)
    · cases h
    · obtain rfl : s = y := List.append_cancel_left (as := b "-") h
      exact ⟨hne, hs⟩
  refine C88_copy columns [b "-f"] true (b "move") (b "copy") [b "-f", b "--help", b "-猫"] .fresh
    (.inr ⟨.inl rfl, rfl⟩) (by decide) (by decide) ?_ (by decide)
  intro x hx
  simp only [List.mem_cons, List.not_mem_nil, or_false] at hx
  rcases hx with rfl | rfl | rfl
  · exact htext (b "f") ⟨['f'], by decide, by decide⟩ (by decide)
  · rintro y (⟨h, -⟩ | ⟨-, -, h⟩)
    · cases h
    · exact absurd (by decide) h
  · exact htext (b "猫") ⟨['猫'], by decide, by decide⟩ (by decide)

end Props

end ArgRouter
