import Verif.Lemmas.Reading
import Verif.Props.Root

/-!
# C76: every command line is read the documented way

`Spec/Reading.lean` says how a command line is read, argument by argument. Here: the library reads
every command line like that.
-/

namespace ArgRouter

namespace Props

open Spec

theorem weight_raw (argv : List Bytes) :
    weight (argv.map (Token.mk .none)) ≤ (argv.map List.length).sum + argv.length := by
  induction argv with
  | nil => simp
  | cons x xs ih =>
    simp only [List.map_cons, weight_cons, List.sum_cons, List.length_cons]
    omega

theorem weight_le (args : List Token) :
    weight args ≤ (args.map fun t => t.name.length).sum + args.length := by
  induction args with
  | nil => simp
  | cons x xs ih =>
    simp only [List.map_cons, weight_cons, List.sum_cons, List.length_cons]
    omega

theorem mode_ends {cfg : Config} {mode : Node} {parents : List Node} (hrep : RepeatableNamed mode)
    (args : List Token) (s : St) :
    (modeLoop cfg mode parents (modeFuel mode args) ⟨mode, [], []⟩
      (List.replicate mode.children.length false) args s).1 ≠ .diverge :=
  modeLoop_ends cfg mode parents hrep _ _ _ _ _ (by simp) (modeFuel_enough mode args)

/-- C76: every command line has a reading. It is read from left to right. At each point the first
argument that wants what is left gets it. -/
theorem C76_total (cfg : Config) (mode : Node) (chosen : Choices) (args : List Token)
    (ho : Ordinary mode) (hrep : RepeatableNamed mode)
    (htext : Expanding mode → ∀ t ∈ args, Readable cfg t)
    (hlen : (args.map fun t => t.name.length).sum + args.length < 2 ^ 63) :
    ∃ r chosen', Reading cfg mode chosen [] [] args r chosen' := by
  refine reading_exists (parents := []) ho (modeFuel mode args) [] [] args _ ⟨chosen, []⟩
    (Tracks.start mode) ?_ htext (mode_ends hrep args _)
  exact Nat.lt_of_le_of_lt (weight_le args) hlen

/-- What the program does with the result of a reading. -/
def outcomeOf (cfg : Config) (mode : Node) : Result → M Unit
  | .accepts uses => parseMode mode uses
  | .fails e => M.throw e
  | .unknown t => M.lift (unknownArgument cfg mode t)

/-- C76 (whole programs): a program with one anonymous mode does with every command line what its
reading says. If the reading accepts, the values are handed to the parsing stage of the mode. If it
fails, exactly this error is thrown. If it does not know a token, this token is reported as unknown
(see C30 for the suggestion). In the last two cases nothing has been called. The choices start with
what the `one_of` objects remember from before (see C15) and are remembered. -/
theorem C76_program (cfg : Config) (root mode : Node) (argv : List Bytes) (r : Result)
    (chosen : Choices) (s : St)
    (hroot : root.children = [mode]) (hkind : mode.kind = .mode) (hanon : mode.isAnonymous = true)
    (ho : Ordinary mode) (hrep : RepeatableNamed mode)
    (htext : Expanding mode → ∀ x ∈ argv, Readable cfg ⟨.none, x⟩)
    (hlen : (argv.map List.length).sum + argv.length < 2 ^ 63)
    (hr : Reading cfg mode s.sel [] [] (argv.map (Token.mk .none)) r chosen) :
    parseArgs cfg root argv s = outcomeOf cfg mode r { s with sel := chosen } := by
  unfold parseArgs
  rw [rootParse_anonymous _ _ _ _ hroot hkind hanon, M.bind_apply]
  rw [modeLoop_reads ho hr _ _ s rfl (Tracks.start mode) (Nat.lt_of_le_of_lt (weight_raw argv) hlen)
    (by
      intro he t ht
      obtain ⟨x, hx, rfl⟩ := List.mem_map.1 ht
      exact htext he x hx)
    (mode_ends hrep _ _)]
  cases r with
  | accepts uses =>
    simp only [readOutcome, outcomeOf, M.pure_apply, List.isEmpty_nil, Bool.not_true, Bool.false_eq_true,
      if_false, runTarget, hkind]
    rfl
  | fails e => rfl
  | unknown t =>
    simp only [readOutcome, outcomeOf, unknownArgument, M.lift]
    cases closest cfg mode t with
    | ok found => cases found <;> rfl
    | _ => rfl

/-- C76 (named modes): the same, for the mode that the first arguments lead to: its name, or the
names of the modes around it and its own. -/
theorem C76_path (cfg : Config) (root m mode : Node) (before after : List Node)
    (names argv : List Bytes) (r : Result) (chosen : Choices) (s s1 : St)
    (hroot : root.children = before ++ m :: after)
    (hdec : Declined cfg root ((names ++ argv).map (Token.mk .none)) before s s1)
    (hpath : ModePath cfg m (names.map (Token.mk .none)) mode)
    (hsub : NoSubMode cfg mode (argv.map (Token.mk .none)))
    (ho : Ordinary mode) (hrep : RepeatableNamed mode)
    (htext : Expanding mode → ∀ x ∈ argv, Readable cfg ⟨.none, x⟩)
    (hlen : (argv.map List.length).sum + argv.length < 2 ^ 63)
    (hr : Reading cfg mode s1.sel [] [] (argv.map (Token.mk .none)) r chosen) :
    parseArgs cfg root (names ++ argv) s = outcomeOf cfg mode r { s1 with sel := chosen } := by
  have hmk : m.kind = .mode := by
    generalize names.map (Token.mk .none) = ns at hpath
    cases hpath with
    | here hm _ => exact hm.kind
    | down hm _ _ _ _ _ => exact hm.kind
  have hdk : mode.kind = .mode := by
    clear hr hdec hroot hmk hsub hlen htext hrep ho
    generalize names.map (Token.mk .none) = ns at hpath
    induction hpath with
    | here hm _ => exact hm.kind
    | down _ _ _ _ _ _ ih => exact ih
  obtain ⟨parents', hp⟩ := C32_path cfg m mode _ _ hpath hsub [root]
  have hloop := modeLoop_reads (parents := parents') ho hr
    (modeFuel mode (argv.map (Token.mk .none))) _ s1 rfl (Tracks.start mode)
    (Nat.lt_of_le_of_lt (weight_raw argv) hlen)
    (by
      intro he t ht
      obtain ⟨x, hx, rfl⟩ := List.mem_map.1 ht
      exact htext he x hx)
    (mode_ends hrep _ _)
  have hoffer : offerTo cfg root ((names ++ argv).map (Token.mk .none)) m s1 =
      (readOutcome cfg mode r >>= fun r => pure (some r)) { s1 with sel := chosen } := by
    rw [offerTo, if_pos (by simp [hmk]), List.map_append, hp]
    unfold modeBody
    simp only [alwaysTrue, M.pure_bind, Bool.not_true, Bool.false_eq_true, if_false]
    rw [M.bind_apply, hloop, M.bind_apply]
  unfold parseArgs rootParse
  rw [hroot, M.bind_apply, rootLoop_declined hdec, rootLoop, M.bind_apply, hoffer]
  cases r with
  | accepts uses =>
    simp only [readOutcome, outcomeOf, M.pure_apply, M.pure_bind, List.isEmpty_nil, Bool.not_true,
      Bool.false_eq_true, if_false, runTarget, hdk, beq_self_eq_true, if_true, M.bind_apply]
    match parseMode mode uses { s1 with sel := chosen } with
    | (.ok (), s2) => simp
    | (.throw e, s2) => rfl
    | (.foreign, s2) => rfl
    | (.ub, s2) => rfl
    | (.diverge, s2) => rfl
  | fails e => rfl
  | unknown t =>
    simp only [readOutcome, outcomeOf, unknownArgument, M.lift, M.bind_apply]
    cases closest cfg mode t with
    | ok found => cases found <;> rfl
    | _ => rfl

/-! ## An ordinary mode -/

/-- The value type of the sample arguments: any text. -/
def textType : ValueType := ⟨false, .one (.str []), fun s => .ok (.str s)⟩
/-- The same, many. -/
def textsType : ValueType := ⟨true, .many [], fun s => .ok (.str s)⟩

/-- A flag `--force`/`-f`. -/
def forceFlag : Node := .mk .flag 1 1 boolType
  [.defaultValue (.one (.bool false)), .shortFormExpander, .minMaxCount 0 0,
    .longName (b "force"), .shortName (b "f")] []
/-- An argument `--level=VALUE`. -/
def levelArg : Node := .mk .arg 2 2 textType
  [.valueSeparator (b "="), .minMaxCount 1 1, .longName (b "level"),
    .defaultValue (.one (.str []))] []
/-- An argument `--depth N` that needs `--level`. -/
def depthArg : Node := .mk .arg 3 3 textType
  [.minMaxCount 1 1, .dependent [.long (b "level")], .longName (b "depth"),
    .defaultValue (.one (.str []))] []
/-- A flag `-a` that stands for `--force`. -/
def everyFlag : Node := .mk .flag 4 4 boolType
  [.defaultValue (.one (.bool false)), .shortFormExpander, .minMaxCount 0 0,
    .alias [.long (b "force")], .shortName (b "a")] []
/-- A flag that is switched off. -/
def offFlag : Node := .mk .flag 5 5 boolType
  [.defaultValue (.one (.bool false)), .shortFormExpander, .minMaxCount 0 0,
    .longName (b "off"), .runtimeEnable false] []
/-- Any number of files, at least one, up to `;`. -/
def filesArg : Node := .mk .positional 6 6 textsType
  [.tokenEndMarker (b ";"), .minMaxCount 1 sizeMax, .required] []
/-- A group of two arguments for the same value. -/
def sameGroup : Node := .mk .aliasGroup 7 7 boolType [.defaultValue (.one (.bool false))]
  [.mk .arg 8 8 textType [.minMaxCount 1 1, .longName (b "name")] [],
   .mk .arg 9 9 textType [.minMaxCount 1 1, .longName (b "title")] []]
/-- Two alternatives. -/
def eitherOne : Node := .mk .oneOf 12 12 textType [.defaultValue (.one (.str []))]
  [.mk .arg 13 13 textType [.minMaxCount 1 1, .longName (b "this")] [],
   .mk .arg 14 14 textType [.minMaxCount 1 1, .longName (b "that")] []]
/-- A mode with all of them. -/
def ordinaryMode : Node := .mk .mode 10 10 boolType [.noResult, .router]
  [forceFlag, levelArg, depthArg, everyFlag, offFlag, sameGroup, eitherOne, filesArg]
def ordinaryRoot : Node := mkRoot 11 11 [ordinaryMode]

theorem ordinaryMode_ordinary : Ordinary ordinaryMode := by
  have h : arguments ordinaryMode = [(0, forceFlag), (1, levelArg), (2, depthArg), (3, everyFlag),
      (4, offFlag), (5, .mk .arg 8 8 textType [.minMaxCount 1 1, .longName (b "name")] []),
      (5, .mk .arg 9 9 textType [.minMaxCount 1 1, .longName (b "title")] []),
      (6, .mk .arg 13 13 textType [.minMaxCount 1 1, .longName (b "this")] []),
      (6, .mk .arg 14 14 textType [.minMaxCount 1 1, .longName (b "that")] []),
      (7, filesArg)] := by rfl
  refine ⟨fun _ => rfl, ?_, ?_⟩
  rotate_left
  · intro a ha o
    rw [h] at ha
    simp only [List.mem_cons, List.not_mem_nil, or_false] at ha
    rcases ha with rfl | rfl | rfl | rfl | rfl | rfl | rfl | rfl | rfl | rfl <;> intro hg <;>
      first
      | rfl
      | (cases hg)
  intro a ha
  rw [h] at ha
  simp only [List.mem_cons, List.not_mem_nil, or_false] at ha
  rcases ha with rfl | rfl | rfl | rfl | rfl | rfl | rfl | rfl | rfl | rfl
  · refine .inr ⟨⟨none, true, none, 0, 0, none, none⟩, ⟨.refl _, by decide, by decide, by simp,
      fun _ => rfl, by simp, fun h => absurd h (by decide), by simp⟩, by simp⟩
  · refine .inr ⟨⟨some 61, false, none, 1, 1, none, none⟩, ⟨.refl _, by decide, by decide,
      fun _ => ⟨rfl, rfl, rfl, rfl, rfl⟩, by simp, by simp, fun h => absurd h (by decide),
      by simp⟩, by simp⟩
  · refine .inr ⟨⟨none, false, none, 1, 1, none, some [.long (b "level")]⟩, ⟨.refl _, by decide,
      by decide, by simp, by simp, by simp, fun h => absurd h (by decide), by simp⟩, by simp⟩
  · refine .inr ⟨⟨none, true, none, 0, 0, some [.long (b "force")], none⟩, ⟨.refl _, by decide,
      by decide, by simp, fun _ => rfl, by simp, fun h => absurd h (by decide),
      fun _ => ⟨rfl, rfl, rfl, rfl, rfl, rfl⟩⟩, ?_⟩
    intro refs hr
    obtain rfl : [NameRef.long (b "force")] = refs := by simpa using hr
    intro h
    exact List.cons_ne_nil _ _ (show forceFlag :: [] = [] from h)
  · exact .inl ⟨⟨.runtimeEnable false, by simp [offFlag, Node.policies], rfl⟩, by decide,
      by simp [offFlag, Node.policies], by simp [offFlag, Node.policies]⟩
  · refine .inr ⟨⟨none, false, none, 1, 1, none, none⟩, ⟨.refl _, by decide, by decide, by simp,
      by simp, by simp, fun h => absurd h (by decide), by simp⟩, by simp⟩
  · refine .inr ⟨⟨none, false, none, 1, 1, none, none⟩, ⟨.refl _, by decide, by decide, by simp,
      by simp, by simp, fun h => absurd h (by decide), by simp⟩, by simp⟩
  · refine .inr ⟨⟨none, false, none, 1, 1, none, none⟩, ⟨.refl _, by decide, by decide, by simp,
      by simp, by simp, fun h => absurd h (by decide), by simp⟩, by simp⟩
  · refine .inr ⟨⟨none, false, none, 1, 1, none, none⟩, ⟨.refl _, by decide, by decide, by simp,
      by simp, by simp, fun h => absurd h (by decide), by simp⟩, by simp⟩
  · refine .inr ⟨⟨none, false, some (b ";"), 1, sizeMax, none, none⟩, ⟨.refl _, by decide,
      by decide, by simp, by simp, fun _ => ⟨rfl, rfl, fun _ => rfl⟩, fun _ => by decide,
      by simp⟩, by simp⟩

theorem ordinaryMode_repeatable : RepeatableNamed ordinaryMode := by
  intro m hm hms
  have h : ∀ m ∈ ordinaryMode.nodes, m.isMultiStage = false := by decide +kernel
  rw [h m hm] at hms; cases hms

theorem ordinary_text : ∀ x ∈ [b "-f", b "--level=3", b "--depth", b "2", b "x", b "y"],
    Readable .default ⟨.none, x⟩ := by
  intro x hx y hy
  rcases hy with ⟨h, -⟩ | ⟨-, h1, h2⟩
  · cases h
  · simp only [List.mem_cons, List.not_mem_nil, or_false] at hx
    rcases hx with rfl | rfl | rfl | rfl | rfl | rfl
    · obtain rfl : y = b "f" := by
        have h3 : b "f" = y := List.append_cancel_left (as := b "-") h1
        exact h3.symm
      exact ⟨by decide, ⟨['f'], by decide, by decide⟩⟩
    · exact absurd (by decide) h2
    · exact absurd (by decide) h2
    all_goals
      have h3 := congrArg (fun l : Bytes => l.head?) h1
      have h4 : (Config.default.shortPrefix ++ y).head? = some 45 := rfl
      simp only [h4] at h3
      exact absurd h3 (by decide)

/-- The hypotheses can be met: the theorems apply to `-f --level=3 --depth 2 x y`. -/
example : ∃ r chosen, Reading .default ordinaryMode [] [] []
    ([b "-f", b "--level=3", b "--depth", b "2", b "x", b "y"].map (Token.mk .none)) r chosen ∧
    parseArgs .default ordinaryRoot [b "-f", b "--level=3", b "--depth", b "2", b "x", b "y"]
      .fresh = outcomeOf .default ordinaryMode r ⟨chosen, []⟩ := by
  obtain ⟨r, chosen, hr⟩ := C76_total .default ordinaryMode [] _ ordinaryMode_ordinary ordinaryMode_repeatable
    (by
      intro _ t ht
      obtain ⟨x, hx, rfl⟩ := List.mem_map.1 ht
      exact ordinary_text x hx) (by decide)
  exact ⟨r, chosen, hr, C76_program _ _ _ _ _ _ .fresh rfl rfl rfl ordinaryMode_ordinary
    ordinaryMode_repeatable (fun _ => ordinary_text) (by decide) hr⟩

/-- What happens with some command lines. -/
example :
    parseArgs .default ordinaryRoot [b "-f", b "--level=3", b "--depth", b "2", b "x", b "y"]
      .fresh = (.ok (), ⟨[], [⟨10, [.one (.bool true), .one (.str (b "3")), .one (.str (b "2")),
        .one (.bool false), .one (.bool false), .one (.str []), .many [.str (b "x"), .str (b "y")]]⟩]⟩) ∧
    parseArgs .default ordinaryRoot [b "--depth", b "2", b "x"] .fresh =
      (.throw ⟨.dependent_argument_missing, [⟨.long, b "level"⟩]⟩, .fresh) ∧
    parseArgs .default ordinaryRoot [b "--title", b "a", b "--name", b "c", b "x"] .fresh =
      (.throw ⟨.argument_has_already_been_set, [⟨.none, b "--name"⟩]⟩, .fresh) ∧
    parseArgs .default ordinaryRoot [b "--this", b "1", b "--that", b "2", b "x"] .fresh =
      (.throw ⟨.one_of_selected_type_mismatch, [eitherOne.tokenType]⟩, ⟨[(12, 13)], []⟩) := by
  decide +kernel

end Props

end ArgRouter
