import Verif.Lemmas.Blame
import Verif.Props.Safe
import Verif.Props.Examples

/-!
# C93: errors are about what was typed, or about an argument of the program
-/

namespace ArgRouter

open Spec Utf8

namespace Props

/-- C93: whatever the tree and the command line, an error reports parts of the command line, or names
an argument of the program that the error can be about: one with a least count for too few values, one
with a separator for a missing separator, and so on. The parsers and help formatters in the tree are
assumed to report nothing but what they are given. -/
theorem C93_reports (cfg : Config) (root : Node) (hr : Reports root) (argv : List Bytes) (s s' : St)
    (e : Exc) (h : parseArgs cfg root argv s = (.throw e, s')) : Blames root argv e :=
  (parseArgs_faults (argv := argv) (cfg := cfg) hr s).1 e (by rw [h])

/-- C93, the text of the error: with the translations a root has by default, the message of the
exception the caller sees is the documented message of such an error with its tokens filled in. -/
theorem C93_message (cfg : Config) (root : Node) (hr : Reports root) (argv : List Bytes) (s s' : St)
    (msg : Bytes)
    (h : rootSeen cfg defaultTranslations [] root argv s = (.parseException msg, s')) :
    ∃ e, Blames root argv e ∧ msg = errorText cfg (english e.ec) e.tokens := by
  obtain ⟨e, h1, h2⟩ := (C57_default cfg root argv s s' msg).1 h
  exact ⟨e, C93_reports cfg root hr argv s s' e h1, h2⟩

/-! ## The functions of the library -/

/-- C93: the parsers of the library report nothing but the value they are given: those of the
integral types, of `bool`, of text, and of containers of them. -/
theorem C93_parsers (t : IntType) : OwnValue (intType t).parse ∧ OwnValue boolValue.parse ∧
    OwnValue textType.parse ∧ ∀ v : ValueType, OwnValue v.parse → OwnValue (listOf v).parse := by
  refine ⟨fun s e h => ?_, fun s e h => ?_, fun s e h => ?_, fun v hv => hv⟩
  · change (parseInt t s >>= _) = _ at h
    unfold parseInt at h
    split at h <;> cases h
    rfl
  · change (parseBool s >>= _) = _ at h
    unfold parseBool at h
    split at h
    · cases h
    · split at h <;> cases h
      rfl
  · cases h

theorem cpNext_ne_throw (s : Bytes) (e : Exc) : cpNext s ≠ .throw e := by
  unfold cpNext
  split <;> simp

theorem width_ne_throw (s : Bytes) : ∀ e, terminalWidth s ≠ .throw e := by
  unfold terminalWidth
  generalize s.length = fuel
  generalize 0 = w
  induction fuel generalizing s w with
  | zero => intro e; cases s <;> simp [terminalWidthAux]
  | succ n ih =>
    cases s with
    | nil => intro e; simp [terminalWidthAux]
    | cons x s =>
      rw [terminalWidthAux]
      exact bind_ne_throw (cpNext_ne_throw _) fun _ => ih _ _

theorem skipWs_ne_throw (fuel : Nat) : ∀ (s : Bytes) (k : Nat) (e : Exc), skipWs fuel s k ≠ .throw e := by
  induction fuel with
  | zero => intro s k e; cases s <;> simp [skipWs]
  | succ n ih =>
    intro s k
    cases s with
    | nil => intro e; simp [skipWs]
    | cons x s =>
      rw [skipWs]
      split
      · exact bind_ne_throw (cpNext_ne_throw _) fun _ => ih _ _
      · simp

theorem lLoop_ne_throw (cols total fuel : Nat) : ∀ (s : Bytes) (c k l m : Nat) (w : LWindow) (e : Exc),
    lLoop cols total fuel s c k l m w ≠ .throw e := by
  induction fuel with
  | zero => intro s c k l m w e; cases s <;> simp [lLoop]
  | succ n ih =>
    intro s c k l m w
    cases s with
    | nil => intro e; simp [lLoop]
    | cons x s =>
      rw [lLoop]
      refine bind_ne_throw (width_ne_throw _) fun width => ?_
      dsimp only
      split
      · split <;> simp
      · cases decode (cpDeref (x :: s)) with
        | none => exact bind_ne_throw (cpNext_ne_throw _) fun _ => ih _ _ _ _ _ _
        | some cp =>
          refine bind_ne_throw (cpNext_ne_throw _) fun _ => ?_
          split
          · exact ih _ _ _ _ _ _
          · exact ih _ _ _ _ _ _

theorem lScan_ne_throw (s : Bytes) (cols : Nat) (w : LWindow) : ∀ e, lScan s cols w ≠ .throw e := by
  unfold lScan
  exact bind_ne_throw (lLoop_ne_throw _ _ _ _ _ _ _ _ _) fun _ e => by simp

theorem consume_ne_throw (it : LIter) : ∀ e, it.consume ≠ .throw e := by
  unfold LIter.consume
  split
  · simp
  · split
    · split
      · refine bind_ne_throw (skipWs_ne_throw _ _ _) fun k => ?_
        split
        · dsimp only
          split
          · simp
          · exact lScan_ne_throw _ _ _
        · simp
      · simp
    · exact lScan_ne_throw _ _ _

theorem lines_ne_throw (s : Bytes) (cols : Nat) : ∀ e, lines s cols ≠ .throw e := by
  unfold lines linesFuel
  refine bind_ne_throw (consume_ne_throw _) fun it => ?_
  generalize s.length = fuel
  induction fuel generalizing it with
  | zero => intro e; rw [LIter.toList]; split <;> simp
  | succ n ih =>
    rw [LIter.toList]
    split
    · simp
    · exact bind_ne_throw (consume_ne_throw _) fun it' => bind_ne_throw (ih it') fun _ e => by simp

theorem row_ne_throw {f : Formatter} (hf : LibraryLines f) (i d c : Nat) (r : Nat × Bytes × Bytes) :
    ∀ e, f.line i d c r ≠ .throw e := by
  obtain ⟨depth, label, description⟩ := r
  rcases hf with h | h <;> rw [h]
  · unfold formatRow
    dsimp only
    split
    · simp
    · split
      · simp
      · exact bind_ne_throw (width_ne_throw _) fun _ => bind_ne_throw (lines_ne_throw _ _)
          fun _ e => by simp
  · unfold formatRowColour
    dsimp only
    split
    · simp
    · split
      · simp
      · exact bind_ne_throw (width_ne_throw _) fun _ => bind_ne_throw (lines_ne_throw _ _)
          fun _ e => by simp

mutual
theorem column_ne_throw (i : Nat) : ∀ (r : HelpRow) (d m : Nat) (e : Exc),
    descColumn i d r m ≠ .throw e
  | .mk label desc cs, d, m => by
    rw [descColumn]
    exact bind_ne_throw (width_ne_throw _) fun _ => columns_ne_throw i cs _ _
theorem columns_ne_throw (i : Nat) : ∀ (rs : List HelpRow) (d m : Nat) (e : Exc),
    descColumns i d rs m ≠ .throw e
  | [], d, m => by simp [descColumns]
  | r :: rs, d, m => by
    rw [descColumns]
    exact bind_ne_throw (column_ne_throw i r _ _) fun _ => columns_ne_throw i rs _ _
end

theorem rows_ne_throw {f : Nat × Bytes × Bytes → Out Bytes} (hf : ∀ r e, f r ≠ .throw e) :
    ∀ (rs : List (Nat × Bytes × Bytes)) (e : Exc), formatRows f rs ≠ .throw e := by
  intro rs
  induction rs with
  | nil => simp [formatRows]
  | cons r rs ih =>
    rw [formatRows]
    exact bind_ne_throw (hf r) fun _ => bind_ne_throw ih fun _ e => by simp

/-- C93: the help formatters of the library report nothing but that a name they are given is
unknown. -/
theorem C93_formatters (f : Formatter) (hf : LibraryLines f) (info : HelpInfo) (columns : Nat)
    (tree : Node) :
    OwnNames fun ts => helpParse f.line f.format info columns ts tree := by
  intro ts e h
  dsimp only at h
  unfold helpParse at h
  have hgen : ∀ target e, generateHelp f.line f.format info columns
      (f.format.flattenHelp || target.kind != .root) target ≠ .throw e := by
    intro target
    unfold generateHelp
    exact bind_ne_throw (column_ne_throw _ _ _ _) fun _ =>
      bind_ne_throw (rows_ne_throw (row_ne_throw hf _ _ _) _) fun _ e => by simp
  have hfind : ∀ (ts : List Token) (node : Node) (e : Exc),
      findHelpTarget info.cfg ts node = .throw e → ∃ t ∈ ts, e = ⟨.unknown_argument, [t]⟩ := by
    intro ts
    induction ts with
    | nil => intro node e h; rw [findHelpTarget] at h; split at h <;> cases h
    | cons t ts ih =>
      intro node e h
      rw [findHelpTarget] at h
      split at h
      · cases h; exact ⟨t, List.mem_cons_self, rfl⟩
      · split at h
        · obtain ⟨t', h1, h2⟩ := ih _ _ h
          exact ⟨t', List.mem_cons_of_mem _ h1, h2⟩
        · cases h; exact ⟨t, List.mem_cons_self, rfl⟩
  cases ht : findHelpTarget info.cfg ts tree with
  | ok target => rw [ht] at h; exact absurd h (hgen _ _)
  | throw e' =>
    rw [ht] at h
    cases h
    exact hfind _ _ _ ht
  | _ => rw [ht] at h; cases h

/-- A tree without formatters whose help nodes get those of the library is a program to which C93
applies, if its parsers are. -/
theorem reports_program {fmt : Node → Formatter} {info : HelpInfo} {columns : Nat} {tree : Node}
    (hp : ∀ n ∈ tree.nodes, OwnValue n.vt.parse)
    (hc : ∀ n ∈ tree.nodes, ∀ f, .customParser f ∈ n.policies → OwnValue f)
    (hh : ∀ n ∈ tree.nodes, ∀ f, .helpText f ∉ n.policies)
    (hf : ∀ n ∈ tree.nodes, n.kind = .help → LibraryLines (fmt n)) :
    Reports (program fmt info columns tree) := by
  refine ⟨fun n hn => ?_, fun n hn f hm => ?_, fun n hn f hm => ?_⟩
  · obtain ⟨m, hm, rfl⟩ := mem_install.1 hn
    have := hp m hm
    cases m
    exact this
  · obtain ⟨m, hm', rfl⟩ := mem_install.1 hn
    rcases mem_install_policies hm with h | ⟨-, h⟩
    · exact hc m hm' f h
    · cases h
  · obtain ⟨m, hm', rfl⟩ := mem_install.1 hn
    rcases mem_install_policies hm with h | ⟨hk, h⟩
    · exact absurd h (hh m hm' f)
    · cases h
      exact C93_formatters _ (hf m hm' hk) _ _ _

/-- C93 for programs with help: a tree whose help nodes use the formatters of the library. -/
theorem C93_program (fmt : Node → Formatter) (info : HelpInfo) (columns : Nat) (tree : Node)
    (hp : ∀ n ∈ tree.nodes, OwnValue n.vt.parse)
    (hc : ∀ n ∈ tree.nodes, ∀ f, .customParser f ∈ n.policies → OwnValue f)
    (hh : ∀ n ∈ tree.nodes, ∀ f, .helpText f ∉ n.policies)
    (hf : ∀ n ∈ tree.nodes, n.kind = .help → LibraryLines (fmt n)) (argv : List Bytes) (s s' : St)
    (e : Exc) (h : parseArgs info.cfg (program fmt info columns tree) argv s = (.throw e, s')) :
    Blames (program fmt info columns tree) argv e :=
  C93_reports _ _ (reports_program hp hc hh hf) argv s s' e h

namespace BlameEx

open Examples

theorem own_ub : OwnValue boolType.parse := fun _ _ h => by cases h

theorem own_word (words : List Bytes) : OwnValue (wordType words).parse := fun s e h => by
  unfold wordType at h
  dsimp only at h
  split at h <;> cases h
  rfl

set_option maxRecDepth 100000

/-- The program `basic_cat` is one to which C93 applies. -/
theorem cat_reports (columns : Nat) : Reports (exProgram basicCatFormat columns basicCat) := by
  have hnodes : basicCat.nodes = [basicCat, catsHelp, versionFlag, catMode, showAll, showEnds,
      showNonPrinting, maxLines, maxLineLength, lineHandling, skipLine, lineSuffix] ++ themeArg ::
      [verbosityGroup, verbosityFlag, verboseArg, files] := rfl
  refine reports_program ?_ ?_ ?_ ?_
  · rw [hnodes]
    simp only [List.cons_append, List.nil_append, List.forall_mem_cons]
    repeat' first
      | exact fun _ h => absurd h List.not_mem_nil
      | exact own_ub
      | exact own_word _
      | exact (C93_parsers _).1
      | exact (C93_parsers ⟨32, true⟩).2.2.1
      | apply And.intro
  · rw [hnodes]
    intro n hn f hf
    rcases List.mem_append.1 hn with h | h
    · have := List.all_eq_true.1 (by decide +kernel : [basicCat, catsHelp, versionFlag, catMode, showAll,
        showEnds, showNonPrinting, maxLines, maxLineLength, lineHandling, skipLine, lineSuffix].all
        (fun n => n.policies.all fun | .customParser _ => false | _ => true) = true) n h
      simpa using List.all_eq_true.1 this _ hf
    · rcases List.mem_cons.1 h with rfl | h
      · simp only [themeArg, mkArg, Node.policies, List.mem_cons, List.not_mem_nil, or_false,
          reduceCtorEq, false_or, Policy.customParser.injEq] at hf
        exact hf ▸ own_word _
      · have := List.all_eq_true.1 (by decide +kernel : [verbosityGroup, verbosityFlag, verboseArg,
          files].all (fun n => n.policies.all fun | .customParser _ => false | _ => true) = true) n h
        simpa using List.all_eq_true.1 this _ hf
  · intro n hn f hf
    have := List.all_eq_true.1 (by decide +kernel : basicCat.nodes.all
      (fun n => n.policies.all fun | .helpText _ => false | _ => true) = true) n hn
    simpa using List.all_eq_true.1 this _ hf
  · exact fun _ _ _ => .inl rfl

/-- Errors of this program: a part of an argument, the name of an argument with a separator, the name
of an argument another one depends on, a required argument. -/
example : (parseArgs .default (exProgram basicCatFormat 80 basicCat) [b "--max-lines=many", b "f"] .fresh).1 =
      .throw ⟨.failed_to_parse, [⟨.none, b "many"⟩]⟩ ∧
    (parseArgs .default (exProgram basicCatFormat 80 basicCat) [b "--max-lines", b "3"] .fresh).1 =
      .throw ⟨.missing_value_separator, [⟨.long, b "max-lines"⟩]⟩ ∧
    (parseArgs .default (exProgram basicCatFormat 80 basicCat) [b "-s", b "f"] .fresh).1 =
      .throw ⟨.dependent_argument_missing, [⟨.long, b "max-line-length"⟩]⟩ ∧
    (parseArgs .default (exProgram basicCatFormat 80 basicCat) [b "-A"] .fresh).1 =
      .throw ⟨.missing_required_argument, [⟨.none, b "FILES"⟩]⟩ := by decide +kernel

end BlameEx

end Props

end ArgRouter
