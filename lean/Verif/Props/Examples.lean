import Verif.Examples.Programs
import Verif.Props.AskHelp
import Verif.Props.Number

/-!
# C87: the example programs

What the theorems about all programs say about the programs shipped with the library.
-/

namespace ArgRouter

open Spec Utf8

namespace Spec

open Examples

/-- The settings of the example programs: the default prefixes, and the library's own texts in the
output of help. -/
def exInfo : HelpInfo := ⟨.default, fun _ => none⟩

/-- The program with the given tree, all of whose help nodes have the same settings, run in a terminal
of the given width. -/
def exProgram (f : Formatter) (columns : Nat) (tree : Node) : Node :=
  program (fun _ => f) exInfo columns tree

/-- Run with `args` the program returns (having called what there was to call), or the
`parse_exception` that leaves it has the documented message of the error found. -/
def EndsWell (f : Formatter) (tree : Node) (columns : Nat) (args : List Bytes) (s : St) : Prop :=
  (∃ s', rootSeen .default defaultTranslations [] (exProgram f columns tree) args s = (.returned, s')) ∨
  ∃ e s', parseArgs .default (exProgram f columns tree) args s = (.throw e, s') ∧
    rootSeen .default defaultTranslations [] (exProgram f columns tree) args s =
      (.parseException (errorText .default (english e.ec) e.tokens), s')

/-- The example programs: just_cats, simple, launcher, runtime_node_enable with a licence, and
basic_cat. -/
def examplePrograms : List (Formatter × Node) :=
  [(justCatsFormat, justCats), (simpleFormat, simple), (launcherFormat, launcher),
   (runtimeFormat, runtimeEnable true), (basicCatFormat, basicCat)]

end Spec

namespace Props

/-! ## A test for careful trees -/

/-- The name a policy gives. -/
def givenName : Policy → Option Bytes
  | .longName s => some s
  | .shortName s => some s
  | .noneName s => some s
  | _ => none

/-- The parts of `Careful` that can be computed; `names` are the names known to be text. -/
def carefulNode (names : List Bytes) (n : Node) : Bool :=
  n.policies.all fun p =>
    (match givenName p with
     | some s => names.contains s
     | none => true) &&
    match p with
    | .valueSeparator s => s.length == 1
    | .shortFormExpander => n.kind == .flag || n.kind == .countingFlag
    | .helpText _ => false
    | .validation _ _ => false
    | _ => true

/-- A parser that always has a result. -/
def Total (f : Bytes → Out Scalar) : Prop := ∀ s, (∃ v, f s = .ok v) ∨ ∃ e, f s = .throw e

theorem Total.behaves {f : Bytes → Out Scalar} (h : Total f) : Behaves f := fun s => by
  rcases h s with ⟨v, e⟩ | ⟨v, e⟩ <;> rw [e] <;> simp

theorem Total.ends {f : Bytes → Out Scalar} (h : Total f) (s : Bytes) : f s ≠ .diverge := by
  rcases h s with ⟨v, e⟩ | ⟨v, e⟩ <;> rw [e] <;> simp

theorem careful_of_test {root : Node} (names : List Bytes) (hnames : ∀ s ∈ names, Text s)
    (h : root.nodes.all (carefulNode names) = true)
    (hparse : ∀ n ∈ root.nodes, TakesValues n = true → Total n.vt.parse)
    (hends : ∀ n ∈ root.nodes, ∀ s, n.vt.parse s ≠ .diverge)
    (hcustom : ∀ n ∈ root.nodes, ∀ f, .customParser f ∈ n.policies → Total f) :
    Careful root ∧ ∀ n ∈ root.nodes, ∀ f, .helpText f ∉ n.policies := by
  have key : ∀ n ∈ root.nodes, ∀ p ∈ n.policies, _ := fun n hn =>
    List.all_eq_true.1 (List.all_eq_true.1 h n hn)
  have hhelp : ∀ n ∈ root.nodes, ∀ f, .helpText f ∉ n.policies := by
    intro n hn f hf
    have := key n hn _ hf
    simp at this
  have hvalid : ∀ n ∈ root.nodes, ∀ t f, .validation t f ∉ n.policies := by
    intro n hn t f hf
    have := key n hn _ hf
    simp at this
  refine ⟨⟨?_, ?_, ?_, fun n hn ht => (hparse n hn ht).behaves,
    fun n hn f hf => (hcustom n hn f hf).behaves, fun n hn t f hf => absurd hf (hvalid n hn t f),
    fun n hn f hf => absurd hf (hhelp n hn f),
    fun n hn => ⟨hends n hn, fun f hf => (hcustom n hn f hf).ends,
      fun t f hf => absurd hf (hvalid n hn t f),
      fun f hf => absurd hf (hhelp n hn f)⟩⟩, hhelp⟩
  · intro n hn s hs
    apply hnames
    rcases hs with hs | hs | hs
    all_goals
      have := key n hn _ hs
      simp only [givenName, Bool.and_true] at this
      exact List.contains_iff_mem.1 this
  · intro n hn s hs
    have := key n hn _ hs
    simpa [givenName] using this
  · intro n hn hs
    have := key n hn _ hs
    simpa [givenName] using this

/-- The same for `Helpful`. -/
def helpfulNode (ind : Nat) (info : HelpInfo) (texts : List Bytes) (n : Node) : Bool :=
  (match n.shortName with
   | some s => !startsWith info.cfg.longPrefix (info.cfg.shortPrefix ++ s)
   | none => true) &&
  texts.contains n.helpDescription &&
  [true, false].all fun fl => ((staticHelp info fl n).flat 0).all fun r =>
    match terminalWidth r.2.1 with
    | .ok w => decide (r.1 * ind + w + ind < 2 ^ 31)
    | _ => false

theorem helpful_of_test {f : HelpFormat} {info : HelpInfo} {root : Node} (texts : List Bytes)
    (htexts : ∀ s ∈ texts, Text s) (ho : 2 ≤ f.offset)
    (h : root.nodes.all (helpfulNode f.indent info texts) = true) : Helpful f info root := by
  have key : ∀ n ∈ root.nodes, _ := fun n hn => List.all_eq_true.1 h n hn
  simp only [helpfulNode, Bool.and_eq_true] at key
  refine ⟨?_, ?_, ?_, ho⟩
  · intro n hn s hs hp
    have := (key n hn).1.1
    rw [hs] at this
    simp only [Bool.not_eq_true'] at this
    rw [(startsWith_prefix _ _).2 hp] at this
    cases this
  · intro n hn
    exact htexts _ (List.contains_iff_mem.1 (key n hn).1.2)
  · intro n hn fl row hrow
    have h1 := List.all_eq_true.1 (key n hn).2 fl (by cases fl <;> simp)
    have h2 := List.all_eq_true.1 h1 row hrow
    split at h2
    · rename_i w hw
      exact ⟨w, hw, by simpa using h2⟩
    · cases h2

/-! ## The parsers of the example programs -/

theorem total_text : Total textType.parse := fun s => .inl ⟨.str s, rfl⟩

theorem total_int (t : IntType) : Total (intType t).parse := fun s => by
  rcases C85_behaves t s with ⟨v, h⟩ | h
  · exact .inl ⟨.int v, by show (parseInt t s >>= _) = _; rw [h]; rfl⟩
  · exact .inr ⟨_, by show (parseInt t s >>= _) = _; rw [h]; rfl⟩

theorem total_word (words : List Bytes) : Total (Examples.wordType words).parse := fun s => by
  unfold Examples.wordType
  simp only
  split
  · exact .inl ⟨_, rfl⟩
  · exact .inr ⟨_, rfl⟩

/-- The node does not parse values, or its parser always has a result. -/
def ParserFine (n : Node) : Prop :=
  (TakesValues n = false ∧ ∀ s, n.vt.parse s = .ub) ∨ Total n.vt.parse

/-- No policy of the node is a `custom_parser`. -/
def plainParser (n : Node) : Bool := n.policies.all fun | .customParser _ => false | _ => true

/-- Strings that are text. -/
def textStrings (ss : List String) : Bool :=
  ss.all fun s => decide (Plain s.toList) && b s == enc s.toList

theorem textStrings_iff {ss : List String} (h : textStrings ss = true) :
    ∀ s ∈ ss.map b, Text s := by
  intro s hs
  obtain ⟨t, ht, rfl⟩ := List.mem_map.1 hs
  have := List.all_eq_true.1 h t ht
  simp only [Bool.and_eq_true, decide_eq_true_eq, beq_iff_eq] at this
  exact ⟨_, this.1, this.2⟩

theorem ends_of_tests {f : Formatter} {tree : Node} {columns : Nat} (names texts : List String)
    (hc : compiles .default 100 defaultRules (exProgram f columns tree) = true)
    (hline : LibraryLines f)
    (htexts : textStrings (names ++ texts) = true)
    (hcare : tree.nodes.all (carefulNode (names.map b)) = true)
    (hhelp : tree.nodes.all (helpfulNode f.format.indent exInfo (texts.map b)) = true)
    (hoff : 2 ≤ f.format.offset)
    (hon : tree.nodes.all (fun n => SwitchedOff n == false) = true)
    (hparse : ∀ n ∈ tree.nodes, ParserFine n)
    (hcustom : ∀ n ∈ tree.nodes, plainParser n = true ∨ ∀ f, .customParser f ∈ n.policies → Total f)
    (hcol : columns < 2 ^ 64) (args : List Bytes)
    (hargs : ∀ a ∈ args, Text a) (hlast : args.getLast? ≠ some (b "-")) (s : St) : EndsWell f tree columns args s := by
  have ht := textStrings_iff htexts
  simp only [List.map_append, List.mem_append] at ht
  obtain ⟨h1, h2⟩ := careful_of_test (names.map b) (fun s hs => ht s (.inl hs)) hcare
    (by
      intro n hn h
      rcases hparse n hn with ⟨h', -⟩ | h'
      · rw [h'] at h; cases h
      · exact h')
    (by
      intro n hn s
      rcases hparse n hn with ⟨-, h'⟩ | h'
      · rw [h' s]; simp
      · exact h'.ends s)
    (by
      intro n hn f hf
      rcases hcustom n hn with h' | h'
      · have := List.all_eq_true.1 h' _ hf
        simp at this
      · exact h' f hf)
  exact C80_help_partial (info := exInfo) (by unfold AsciiPrefixes; decide) hc h1 h2
    (fun _ _ _ => ⟨hline, helpful_of_test (texts.map b) (fun s hs => ht s (.inr hs)) hoff hhelp⟩)
    (fun n hn => by simpa using List.all_eq_true.1 hon n hn) hcol args hargs (fun _ => hlast) s

/-! ## The programs -/

open Examples

set_option maxRecDepth 100000
set_option maxHeartbeats 2000000

/-- All parsers of a list of nodes are fine. -/
macro "parsers_fine" : tactic => `(tactic|
  (repeat' first
    | exact fun _ h => absurd h List.not_mem_nil
    | exact .inl ⟨rfl, fun _ => rfl⟩
    | exact .inr total_text
    | exact .inr (total_int _)
    | exact .inr (total_word _)
    | apply And.intro))

/-- C87: the example programs compile, whatever the width of the terminal. -/
theorem C87_compiles (p : Formatter × Node) (hp : p ∈ (runtimeFormat, runtimeEnable false) :: examplePrograms)
    (columns : Nat) : compiles .default 100 defaultRules (exProgram p.1 columns p.2) = true := by
  simp only [examplePrograms, List.mem_cons, List.not_mem_nil, or_false] at hp
  rcases hp with rfl | rfl | rfl | rfl | rfl | rfl <;> with_unfolding_all rfl

theorem justCats_ends (columns : Nat) (hcol : columns < 2 ^ 64) (args : List Bytes)
    (hargs : ∀ a ∈ args, Text a) (hlast : args.getLast? ≠ some (b "-")) (s : St) : EndsWell justCatsFormat justCats columns args s := by
  refine ends_of_tests ["help", "h", "cat", "猫", "🐱", "แมว", "кіт"]
    ["", "Display this help and exit", "English cat", "日本語の猫", "Emoji cat", "แมวไทย", "український кіт"]
    (C87_compiles (justCatsFormat, justCats) (by simp [examplePrograms]) columns)
    (.inl rfl) (by decide +kernel) (by decide +kernel) (by decide +kernel)
    (by decide) (by decide +kernel) ?_ ?_ hcol args hargs hlast s
  · rw [show justCats.nodes = justCats :: justCats.children from rfl]
    simp only [justCats, mkRoot, Node.children, List.forall_mem_cons]
    parsers_fine
  · exact fun n hn => .inl (List.all_eq_true.1 (by decide +kernel : justCats.nodes.all plainParser = true) n hn)

theorem simple_ends (columns : Nat) (hcol : columns < 2 ^ 64) (args : List Bytes)
    (hargs : ∀ a ∈ args, Text a) (hlast : args.getLast? ≠ some (b "-")) (s : St) : EndsWell simpleFormat simple columns args s := by
  refine ends_of_tests ["help", "h", "copy", "move", "force", "f"]
    ["", "Display this help and exit", "Copy source files to destination",
      "Move source file to destination", "Force overwrite existing files", "Destination directory",
      "Source file paths", "Source file path"]
    (C87_compiles (simpleFormat, simple) (by simp [examplePrograms]) columns)
    (.inr rfl) (by decide +kernel) (by decide +kernel) (by decide +kernel)
    (by decide) (by decide +kernel) ?_ ?_ hcol args hargs hlast s
  · rw [show simple.nodes = [simple, catsHelp, copyMode, force 11, destination 12, sources, moveMode,
      force 15, destination 16, source] from rfl]
    simp only [List.forall_mem_cons]
    parsers_fine
  · exact fun n hn => .inl (List.all_eq_true.1 (by decide +kernel : simple.nodes.all plainParser = true) n hn)

theorem launcher_ends (columns : Nat) (hcol : columns < 2 ^ 64) (args : List Bytes)
    (hargs : ∀ a ∈ args, Text a) (hlast : args.getLast? ≠ some (b "-")) (s : St) : EndsWell launcherFormat launcher columns args s := by
  refine ends_of_tests ["help", "h", "version", "dry-run", "d"]
    ["", "Display this help and exit", "Output version information and exit", "Programs to run",
      "Arguments to pass to programs", "Just print launch invocations, do not execute them"]
    (C87_compiles (launcherFormat, launcher) (by simp [examplePrograms]) columns)
    (.inl rfl) (by decide +kernel) (by decide +kernel) (by decide +kernel)
    (by decide) (by decide +kernel) ?_ ?_ hcol args hargs hlast s
  · rw [show launcher.nodes = [launcher, catsHelp, versionFlag, launchMode, dryRun, progs, progArgs]
      from rfl]
    simp only [List.forall_mem_cons]
    parsers_fine
  · exact fun n hn => .inl (List.all_eq_true.1 (by decide +kernel : launcher.nodes.all plainParser = true) n hn)

theorem runtimeEnable_ends (columns : Nat) (hcol : columns < 2 ^ 64) (args : List Bytes)
    (hargs : ∀ a ∈ args, Text a) (hlast : args.getLast? ≠ some (b "-")) (s : St) :
    EndsWell runtimeFormat (runtimeEnable true) columns args s := by
  refine ends_of_tests ["help", "h", "version", "advanced", "feature1", "feature2", "foo", "f", "bar", "b",
      "advance-foo"]
    ["", "Display this help and exit", "Output version information and exit", "Advanced features",
      "First feature", "Second feature", "Foo flag", "Bar flag", "Licensed foo"]
    (C87_compiles (runtimeFormat, runtimeEnable true) (by simp [examplePrograms]) columns)
    (.inl rfl) (by decide +kernel) (by decide +kernel) (by decide +kernel)
    (by decide) (by decide +kernel) ?_ ?_ hcol args hargs hlast s
  · rw [show (runtimeEnable true).nodes = runtimeEnable true :: catsHelp :: versionFlag ::
      advancedMode true :: ((advancedMode true).children ++ fooMode true :: (fooMode true).children)
      from rfl]
    simp only [advancedMode, fooMode, mkMode, Node.children, List.cons_append, List.nil_append,
      List.forall_mem_cons]
    parsers_fine
  · exact fun n hn =>
      .inl (List.all_eq_true.1 (by decide +kernel : (runtimeEnable true).nodes.all plainParser = true) n hn)

theorem basicCat_ends (columns : Nat) (hcol : columns < 2 ^ 64) (args : List Bytes)
    (hargs : ∀ a ∈ args, Text a) (hlast : args.getLast? ≠ some (b "-")) (s : St) : EndsWell basicCatFormat basicCat columns args s := by
  refine ends_of_tests ["help", "h", "version", "show-all", "A", "show-ends", "E", "show-nonprinting", "n",
      "max-lines", "max-line-length", "skip-line", "s", "line-suffix", "theme", "v", "verbose"]
    ["", "Display this help and exit", "Output version information and exit", "Equivalent to -nE",
      "Display $ at end of each line", "Use ^ and M- notation, except for LFD and TAB",
      "Maximum lines to output", "Maximum line length", "Skips line output if max line length reached",
      "Shortens line length to maximum with the given suffix if max line length reached",
      "Set the output colour theme", "Verbosity level, number of 'v's sets level", "Verbosity level",
      "Files to read"]
    (C87_compiles (basicCatFormat, basicCat) (by simp [examplePrograms]) columns)
    (.inl rfl) (by decide +kernel) (by decide +kernel) (by decide +kernel)
    (by decide) (by decide +kernel) ?_ ?_ hcol args hargs hlast s
  · rw [show basicCat.nodes = [basicCat, catsHelp, versionFlag, catMode, showAll, showEnds,
      showNonPrinting, maxLines, maxLineLength, lineHandling, skipLine, lineSuffix, themeArg,
      verbosityGroup, verbosityFlag, verboseArg, files] from rfl]
    simp only [List.forall_mem_cons]
    parsers_fine
  · rw [show basicCat.nodes = [basicCat, catsHelp, versionFlag, catMode, showAll, showEnds,
      showNonPrinting, maxLines, maxLineLength, lineHandling, skipLine, lineSuffix] ++ themeArg ::
      [verbosityGroup, verbosityFlag, verboseArg, files] from rfl]
    intro n hn
    rcases List.mem_append.1 hn with h | h
    · exact .inl (List.all_eq_true.1 (by decide +kernel) n h)
    · rcases List.mem_cons.1 h with rfl | h
      · refine .inr fun f hf => ?_
        simp only [themeArg, mkArg, Node.policies, List.mem_cons, List.not_mem_nil, or_false,
          reduceCtorEq, false_or, Policy.customParser.injEq] at hf
        exact hf ▸ total_word _
      · exact .inl (List.all_eq_true.1 (by decide +kernel) n h)

/-- C87, what holds: whatever text an example program is given, in a terminal of any width, it returns
or throws a `parse_exception` with the documented message. Missing, because false: a last argument that
is just `-`, text the decoder mishandles (C34), and runtime_node_enable without a licence. -/
theorem C87_safe_partial (p : Formatter × Node) (hp : p ∈ examplePrograms) (columns : Nat)
    (hcol : columns < 2 ^ 64) (args : List Bytes) (hargs : ∀ a ∈ args, Text a)
    (hlast : args.getLast? ≠ some (b "-")) (s : St) : EndsWell p.1 p.2 columns args s := by
  simp only [examplePrograms, List.mem_cons, List.not_mem_nil, or_false] at hp
  rcases hp with rfl | rfl | rfl | rfl | rfl
  · exact justCats_ends columns hcol args hargs hlast s
  · exact simple_ends columns hcol args hargs hlast s
  · exact launcher_ends columns hcol args hargs hlast s
  · exact runtimeEnable_ends columns hcol args hargs hlast s
  · exact basicCat_ends columns hcol args hargs hlast s

/-- What is seen of a run in a terminal of 80 columns. -/
def seen (f : Formatter) (tree : Node) (args : List Bytes) : Seen :=
  (rootSeen .default defaultTranslations [] (exProgram f 80 tree) args .fresh).1

/-- C87 is false: `-` as the only argument makes all but `simple` throw a `std::length_error`, a
full-width exclamation mark makes `simple` read past the end of the argument when it looks for a name
to suggest, and without a licence `runtime_node_enable --help advanced` dereferences an empty
optional. -/
theorem C87_false :
    seen justCatsFormat justCats [b "-"] = .foreign ∧
    seen launcherFormat launcher [b "-"] = .foreign ∧
    seen runtimeFormat (runtimeEnable true) [b "-"] = .foreign ∧
    seen basicCatFormat basicCat [b "-"] = .foreign ∧
    seen simpleFormat simple [b "！"] = .ub ∧
    seen runtimeFormat (runtimeEnable false) [b "--help", b "advanced"] = .ub := by decide +kernel

/-- A command line that meets the hypotheses of `C87_safe_partial`. -/
example : (∀ a ∈ [b "copy", b "-f", b "dst", b "-", b "猫"], Text a) ∧
    seen simpleFormat simple [b "copy", b "-f", b "dst", b "-", b "猫"] = .returned ∧
    seen simpleFormat simple [b "copi", b "-g"] =
      .parseException (b "Unknown argument: copi. Did you mean copy?") ∧
    seen basicCatFormat basicCat [b "-vvvv", b "猫"] =
      .parseException (b "Maximum value exceeded: Alias Group: -v,--verbose") := by
  refine ⟨textStrings_iff (ss := ["copy", "-f", "dst", "-", "猫"]) (by decide +kernel), ?_⟩
  decide +kernel

end Props
end ArgRouter
