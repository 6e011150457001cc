import Verif.Lemmas.Help
import Verif.Props.Line

/-!
# C51-C54: help output
-/

namespace ArgRouter.Props
open ArgRouter Utf8 Spec

/-! ## The description column -/

/-- C51. The description column lies to the right of every label that is printed, by at least the
indentation size: for every row shown at run time (whatever has been disabled) and for every row of
the compile-time data. -/
theorem C51_column_right_of_labels (info : HelpInfo) (flatten : Bool) (target : Node)
    (ht : HelpTree target) (ind D : Nat)
    (hD : descColumn ind 0 (staticHelp info flatten target) 0 = .ok D) :
    (∀ row ∈ (runtimeHelp info flatten target).flat 0,
      ∃ w, terminalWidth row.2.1 = .ok w ∧ row.1 * ind + w + ind ≤ D) ∧
    ∀ row ∈ (staticHelp info flatten target).flat 0,
      ∃ w, terminalWidth row.2.1 = .ok w ∧ row.1 * ind + w + ind ≤ D := by
  have hs := (descColumn_spec ind _ _ _ _ hD).2
  refine ⟨fun row hrow => ?_, hs⟩
  obtain ⟨s, hs', hc⟩ := runtimeHelp_covered info flatten target ht row hrow
  obtain ⟨w, hw, hle⟩ := hs s hs'
  obtain ⟨u, hu, hle2⟩ := hc.width hw
  refine ⟨u, hu, ?_⟩
  rw [hc.1]
  omega

theorem joinLines_eq (gap : Bytes) (ls : List Bytes) :
    joinLines gap ls = (b "\n" ++ gap).intercalate ls := by
  induction ls with
  | nil => rfl
  | cons l ls ih =>
    cases ls with
    | nil => simp [joinLines, List.intercalate]
    | cons m ls =>
      rw [joinLines, ih]
      simp [List.intercalate, show b "\n" = [10] by decide +kernel]

/-- The text of one row. -/
theorem formatRow_text {ind D columns : Nat} (hD : D < 2 ^ 31) (hc : D ≤ columns)
    (hc2 : columns < 2 ^ 64) {row : Nat × Bytes × Bytes} {text : Bytes}
    (hw : ∃ w, terminalWidth row.2.1 = .ok w ∧ row.1 * ind + w + ind ≤ D)
    (h : formatRow ind D columns row = .ok text) : RowText ind D (columns - D) row text := by
  obtain ⟨k, l, d⟩ := row
  obtain ⟨w, hw, hle⟩ := hw
  dsimp only at hw hle
  unfold formatRow at h
  dsimp only at h
  by_cases hl : l = []
  · subst hl
    simp at h
    subst h
    exact .hidden
  · have hl' : (l == []) = false := by simpa using hl
    simp only [hl', Bool.false_eq_true, if_false] at h
    have hg : setGap (k * ind) = spaces (k * ind) := setGap_eq (by omega)
    by_cases hd : d = []
    · subst hd
      simp at h
      subst h
      rw [hg, ← List.append_assoc]
      exact .label hl
    · have hd' : (d == []) = false := by simpa using hd
      simp only [hd', Bool.false_eq_true, if_false, hw, Out.ok_bind] at h
      rw [sizeSub_eq hc hc2, sizeSub_eq (a := D) (c := k * ind) (by omega) (by omega),
        sizeSub_eq (by omega) (by omega)] at h
      cases hls : lines d (columns - D) with
      | ok ls =>
        rw [hls] at h
        simp only [Out.ok_bind] at h
        injection h with h
        rw [← h, hg, setGap_eq (by omega), setGap_eq (by omega), joinLines_eq]
        exact .described hl hd hw (by omega) (by omega) hls
      | _ => rw [hls] at h; simp at h

theorem formatRows_zip {format : Nat × Bytes × Bytes → Out Bytes} {rows out}
    (h : formatRows format rows = .ok out) :
    ∃ texts, out = texts.flatten ∧ Zip (fun r t => format r = .ok t) rows texts := by
  induction rows generalizing out with
  | nil => simp only [formatRows, Out.ok.injEq] at h; exact ⟨[], h.symm, .nil⟩
  | cons r rs ih =>
    rw [formatRows] at h
    cases h1 : format r with
    | ok x =>
      rw [h1] at h
      simp only [Out.ok_bind] at h
      cases h2 : formatRows format rs with
      | ok y =>
        rw [h2] at h
        simp only [Out.ok_bind] at h
        injection h with h
        obtain ⟨texts, rfl, hz⟩ := ih h2
        exact ⟨x :: texts, h.symm, .cons h1 hz⟩
      | _ => rw [h2] at h; simp at h
    | _ => rw [h1] at h; simp at h

theorem Zip.strengthen {α β : Type} {R S : α → β → Prop} {l m} (h : Zip R l m)
    (hm : ∀ a ∈ l, ∀ b, R a b → S a b) : Zip S l m := by
  induction h with
  | nil => exact .nil
  | cons hr _ ih =>
    exact .cons (hm _ List.mem_cons_self _ hr) (ih fun a ha => hm a (List.mem_cons_of_mem _ ha))

theorem usedColumns_bounds {f : HelpFormat} {columns D : Nat} (hc : columns < 2 ^ 64)
    (hD : D < 2 ^ 31) : D ≤ usedColumns f columns D ∧ usedColumns f columns D < 2 ^ 64 := by
  unfold usedColumns sizeMax
  split <;> constructor <;> omega

theorem preamble_heading (f : HelpFormat) : Heading f (preamble f) := by
  unfold preamble
  cases hn : f.name <;> cases hv : f.version <;> cases hi : f.intro <;>
    simp only [List.append_nil, List.nil_append, List.append_assoc]
  · exact .none hn hi
  · exact .intro hn hi
  · exact .none hn hi
  · exact .intro hn hi
  · exact .name hn hv hi
  · simpa only [List.append_assoc] using Heading.nameIntro hn hv hi
  · simpa only [List.append_assoc] using Heading.version hn hv hi
  · simpa only [List.append_assoc] using Heading.versionIntro hn hv hi

theorem addendum_closing (f : HelpFormat) : Closing f (addendumText f) := by
  unfold addendumText
  cases ha : f.addendum with
  | none => exact .none ha
  | some a => exact .some ha

/-- C51 and C52, the default formatter. The help output is the heading (name, version and
introduction of the program), one text for each row and the addendum. In the text of a row the description starts exactly at the description column `D`,
behind at least the indentation size of spaces, and continues there on every further line.
`usedColumns` is the terminal's column count, or "unlimited" if that leaves too little room. -/
theorem C51_aligned (f : HelpFormat) (info : HelpInfo) (columns : Nat) (hc : columns < 2 ^ 64)
    (flatten : Bool) (target : Node) (ht : HelpTree target) (out : Bytes)
    (h : generateHelp formatRow f info columns flatten target = .ok out) (D : Nat)
    (hD : descColumn f.indent 0 (staticHelp info flatten target) 0 = .ok D) (hD2 : D < 2 ^ 31) :
    ∃ (head : Bytes) (texts : List Bytes) (tail : Bytes), out = head ++ texts.flatten ++ tail ∧
      Heading f head ∧ Closing f tail ∧
      Zip (RowText f.indent D (usedColumns f columns D - D))
        ((runtimeHelp info flatten target).flat 0) texts := by
  unfold generateHelp at h
  rw [hD] at h
  simp only [Out.ok_bind] at h
  cases hb : formatRows (formatRow f.indent D (usedColumns f columns D))
      ((runtimeHelp info flatten target).flat 0) with
  | ok body =>
    rw [hb] at h
    simp only [Out.ok_bind] at h
    injection h with h
    obtain ⟨texts, rfl, hz⟩ := formatRows_zip hb
    refine ⟨_, texts, _, h.symm, preamble_heading f, addendum_closing f, Zip.strengthen hz fun row hrow text ht2 => ?_⟩
    have hu := usedColumns_bounds (f := f) hc hD2
    exact formatRow_text hD2 hu.1 hu.2
      ((C51_column_right_of_labels info flatten target ht f.indent D hD).1 row hrow) ht2
  | _ => rw [hb] at h; simp at h

/-! An example: a root with a help node, a named mode with an argument and a disabled one, and an
anonymous mode with a group. -/

def strT : ValueType := ⟨false, .one (.str []), fun s => .ok (.str s)⟩
def boolT : ValueType := ⟨false, .one (.bool false), fun _ => .ok (.bool true)⟩

def hHelp : Node := .mk .help 1 101 boolT
  [.longName (b "help"), .shortName (b "h"), .description (b "Show this text"), .noResult,
   .minMaxCount 0 sizeMax] []
def hName : Node := .mk .arg 2 102 strT
  [.longName (b "name"), .valueSeparator (b "="), .description (b "Name of the 猫"),
   .minMaxCount 1 1] []
def hHidden : Node := .mk .flag 3 103 boolT
  [.longName (b "hidden"), .description (b "Not shown"), .runtimeEnable false,
   .minMaxCount 0 0] []
def hAdd : Node := .mk .mode 4 104 strT
  [.noneName (b "add"), .description (b "Adds one"), .router] [hName, hHidden]
def hOne : Node := .mk .flag 5 105 boolT
  [.longName (b "one"), .description (b "First"), .minMaxCount 0 0] []
def hTwo : Node := .mk .flag 6 106 boolT
  [.longName (b "two"), .description (b "Second"), .minMaxCount 0 0] []
def hGroup : Node := .mk .oneOf 7 107 boolT [.displayName (b "One of:")] [hOne, hTwo]
def hDefault : Node := .mk .mode 8 108 strT [.router] [hGroup]
def hRoot : Node := .mk .root 9 109 strT [] [hHelp, hAdd, hDefault]

def hInfo : HelpInfo := ⟨.default, fun _ => none⟩
def hFormat : HelpFormat := ⟨4, 8, some (b "prog"), none, none, none, false⟩

/-- A test for the shapes that compile, for the examples. -/
def helpTreeB (t : Node) : Bool :=
  t.nodes.all fun n =>
    (!Runnable n || n.children.isEmpty) &&
    (!decide (IsGroup n) || n.children.all Runnable) &&
    (!(n.kind == .mode && n.isAnonymous) || n.children.all fun c => c.kind != .mode) &&
    n.children.all fun c => c.kind != .root

theorem helpTree_of_test {t : Node} (h : helpTreeB t = true) : HelpTree t := by
  have h := List.all_eq_true.1 h
  refine ⟨fun n hn h1 => ?_, fun n hn h1 c hc => ?_, fun n hn h1 h2 c hc => ?_, fun n hn c hc => ?_⟩
  all_goals
    have := h n hn
    simp only [Bool.and_eq_true, Bool.or_eq_true, Bool.not_eq_true', decide_eq_false_iff_not,
      List.all_eq_true, bne_iff_ne, ne_eq] at this
    obtain ⟨⟨⟨a1, a2⟩, a3⟩, a4⟩ := this
  · rcases a1 with a1 | a1
    · rw [h1] at a1; simp at a1
    · simpa using a1
  · rcases a2 with a2 | a2
    · exact absurd h1 a2
    · exact a2 c hc
  · rcases a3 with a3 | a3
    · rw [h1, h2] at a3; simp at a3
    · exact a3 c hc
  · exact a4 c hc

theorem hRoot_tree : HelpTree hRoot := helpTree_of_test (by decide +kernel)

/-- The output for the example tree: the named mode is listed without its contents. -/
theorem hRoot_output : helpParse formatRow hFormat hInfo 80 [] hRoot = .ok (b
    ("prog\n\n    --help,-h          Show this text\n    add                Adds one\n     \n" ++
     "        One of:\n            ┌ --one    First\n            └ --two    Second\n")) := by
  decide +kernel

/-- The output for one mode: its argument, but not the disabled one. -/
theorem hAdd_output : helpParse formatRow hFormat hInfo 80 [⟨.none, b "add"⟩] hRoot = .ok (b
    "prog\n\nadd                   Adds one\n    --name=<Value>    Name of the 猫\n") := by
  decide +kernel

/-- C51 is false for the colour formatter: it writes a space before a label at depth zero, so the
description of the mode whose help was asked for starts one column to the right of the others. -/
theorem C51_colour_false : helpParse formatRowColour hFormat hInfo 80 [⟨.none, b "add"⟩] hRoot
    = .ok (b "prog\n\n" ++
      red ++ b " add" ++ green ++ b "                   Adds one\n" ++ resetColour ++
      red ++ b "    --name=<Value>" ++ green ++ b "    Name of the 猫\n" ++ resetColour) := by
  decide +kernel

/-- C51 for the colour formatter, the true part: below depth zero the text is the one of the default
formatter with the colour codes inserted. -/
theorem C51_colour_partial {ind D columns : Nat} (hi : 1 ≤ ind) (hD : D < 2 ^ 31) (hc : D ≤ columns)
    (hc2 : columns < 2 ^ 64) (k : Nat) (hk : 1 ≤ k) (l d : Bytes) (hl : l ≠ []) (hd : d ≠ [])
    (hw : ∃ w, terminalWidth l = .ok w ∧ k * ind + w + ind ≤ D) (text : Bytes)
    (h : formatRowColour ind D columns (k, l, d) = .ok text) :
    ∃ w g ls, terminalWidth l = .ok w ∧ k * ind + w + g = D ∧ ind ≤ g ∧
      lines d (columns - D) = .ok ls ∧
      text = red ++ blanks (k * ind) ++ l ++ green ++ blanks g ++
        (b "\n" ++ blanks D).intercalate ls ++ b "\n" ++ resetColour := by
  obtain ⟨w, hw, hle⟩ := hw
  have hki : 1 ≤ k * ind := Nat.mul_pos hk hi
  unfold formatRowColour at h
  dsimp only at h
  have hl' : (l == []) = false := by simpa using hl
  have hd' : (d == []) = false := by simpa using hd
  simp only [hl', hd', Bool.false_eq_true, if_false, hw, Out.ok_bind] at h
  rw [sizeSub_eq hc hc2, sizeSub_eq (a := D) (c := k * ind) (by omega) (by omega),
    sizeSub_eq (by omega) (by omega)] at h
  cases hls : lines d (columns - D) with
  | ok ls =>
    rw [hls] at h
    simp only [Out.ok_bind] at h
    injection h with h
    rw [setwSpace_eq (by omega) (by omega), setwSpace_eq (by omega) (by omega),
      setwSpace_eq (by omega) (by omega), joinLines_eq] at h
    exact ⟨w, D - k * ind - w, ls, hw, by omega, by omega, rfl, h.symm⟩
  | _ => rw [hls] at h; simp at h

/-! ## The width of the description -/

/-- C52. If the terminal is wide enough for wrapping to be attempted (the description column plus the
configured offset), every line of the description printed from column `D` ends within the terminal.
Missing from the full statement: descriptions with characters the decoder mishandles (C34). -/
theorem C52_fits_partial (f : HelpFormat) (columns D : Nat) (hcol : D + f.offset ≤ columns)
    (row : Nat × Bytes × Bytes) (text : Bytes)
    (h : RowText f.indent D (usedColumns f columns D - D) row text)
    (cs : List Char) (hp : Plain cs) (hd : row.2.2 = enc cs) :
    text = [] ∨ text = blanks (row.1 * f.indent) ++ row.2.1 ++ b "\n" ∨
    ∃ head ls, text = head ++ (b "\n" ++ blanks D).intercalate ls ++ b "\n" ∧
      (∃ w g, terminalWidth row.2.1 = .ok w ∧ head = blanks (row.1 * f.indent) ++ row.2.1 ++ blanks g ∧
        row.1 * f.indent + w + g = D) ∧
      ∀ l ∈ ls, ∃ w, terminalWidth l = .ok w ∧ D + w ≤ columns := by
  have hu : usedColumns f columns D = columns := by
    unfold usedColumns; rw [if_pos hcol]
  rw [hu] at h
  cases h with
  | hidden => exact .inl rfl
  | label hl => exact .inr (.inl rfl)
  | @described k l d w g ls hl hd2 hw hg hi hls =>
    refine .inr (.inr ⟨_, ls, rfl, ⟨w, g, hw, rfl, hg⟩, fun x hx => ?_⟩)
    dsimp only at hd
    subst hd
    obtain ⟨line, _, hle, hv⟩ := C45_lines_fit_partial cs hp _ _ _ hls x hx
    exact ⟨_, hv, by omega⟩

/-- A row that is wrapped. -/
example : formatRow 4 20 40 (1, b "--name", b "a long text that has to be wrapped") =
    .ok (b ("    --name          a long text that \n" ++ "                    has to be wrapped\n")) := by
  decide +kernel

theorem formatRows_total {format : Nat × Bytes × Bytes → Out Bytes} {rows}
    (h : ∀ r ∈ rows, ∃ t, format r = .ok t) : ∃ out, formatRows format rows = .ok out := by
  induction rows with
  | nil => exact ⟨[], rfl⟩
  | cons r rs ih =>
    obtain ⟨t, ht⟩ := h r List.mem_cons_self
    obtain ⟨o, ho⟩ := ih fun x hx => h x (List.mem_cons_of_mem _ hx)
    exact ⟨t ++ o, by rw [formatRows, ht, ho]; rfl⟩

/-- C52, termination: with a description offset of two or more (the default is eight) the help output
is always produced, in colour or not. Missing from the full statement: an offset of one, and texts the decoder
mishandles. -/
theorem C52_produced_partial (line : Nat → Nat → Nat → Nat × Bytes × Bytes → Out Bytes)
    (hline : line = formatRow ∨ line = formatRowColour) (f : HelpFormat) (ho : 2 ≤ f.offset)
    (info : HelpInfo) (columns : Nat)
    (hc : columns < 2 ^ 64) (flatten : Bool) (target : Node) (ht : HelpTree target)
    (htext : ∀ n ∈ target.nodes, Text n.helpDescription) (D : Nat)
    (hD : descColumn f.indent 0 (staticHelp info flatten target) 0 = .ok D) (hD2 : D < 2 ^ 31) :
    ∃ out, generateHelp line f info columns flatten target = .ok out := by
  unfold generateHelp
  rw [hD]
  simp only [Out.ok_bind]
  have hrows : ∃ body, formatRows (line f.indent D (usedColumns f columns D))
      ((runtimeHelp info flatten target).flat 0) = .ok body := by
    refine formatRows_total fun row hrow => ?_
    obtain ⟨w, hw, hle⟩ :=
      (C51_column_right_of_labels info flatten target ht f.indent D hD).1 row hrow
    have hu := usedColumns_bounds (f := f) hc hD2
    have hdesc : Text row.2.2 := by
      rw [runtimeHelp, HelpRow.flat] at hrow
      rcases List.mem_cons.1 hrow with rfl | hrow
      · exact htext target (self_mem_nodes _)
      · by_cases hl : Listed flatten (target, []) = true
        · have hz := (runtimeRows_zip info flatten target ht [] hl).symm
          obtain ⟨x, hx, hr⟩ := hz.mem_right hrow
          rw [hr.2.2]
          refine htext x.1 ?_
          have hx2 := (List.mem_filter.1 hx).1
          unfold Node.nodes
          rw [walk_eq, List.map_cons]
          exact List.mem_cons_of_mem _ (List.mem_map_of_mem hx2)
        · simp [Listed] at hl
    obtain ⟨cs, hp, hcs⟩ := hdesc
    obtain ⟨k, l, d⟩ := row
    dsimp only at hw hle hcs
    have h2 : 2 ≤ usedColumns f columns D - D := by
      unfold usedColumns sizeMax
      split <;> omega
    obtain ⟨ls, hls⟩ := C47_terminates_two_columns_partial cs hp _ h2
    rcases hline with rfl | rfl
    all_goals
      first | unfold formatRow | unfold formatRowColour
      dsimp only
      split
      · exact ⟨_, rfl⟩
      · split
        · exact ⟨_, rfl⟩
        · rw [hw, sizeSub_eq hu.1 hu.2]
          simp only [Out.ok_bind]
          rw [hcs, hls]
          exact ⟨_, rfl⟩
  obtain ⟨body, hb⟩ := hrows
  rw [hb]
  exact ⟨_, rfl⟩

example : HelpTree hRoot ∧ (∀ n ∈ hRoot.nodes, Text n.helpDescription) ∧
    descColumn 4 0 (staticHelp hInfo false hRoot) 0 = .ok 23 := by
  refine ⟨hRoot_tree, ?_, by decide +kernel⟩
  have h : ∀ n ∈ hRoot.nodes, n.helpDescription ∈ [[], b "Show this text", b "Name of the 猫",
      b "Not shown", b "Adds one", b "First", b "Second"] := by decide +kernel
  intro n hn
  have := h n hn
  simp only [List.mem_cons, List.not_mem_nil, or_false] at this
  rcases this with h | h | h | h | h | h | h <;> rw [h]
  · exact ⟨[], by decide, rfl⟩
  · exact ⟨"Show this text".toList, by decide +kernel, by decide +kernel⟩
  · exact ⟨"Name of the 猫".toList, by decide +kernel, by decide +kernel⟩
  · exact ⟨"Not shown".toList, by decide +kernel, by decide +kernel⟩
  · exact ⟨"Adds one".toList, by decide +kernel, by decide +kernel⟩
  · exact ⟨"First".toList, by decide +kernel, by decide +kernel⟩
  · exact ⟨"Second".toList, by decide +kernel, by decide +kernel⟩

/-- C52 is false for a description offset of one: if only one column remains for the descriptions, a
character that needs two columns is never printed and the output never ends. -/
theorem C52_false :
    generateHelp formatRow { hFormat with offset := 1 } hInfo 11 true
      (.mk .mode 1 110 strT [.noneName (b "猫猫猫"), .description (b "猫"), .router] []) = .diverge := by
  decide +kernel

/-! ## The help target -/

theorem startsWith_prefix (p s : Bytes) : startsWith p s = true ↔ p <+: s := by
  unfold startsWith
  rw [beq_iff_eq, List.prefix_iff_eq_take]
  exact eq_comm

theorem matches_iff {cfg : Config} {c : Node} (h : Nameable cfg c) (name : Bytes) :
    c.matchToken (c.getToken cfg name) = true ↔ Selects cfg c name := by
  obtain ⟨hn, hs⟩ := h
  have hdrop : ∀ p l : Bytes, p <+: name → (name.drop p.length = l ↔ name = p ++ l) := by
    rintro p l ⟨t, rfl⟩
    rw [List.drop_left]
    simp [eq_comm]
  unfold Node.matchToken Node.getToken getTokenTypeNode Selects
  by_cases h1 : (c.longName.isSome && startsWith cfg.longPrefix name) = true
  · rw [if_pos h1]
    rw [Bool.and_eq_true, startsWith_prefix] at h1
    obtain ⟨l, hl⟩ := Option.isSome_iff_exists.1 h1.1
    have hnn : c.noneName = none := by
      cases hh : c.noneName with
      | none => rfl
      | some x => have := (hn (by rw [hh]; rfl)).1; rw [this] at hl; simp at hl
    simp only [beq_self_eq_true, Bool.true_and, hl, Option.some.injEq, hnn]
    have e1 : (Prefix.long == Prefix.short) = false := by decide
    have e2 : (Prefix.long == Prefix.none) = false := by decide
    simp only [e1, e2, Bool.false_and, Bool.or_false, beq_iff_eq, Option.some.injEq,
      reduceCtorEq, or_false, exists_eq_left']
    constructor
    · intro he; exact .inl ((hdrop _ _ h1.2).1 he.symm)
    · rintro (he | ⟨s, hs', he⟩)
      · exact ((hdrop _ _ h1.2).2 he).symm
      · exact absurd (he ▸ h1.2) (hs s hs')
  · rw [if_neg h1]
    have h1' : ∀ l, c.longName = some l → ¬ cfg.longPrefix <+: name := by
      intro l hl hp
      exact h1 (by rw [hl, (startsWith_prefix _ _).2 hp]; rfl)
    have hlong : ¬ ∃ l, c.longName = some l ∧ name = cfg.longPrefix ++ l := by
      rintro ⟨l, hl, he⟩
      exact h1' l hl (he ▸ List.prefix_append _ _)
    by_cases h2 : (c.shortName.isSome && (startsWith cfg.shortPrefix name &&
        !startsWith cfg.longPrefix name)) = true
    · rw [if_pos h2]
      simp only [Bool.and_eq_true, startsWith_prefix] at h2
      obtain ⟨s, hss⟩ := Option.isSome_iff_exists.1 h2.1
      have hnn : c.noneName = none := by
        cases hh : c.noneName with
        | none => rfl
        | some x => have := (hn (by rw [hh]; rfl)).2; rw [this] at hss; simp at hss
      have e1 : (Prefix.short == Prefix.long) = false := by decide
      have e2 : (Prefix.short == Prefix.none) = false := by decide
      simp only [e1, e2, Bool.false_and, Bool.false_or, Bool.or_false, beq_self_eq_true,
        Bool.true_and, hss, beq_iff_eq, Option.some.injEq, hnn, reduceCtorEq, or_false,
        exists_eq_left', hlong, false_or]
      rw [eq_comm]
      exact hdrop _ _ h2.2.1
    · rw [if_neg h2]
      have hshort : ¬ ∃ s, c.shortName = some s ∧ name = cfg.shortPrefix ++ s := by
        rintro ⟨s, hss, he⟩
        refine h2 ?_
        rw [hss, (startsWith_prefix _ _).2 (he ▸ List.prefix_append _ _)]
        have : startsWith cfg.longPrefix name = false := by
          cases hq : startsWith cfg.longPrefix name with
          | false => rfl
          | true => exact absurd (he ▸ (startsWith_prefix _ _).1 hq) (hs s hss)
        rw [this]; rfl
      have e1 : (Prefix.none == Prefix.long) = false := by decide
      have e2 : (Prefix.none == Prefix.short) = false := by decide
      simp only [e1, e2, Bool.false_and, Bool.false_or, beq_self_eq_true, Bool.true_and,
        beq_iff_eq, hlong, hshort, false_or]

/-- The first child a name selects. -/
theorem find_selects {cfg : Config} {cs : List Node} (h : ∀ c ∈ cs, Nameable cfg c) (name : Bytes) :
    (∃ c pre post, cs.find? (fun c => c.matchToken (c.getToken cfg name)) = some c ∧
      cs = pre ++ c :: post ∧ Selects cfg c name ∧ ∀ x ∈ pre, ¬ Selects cfg x name) ∨
    (cs.find? (fun c => c.matchToken (c.getToken cfg name)) = none ∧
      ∀ c ∈ cs, ¬ Selects cfg c name) := by
  induction cs with
  | nil => exact .inr ⟨rfl, by simp⟩
  | cons c cs ih =>
    have hc := matches_iff (h c List.mem_cons_self) name
    rw [List.find?_cons]
    cases hm : c.matchToken (c.getToken cfg name) with
    | true => exact .inl ⟨c, [], cs, rfl, rfl, hc.1 hm, by simp⟩
    | false =>
      have hns : ¬ Selects cfg c name := fun hs => by rw [hc.2 hs] at hm; simp at hm
      rcases ih fun x hx => h x (List.mem_cons_of_mem _ hx) with
        ⟨d, pre, post, h1, rfl, h3, h4⟩ | ⟨h1, h2⟩
      · refine .inl ⟨d, c :: pre, post, h1, rfl, h3, fun x hx => ?_⟩
        rcases List.mem_cons.1 hx with rfl | hx
        · exact hns
        · exact h4 x hx
      · refine .inr ⟨h1, fun x hx => ?_⟩
        rcases List.mem_cons.1 hx with rfl | hx
        · exact hns
        · exact h2 x hx

/-- What looking up a help target can result in. -/
inductive Lookup (cfg : Config) (root : Node) (tokens : List Token) : Out Node → Prop where
  /-- all names could be followed to an enabled node -/
  | found {m} : Follows cfg root (tokens.map (·.name)) m → SwitchedOff m = false →
      Lookup cfg root tokens (.ok m)
  /-- the names before `t` lead to a node that is disabled or has no child `t` could select -/
  | unknown {pre t post m} : tokens = pre ++ t :: post → Follows cfg root (pre.map (·.name)) m →
      (SwitchedOff m = true ∨ ∀ c ∈ m.children, ¬ Selects cfg c t.name) →
      Lookup cfg root tokens (.throw ⟨.unknown_argument, [t]⟩)
  /-- all names could be followed to a disabled node -/
  | crash {m} : Follows cfg root (tokens.map (·.name)) m → SwitchedOff m = true →
      Lookup cfg root tokens .ub

/-- C53, exactly what the code does: following the names leads to an enabled node, which is the help
target; or the first name that cannot be followed is reported as unknown; or all names lead to a
disabled node, and then the behaviour is undefined. -/
theorem C53_exact (cfg : Config) (root : Node) (h : ∀ c ∈ root.nodes, Nameable cfg c)
    (tokens : List Token) : Lookup cfg root tokens (findHelpTarget cfg tokens root) := by
  induction tokens generalizing root with
  | nil =>
    rw [findHelpTarget]
    by_cases hoff : (root.runtimeEnabled == some false) = true
    · rw [if_pos hoff]; exact .crash .here hoff
    · rw [if_neg hoff]; exact .found .here (by simpa [SwitchedOff] using hoff)
  | cons t ts ih =>
    rw [findHelpTarget]
    by_cases hoff : (root.runtimeEnabled == some false) = true
    · rw [if_pos hoff]; exact .unknown (pre := []) rfl .here (.inl hoff)
    · rw [if_neg hoff]
      have hoff' : SwitchedOff root = false := by simpa [SwitchedOff] using hoff
      have hch : ∀ c ∈ root.children, Nameable cfg c := fun c hc =>
        h c (child_mem_nodes hc c (self_mem_nodes c))
      rcases find_selects hch t.name with ⟨c, pre, post, h1, h2, h3, h4⟩ | ⟨h1, h2⟩
      · rw [h1]
        dsimp only
        have hc : c ∈ root.children := by rw [h2]; simp
        have hl := ih c fun d hd => h d (child_mem_nodes hc d hd)
        generalize hg : findHelpTarget cfg ts c = g at hl
        cases hl with
        | found hf ho => exact .found (.down hoff' h2 h3 h4 hf) ho
        | @unknown pre' t' post' m he hf ho =>
          exact .unknown (pre := t :: pre') (post := post') (by rw [he]; rfl)
            (.down hoff' h2 h3 h4 hf) ho
        | crash hf ho => exact .crash (.down hoff' h2 h3 h4 hf) ho
      · rw [h1]
        exact .unknown (pre := []) rfl .here (.inr h2)

/-- C53, the true part: if nothing is disabled at run time, the names either lead to a node, which is
the help target, or the first name that cannot be followed is reported as unknown; nothing else can
happen. Missing from the full statement: targets that are disabled (see `C53_false`). -/
theorem C53_target_partial (cfg : Config) (root : Node) (h : ∀ c ∈ root.nodes, Nameable cfg c)
    (hon : ∀ c ∈ root.nodes, SwitchedOff c = false) (tokens : List Token) :
    (∃ m, findHelpTarget cfg tokens root = .ok m ∧ Follows cfg root (tokens.map (·.name)) m) ∨
    ∃ pre t post m, tokens = pre ++ t :: post ∧ Follows cfg root (pre.map (·.name)) m ∧
      (∀ c ∈ m.children, ¬ Selects cfg c t.name) ∧
      findHelpTarget cfg tokens root = .throw ⟨.unknown_argument, [t]⟩ := by
  have hmem : ∀ {n m names}, Follows cfg n names m → n ∈ root.nodes → m ∈ root.nodes := by
    intro n m names hf
    induction hf with
    | here => exact id
    | @down n c m pre post name names h1 h2 _ _ _ ih =>
      intro hn
      exact ih (nodes_trans _ _ hn _ (child_mem_nodes (by rw [h2]; simp) _ (self_mem_nodes _)))
  have hl := C53_exact cfg root h tokens
  generalize findHelpTarget cfg tokens root = g at hl
  cases hl with
  | found hf _ => exact .inl ⟨_, rfl, hf⟩
  | @unknown pre t post m he hf ho =>
    refine .inr ⟨pre, t, post, m, he, hf, ?_, rfl⟩
    rcases ho with ho | ho
    · rw [hon m (hmem hf (self_mem_nodes _))] at ho; simp at ho
    · exact ho
  | crash hf ho => rw [hon _ (hmem hf (self_mem_nodes _))] at ho; simp at ho

/-- A test for the names being distinguishable, for the examples. -/
def nameableB (cfg : Config) (c : Node) : Bool :=
  (c.noneName.isNone || (c.longName.isNone && c.shortName.isNone)) &&
  match c.shortName with
  | none => true
  | some s => !startsWith cfg.longPrefix (cfg.shortPrefix ++ s)

theorem nameable_of_test {cfg : Config} {c : Node} (h : nameableB cfg c = true) : Nameable cfg c := by
  unfold nameableB at h
  rw [Bool.and_eq_true] at h
  refine ⟨fun hn => ?_, fun s hs hp => ?_⟩
  · rcases Bool.or_eq_true _ _ ▸ h.1 with h1 | h1
    · rw [Option.isNone_iff_eq_none] at h1; rw [h1] at hn; simp at hn
    · simpa using h1
  · have h2 := h.2
    rw [hs] at h2
    simp only [Bool.not_eq_true'] at h2
    rw [(startsWith_prefix _ _).2 hp] at h2
    simp at h2

theorem hRoot_nameable : ∀ c ∈ hRoot.nodes, Nameable .default c := by
  have h : hRoot.nodes.all (nameableB .default) = true := by decide +kernel
  exact fun c hc => nameable_of_test (List.all_eq_true.1 h c hc)

/-- C53 is false. Asking for the help of a disabled argument is undefined behaviour; and if a further
name follows a disabled one, the error names that instead. -/
theorem C53_false :
    findHelpTarget .default [⟨.none, b "add"⟩, ⟨.none, b "--hidden"⟩] hRoot = .ub ∧
    findHelpTarget .default [⟨.none, b "add"⟩, ⟨.none, b "--hidden"⟩, ⟨.none, b "x"⟩] hRoot =
      .throw ⟨.unknown_argument, [⟨.none, b "x"⟩]⟩ := by
  constructor <;> rfl

/-! ## What is listed -/

/-- C54. The rows of the run-time help data are, one for one and in declaration order, the target and
those nodes below it that are enabled, not below a disabled node, and not inside a named mode unless
the output is flattened. Each row carries its node's label and description. -/
theorem C54_rows (info : HelpInfo) (flatten : Bool) (target : Node) (ht : HelpTree target) :
    Zip (RowOf info) ((runtimeHelp info flatten target).flat 0)
      ((target.walk []).filter (Listed flatten)) := by
  have hl : Listed flatten (target, []) = true := by simp [Listed]
  rw [runtimeHelp, HelpRow.flat, walk_eq, List.filter_cons, if_pos hl]
  exact .cons ⟨rfl, .inl rfl, rfl⟩ (runtimeRows_zip info flatten target ht [] hl)

/-- In the example: the contents of the named mode are left out, those of the anonymous one are not. -/
example : ((hRoot.walk []).filter (Listed false)).map (·.1.uid) = [9, 1, 4, 8, 7, 5, 6] := by
  decide +kernel
example : ((hAdd.walk []).filter (Listed true)).map (·.1.uid) = [4, 2] := by decide +kernel

end ArgRouter.Props
