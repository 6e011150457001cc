import Verif.Props.Page

/-!
# C98: the help page in colour
-/

namespace ArgRouter.Props
open ArgRouter Utf8 Spec

/-- The lines of a page, one after another, between heading and closing. -/
theorem page_lines {line : Nat → Nat → Nat → Nat × Bytes × Bytes → Out Bytes}
    {write : Nat → Nat → HelpLine → Bytes → Prop} {hidden : Node → Bool} {Num : Int → Bytes → Prop}
    {f : HelpFormat} {info : HelpInfo} {width D : Nat} {flatten : Bool} {target : Node}
    {rows : List (Nat × Bytes × Bytes)} {body : Bytes}
    (hrows : rows = (helpLines hidden flatten target).map (rowAt info))
    (hb : formatRows (line f.indent D (usedColumns f width D)) rows = .ok body)
    (hcol : IsColumn Num info f.indent flatten target D)
    (hline : ∀ l ∈ helpLines hidden flatten target, ∀ text,
      line f.indent D (usedColumns f width D) (rowAt info l) = .ok text →
        write D (usedColumns f width D - D) l text) :
    PageOf write hidden Num f info width flatten target (preamble f ++ body ++ addendumText f) := by
  obtain ⟨texts, rfl, hz⟩ := formatRows_zip hb
  rw [hrows] at hz
  exact ⟨D, _, texts, _, rfl, preamble_heading f, addendum_closing f, hcol,
    zip_from_map hz fun l hl text ht => hline l hl text ht⟩

/-- `std::setw` in front of a space writes at least that space. -/
theorem setwSpace_max {n : Nat} (h : n < 2 ^ 31) : setwSpace n = blanks (max 1 n) := by
  unfold setwSpace blanks spaces
  rw [Nat.mod_eq_of_lt (by omega)]
  simp only []
  rw [if_pos h]

theorem codes : red = b "\x1b[31m" ∧ green = b "\x1b[32m" ∧ [10] ++ resetColour = b "\n\x1b[0m" := by
  decide +kernel

/-- The text of one line in colour. -/
theorem colour_line {Num : Int → Bytes → Prop} {info : HelpInfo} {ind D columns : Nat} {l : HelpLine}
    (hi : 1 ≤ ind) (hD : D < 2 ^ 31) (hc : D ≤ columns) (hc2 : columns < 2 ^ 64)
    (hl : LabelText Num info l.node (l.node.helpLabel info))
    (hw : ∃ w, terminalWidth (rowAt info l).2.1 = .ok w ∧ l.depth * ind + w + ind ≤ D) {text : Bytes}
    (h : formatRowColour ind D columns (rowAt info l) = .ok text) :
    ColourText 1 Num info ind D (columns - D) l text := by
  have hd := described_as l.node
  obtain ⟨w, hw, hle⟩ := hw
  obtain ⟨c1, c2, c3⟩ := codes
  unfold formatRowColour rowAt at h
  dsimp only at h
  by_cases hne : l.bar ++ l.node.helpLabel info = []
  · rw [if_pos (by rw [hne]; rfl)] at h
    injection h with h
    subst h
    rw [List.append_eq_nil_iff] at hne
    rw [hne.2] at hl
    exact .unlabelled hl hne.1
  · rw [if_neg (by simpa using hne)] at h
    by_cases he : l.node.helpDescription = []
    · rw [if_pos (by rw [he]; rfl)] at h
      injection h with h
      rw [he] at hd
      rw [setwSpace_max (by omega), c1, List.append_assoc _ [10], c3, ← List.append_assoc _ l.bar] at h
      rw [← h]
      exact .label hl hne hd
    · rw [if_neg (by simpa using he)] at h
      simp only [rowAt] at hw
      rw [hw] at h
      simp only [Out.ok_bind] at h
      rw [sizeSub_eq hc hc2, sizeSub_eq (a := D) (c := l.depth * ind) (by omega) (by omega),
        sizeSub_eq (by omega) (by omega)] at h
      cases hls : lines l.node.helpDescription (columns - D) with
      | ok ls =>
        rw [hls] at h
        simp only [Out.ok_bind] at h
        injection h with h
        rw [setwSpace_max (by omega), setwSpace_eq (n := D - _ - _) (by omega) (by omega),
          setwSpace_eq (n := D) (by omega) (by omega), joinLines_eq, c1, c2, List.append_assoc _ [10],
          c3, ← List.append_assoc _ l.bar] at h
        rw [← h]
        exact .described hl hne hd he hw (by omega) (by omega) (lines_wrapped hls)
      | _ => rw [hls] at h; simp at h

theorem runtime_rows_lines {info : HelpInfo} {flatten : Bool} {target : Node} (ht : HelpTree target) :
    (runtimeHelp info flatten target).flat 0 =
      (helpLines SwitchedOff flatten target).map (rowAt info) := by
  rw [runtimeHelp, HelpRow.flat, runtimeRows_lines info flatten target ht 1]
  rfl

theorem colour_page_of {Num : Int → Bytes → Prop} (f : HelpFormat) (hi : 1 ≤ f.indent) (info : HelpInfo)
    (width : Nat) (hc : width < 2 ^ 64) (flatten : Bool) (target : Node) (ht : HelpTree target)
    (hl : ∀ n ∈ target.nodes, LabelText Num info n (n.helpLabel info))
    (hsmall : ∀ D, descColumn f.indent 0 (staticHelp info flatten target) 0 = .ok D →
      IsColumn Num info f.indent flatten target D → D < 2 ^ 31) (out : Bytes)
    (h : generateHelp formatRowColour f info width flatten target = .ok out) :
    ColourPage Num f info width flatten target out := by
  unfold generateHelp at h
  cases hD : descColumn f.indent 0 (staticHelp info flatten target) 0 with
  | ok D =>
    have hcol := column_of ht hl hD
    have hD2 := hsmall D hD hcol
    rw [hD] at h
    simp only [Out.ok_bind] at h
    cases hb : formatRows (formatRowColour f.indent D (usedColumns f width D))
        ((runtimeHelp info flatten target).flat 0) with
    | ok body =>
      rw [hb] at h
      simp only [Out.ok_bind] at h
      injection h with h
      rw [← h]
      refine page_lines (runtime_rows_lines ht) hb hcol fun l hm text htext => ?_
      have hu := usedColumns_bounds (f := f) hc hD2
      refine colour_line hi hD2 hu.1 hu.2 (hl _ (helpLines_nodes _ _ _ l hm)) ?_ htext
      exact (C51_column_right_of_labels info flatten target ht f.indent D hD).1 (rowAt info l)
        (by rw [runtime_rows_lines ht]; exact List.mem_map_of_mem hm)
    | _ => rw [hb] at h; simp at h
  | _ => rw [hD] at h; simp at h

/-- C98 with the colour formatter: the text of a help page is that of the default formatter with codes for
colours, but for a space in front of a label that is not indented. Missing from the full statement: as in
`C98_page_partial`. `f.indent` is positive in every program (colour_help_formatter.hpp:22). -/
theorem C98_colour_partial (f : HelpFormat) (hi : 1 ≤ f.indent) (info : HelpInfo) (width : Nat)
    (hc : width < 2 ^ 64) (flatten : Bool) (target : Node) (ht : HelpTree target)
    (hl : ∀ n ∈ target.nodes, Labelled n)
    (hsmall : ∀ D, IsColumn Kept info f.indent flatten target D → D < 2 ^ 31) (out : Bytes)
    (h : generateHelp formatRowColour f info width flatten target = .ok out) :
    ColourPage Kept f info width flatten target out :=
  colour_page_of f hi info width hc flatten target ht (fun n hn => C82_exact info n (hl n hn))
    (fun D _ hD => hsmall D hD) out h

theorem program_colour_page {fmt : Node → Formatter} {info : HelpInfo} {columns depth : Nat} {tree : Node}
    (hc : compiles info.cfg depth defaultRules (program fmt info columns tree) = true)
    {f : HelpFormat} (hi : 1 ≤ f.indent) (hh : Helpful f info tree) (hcol : columns < 2 ^ 64) {m : Node}
    (hm : m ∈ tree.nodes) {flatten : Bool} {text : Bytes}
    (h : generateHelp formatRowColour f info columns flatten m = .ok text) :
    ColourPage Kept f info columns flatten m text :=
  colour_page_of f hi info columns hcol flatten m (helpTree_below (program_parts hc).1 hm)
    (fun n hn => C82_exact info n (program_labelled hc (nodes_trans _ _ hm _ hn)))
    (fun _ hD _ => descColumn_bound _ _ _ _ _ _ hD (by omega) (hh.labels m hm flatten)) _ h

/-- C98, programs whose help node has the colour formatter: as `C98_shown_partial`. -/
theorem C98_colour_shown_partial (fmt : Node → Formatter) (info : HelpInfo) (columns depth : Nat)
    (tree h : Node) (hc : compiles info.cfg depth defaultRules (program fmt info columns tree) = true)
    (before after : List Node) (htree : tree.children = before ++ h :: after)
    (hk : h.kind = .help) (hcount : MatchPolicies h [.minMaxCount 0 sizeMax]) (label : Bytes)
    (hlabel : Spelled info.cfg h label) (names : List Bytes) (hlen : names.length + 1 < 2 ^ 63)
    (s s1 : St) (hdec : Declined info.cfg (program fmt info columns tree)
      ((label :: names).map (Token.mk .none))
      ((program fmt info columns tree).children.take before.length) s s1)
    (hline : (fmt h).line = formatRowColour) (hi : 1 ≤ (fmt h).format.indent)
    (hh : Helpful (fmt h).format info tree) (hcol : columns < 2 ^ 64)
    (hon : ∀ m, Follows info.cfg tree names m → SwitchedOff m = false) :
    (∃ m text, Follows info.cfg tree names m ∧
      ColourPage Kept (fmt h).format info columns ((fmt h).format.flattenHelp || m.kind != .root) m text ∧
      parseArgs info.cfg (program fmt info columns tree) (label :: names) s =
        (.ok (), { s1 with calls := s.calls ++ [⟨h.uid, [.one (.str text)]⟩] })) ∨
    ∃ pre name post m, names = pre ++ name :: post ∧ Follows info.cfg tree pre m ∧
      (SwitchedOff m = true ∨ ∀ c ∈ m.children, ¬ Selects info.cfg c name) ∧
      parseArgs info.cfg (program fmt info columns tree) (label :: names) s =
        (.throw ⟨.unknown_argument, [⟨.none, name⟩]⟩, s1) ∧ s1.calls = s.calls := by
  rcases C83_partial fmt info columns depth tree h hc before after htree hk hcount label hlabel names
      hlen s s1 hdec (.inr hline) hh hcol hon with ⟨m, text, h1, h2, h3⟩ | h
  · rw [hline] at h2
    exact .inl ⟨m, text, h1, program_colour_page hc hi hh hcol (follows_mem h1) h2, h3⟩
  · exact .inr h

/-- C98, `root.help()` of such a program. -/
theorem C98_colour_root_partial (fmt : Node → Formatter) (info : HelpInfo) (columns depth : Nat)
    (tree h : Node) (hc : compiles info.cfg depth defaultRules (program fmt info columns tree) = true)
    (before after : List Node) (htree : tree.children = before ++ h :: after)
    (hfirst : ∀ c ∈ before, c.kind ≠ .help) (hk : h.kind = .help)
    (hline : (fmt h).line = formatRowColour) (hi : 1 ≤ (fmt h).format.indent)
    (hh : Helpful (fmt h).format info tree) (hcol : columns < 2 ^ 64) :
    ∃ text, rootHelp fmt info columns tree = .ok text ∧
      ColourPage Kept (fmt h).format info columns (fmt h).format.flattenHelp tree text := by
  have hfind : tree.children.find? (fun c => c.kind == .help) = some h := by
    rw [htree, List.find?_append, List.find?_eq_none.2 (by simpa using hfirst)]
    simp [hk]
  obtain ⟨text, ht⟩ := helpful_output (.inr hline) hh (program_parts hc).1 (self_mem_nodes tree) hcol
    (fmt h).format.flattenHelp
  refine ⟨text, ?_, ?_⟩
  · unfold rootHelp
    rw [hfind]
    exact ht
  · rw [hline] at ht
    exact program_colour_page hc hi hh hcol (self_mem_nodes tree) ht

open AskHelpEx in
/-- The formatter of the example below. -/
def colouredEx : Node → Formatter := fun n => ⟨formatRowColour, (formats n).format⟩

open AskHelpEx in
/-- The hypotheses are met by the program of C83 with the colour formatter. -/
example : ∃ text, rootHelp colouredEx info 80 tree = .ok text ∧
    ColourPage Kept (colouredEx ask).format info 80 false tree text :=
  C98_colour_root_partial colouredEx info 80 100 tree ask (by decide +kernel) [run []] [] rfl
    (by decide +kernel) rfl rfl (by decide) (tree_helpful ask) (by decide)

open AskHelpEx in
example : rootHelp colouredEx info 80 tree = .ok (b "prog\n\n" ++
    b "\x1b[31m    run\x1b[32m          Runs\n\x1b[0m" ++
    b "\x1b[31m    --help,-h\x1b[32m    Show this text\n\x1b[0m") := by
  decide +kernel

end ArgRouter.Props
