import Verif.Help.Static
import Verif.Props.ColourPage

/-!
# C104: help at compile time
-/

namespace ArgRouter.Props
open ArgRouter Utf8 Spec

/-! ## Lines and rows -/

theorem barsStatic_eq (rs : List HelpRow) (h : 2 ≤ rs.length) :
    barsStatic rs = rs.mapIdx fun i r => prefixStatic (barAt rs.length i) r := by
  match rs, h with
  | r :: s :: rs, _ =>
    apply List.ext_getElem
    · simp [barsStatic]
    · intro i h1 h2
      simp only [barsStatic, List.length_mapIdx, List.length_cons] at h1 h2
      rw [List.getElem_mapIdx]
      simp only [barsStatic, List.getElem_append]
      split
      · rename_i hlt
        rw [List.length_dropLast] at hlt
        simp only [List.length_cons, List.length_map] at hlt
        rw [List.getElem_dropLast]
        cases i with
        | zero => simp [barAt, topBar]
        | succ i =>
          simp only [List.getElem_cons_succ, List.getElem_map, List.length_cons]
          rw [show barAt (rs.length + 1 + 1) (i + 1) = middleBar by
            simp [barAt, middleBar]; omega]
      · rename_i hlt
        rw [List.length_dropLast] at hlt
        simp only [List.length_cons, List.length_map] at hlt
        have hi : i = rs.length + 1 := by omega
        subst hi
        simp only [List.getElem_singleton, List.length_cons]
        rw [show barAt (rs.length + 1 + 1) (rs.length + 1) = bottomBar by simp [barAt, bottomBar],
          List.getLast_eq_getElem]
        rfl

/-- Every group has two members or more. -/
def _root_.ArgRouter.Spec.RealGroups (t : Node) : Prop :=
  ∀ n ∈ t.nodes, IsGroup n → 2 ≤ n.children.length

theorem realGroups_child {n c : Node} (h : RealGroups n) (hc : c ∈ n.children) : RealGroups c :=
  fun m hm => h m (child_mem_nodes hc m hm)

theorem group_static_rows (info : HelpInfo) (n : Node) (hr : RealGroups n) (hg : IsGroup n)
    (f : Bool) (d : Nat) :
    HelpRow.flatList d (barsStatic (staticHelps info f n.children)) =
      (linesBelow (fun _ => false) f d n).map (rowAt info) := by
  have hf : (n.children.filter fun _ => !false) = n.children := by
    rw [List.filter_eq_self]; intros; rfl
  rw [linesBelow_group _ _ _ _ hg, hf, staticHelps_eq, barsStatic_eq _ (by
    rw [List.length_map]; exact hr n (self_mem_nodes n) hg), List.length_map]
  rw [flatList_leaf_rows]
  · apply List.ext_getElem
    · simp
    · intro i h1 h2
      simp [prefixStatic, rowAt, HelpLine.bar, staticHelp_eq]
  · intro r hr
    obtain ⟨i, hi, rfl⟩ := List.mem_mapIdx.1 hr
    simp [prefixStatic, staticHelp_eq]

mutual
theorem static_rows (info : HelpInfo) (f : Bool) : ∀ (n : Node), HelpTree n → RealGroups n → ∀ d,
    HelpRow.flatList d (staticKids info f n) = (linesBelow (fun _ => false) f d n).map (rowAt info)
  | .mk k u h v p cs, ht, hr, d => by
    have hch : ∀ c ∈ cs, HelpTree c := fun c hc => ht.child (c := c) hc
    have hrc : ∀ c ∈ cs, RealGroups c := fun c hc => realGroups_child (c := c) hr hc
    have hleaf : Runnable (.mk k u h v p cs) = true → cs = [] := ht.leaf _ (self_mem_nodes _)
    have hkids := statics_rows info f cs hch hrc d
    cases k with
    | root =>
      rw [linesBelow_open _ _ _ _ (by simp [IsGroup, Node.kind])]
      simp only [staticKids, staticHelp]
      rw [if_neg (by simp [Closed, Node.kind])]
      exact hkids
    | mode =>
      rw [linesBelow_open _ _ _ _ (by simp [IsGroup, Node.kind])]
      simp only [staticKids, staticHelp]
      by_cases ha : (Node.mk .mode u h v p cs).isAnonymous = true
      · simp only [ha, Bool.true_or, if_true]
        rw [if_neg (by simp [Closed, ha])]
        exact hkids
      · simp only [ha, Bool.false_or]
        cases f with
        | true => rw [if_pos rfl, if_neg (by simp [Closed])]; exact hkids
        | false => rw [if_neg (by simp), if_pos (by simp [Closed, ha, Node.kind])]; rfl
    | aliasGroup => simp only [staticKids, staticHelp]; exact group_static_rows info _ hr (.inl rfl) f d
    | oneOf => simp only [staticKids, staticHelp]; exact group_static_rows info _ hr (.inr rfl) f d
    | _ =>
      have := hleaf rfl
      subst this
      rw [linesBelow_open _ _ _ _ (by simp [IsGroup, Node.kind])]
      simp [staticKids, staticHelp, HelpRow.flatList, Node.children, linesOf]
theorem statics_rows (info : HelpInfo) (f : Bool) : ∀ (cs : List Node),
    (∀ c ∈ cs, HelpTree c) → (∀ c ∈ cs, RealGroups c) → ∀ d,
    HelpRow.flatList d (staticHelps info f cs) = (linesOf (fun _ => false) f d cs).map (rowAt info)
  | [], _, _, d => by simp [staticHelps, HelpRow.flatList, linesOf]
  | c :: cs, h, hr, d => by
    have ih := statics_rows info f cs (fun x hx => h x (List.mem_cons_of_mem _ hx))
      (fun x hx => hr x (List.mem_cons_of_mem _ hx)) d
    have hc := static_rows info f c (h c List.mem_cons_self) (hr c List.mem_cons_self) (d + 1)
    rw [staticHelps, HelpRow.flatList, linesOf, if_neg (by simp), staticHelp_eq, HelpRow.flat, ih, hc]
    simp [rowAt, HelpLine.bar]
end

theorem static_rows_lines {info : HelpInfo} {flatten : Bool} {target : Node} (ht : HelpTree target)
    (hr : RealGroups target) : (staticHelp info flatten target).flat 0 =
      (helpLines (fun _ => false) flatten target).map (rowAt info) := by
  rw [staticHelp_eq, HelpRow.flat, static_rows info flatten target ht hr 1]
  simp [helpLines, rowAt, HelpLine.bar]

mutual
theorem linesBelow_on (f : Bool) : ∀ (n : Node),
    (∀ c ∈ n.children, ∀ m ∈ c.nodes, SwitchedOff m = false) → ∀ d,
    linesBelow SwitchedOff f d n = linesBelow (fun _ => false) f d n
  | .mk k u h v p cs, hon, d => by
    by_cases hg : IsGroup (.mk k u h v p cs)
    · have e : ((Node.mk k u h v p cs).children.filter fun c => !SwitchedOff c) =
          (Node.mk k u h v p cs).children.filter fun _ => !false :=
        List.filter_congr fun c hc => by rw [hon c hc c (self_mem_nodes c)]
      rw [linesBelow_group _ _ _ _ hg, linesBelow_group _ _ _ _ hg, e]
    · rw [linesBelow_open _ _ _ _ hg, linesBelow_open _ _ _ _ hg]
      show (if _ then [] else linesOf SwitchedOff f d cs) = if _ then [] else linesOf (fun _ => false) f d cs
      rw [linesOf_on f cs hon d]
theorem linesOf_on (f : Bool) : ∀ (cs : List Node),
    (∀ c ∈ cs, ∀ m ∈ c.nodes, SwitchedOff m = false) → ∀ d,
    linesOf SwitchedOff f d cs = linesOf (fun _ => false) f d cs
  | [], _, d => by simp [linesOf]
  | c :: cs, hon, d => by
    rw [linesOf, linesOf, hon c List.mem_cons_self c (self_mem_nodes c),
      linesBelow_on f c (fun x hx m hm => hon c List.mem_cons_self m (child_mem_nodes hx m hm)) (d + 1),
      linesOf_on f cs (fun x hx => hon x (List.mem_cons_of_mem _ hx)) d]
end

theorem formatRows_congr {f g : Nat × Bytes × Bytes → Out Bytes} {rows : List (Nat × Bytes × Bytes)}
    (h : ∀ r ∈ rows, f r = g r) : formatRows f rows = formatRows g rows := by
  induction rows with
  | nil => rfl
  | cons r rs ih =>
    rw [formatRows, formatRows, h r List.mem_cons_self, ih fun x hx => h x (List.mem_cons_of_mem _ hx)]

theorem usedColumns_bounds' {f : HelpFormat} {columns D : Nat} (hc : columns < 2 ^ 64)
    (hD : D < 2 ^ 64) : D ≤ usedColumns f columns D ∧ usedColumns f columns D < 2 ^ 64 := by
  unfold usedColumns sizeMax
  split <;> constructor <;> omega

/-! ## The page -/

/-- The text of one line. -/
theorem static_line {Num : Int → Bytes → Prop} {info : HelpInfo} {ind D columns : Nat} {l : HelpLine}
    (hc : D ≤ columns) (hc2 : columns < 2 ^ 64)
    (hl : LabelText Num info l.node (l.node.helpLabel info))
    (hw : ∃ w, terminalWidth (rowAt info l).2.1 = .ok w ∧ l.depth * ind + w + ind ≤ D) {text : Bytes}
    (h : formatRowStatic ind D columns (rowAt info l) = .ok text) :
    LineText Num info ind D (columns - D) l text := by
  have hd := described_as l.node
  have hnl : [10] = b "\n" := by decide +kernel
  obtain ⟨w, hw, hle⟩ := hw
  unfold formatRowStatic rowAt at h
  dsimp only at h
  by_cases hne : l.bar ++ l.node.helpLabel info = []
  · rw [if_pos (by rw [hne]; rfl)] at h
    injection h with h
    subst h
    rw [List.append_eq_nil_iff] at hne
    rw [hne.2] at hl
    exact .unlabelled hl hne.1
  · rw [if_neg (by simpa using hne)] at h
    by_cases he : l.node.helpDescription = []
    · rw [if_pos (by rw [he]; rfl)] at h
      injection h with h
      rw [he] at hd
      rw [← List.append_assoc _ l.bar, hnl] at h
      rw [← h]
      exact .label hl hne hd
    · rw [if_neg (by simpa using he)] at h
      simp only [rowAt] at hw
      rw [hw] at h
      simp only [Out.ok_bind] at h
      rw [sizeSub_eq hc hc2, sizeSub_eq (a := D) (c := l.depth * ind) (by omega) (by omega),
        sizeSub_eq (by omega) (by omega)] at h
      cases hls : lines l.node.helpDescription (columns - D) with
      | ok ls =>
        rw [hls] at h
        simp only [Out.ok_bind] at h
        injection h with h
        rw [joinLines_eq, ← List.append_assoc _ l.bar, hnl] at h
        rw [← h]
        exact .described hl hne hd he hw (by omega) (by omega) (lines_wrapped hls)
      | _ => rw [hls] at h; simp at h

/-- The text of one line in colour. -/
theorem static_colour_line {Num : Int → Bytes → Prop} {info : HelpInfo} {ind D columns : Nat} {l : HelpLine}
    (hc : D ≤ columns) (hc2 : columns < 2 ^ 64)
    (hl : LabelText Num info l.node (l.node.helpLabel info))
    (hw : ∃ w, terminalWidth (rowAt info l).2.1 = .ok w ∧ l.depth * ind + w + ind ≤ D) {text : Bytes}
    (h : formatRowColourStatic ind D columns (rowAt info l) = .ok text) :
    ColourText 0 Num info ind D (columns - D) l text := by
  have hd := described_as l.node
  have hmax : ∀ n, spaces n = blanks (max 0 n) := fun n => by rw [Nat.zero_max]; rfl
  obtain ⟨w, hw, hle⟩ := hw
  obtain ⟨c1, c2, c3⟩ := codes
  unfold formatRowColourStatic rowAt at h
  dsimp only at h
  by_cases hne : l.bar ++ l.node.helpLabel info = []
  · rw [if_pos (by rw [hne]; rfl)] at h
    injection h with h
    subst h
    rw [List.append_eq_nil_iff] at hne
    rw [hne.2] at hl
    exact .unlabelled hl hne.1
  · rw [if_neg (by simpa using hne)] at h
    by_cases he : l.node.helpDescription = []
    · rw [if_pos (by rw [he]; rfl)] at h
      injection h with h
      rw [he] at hd
      rw [hmax, c1, List.append_assoc _ [10], c3, ← List.append_assoc _ l.bar] at h
      rw [← h]
      exact .label hl hne hd
    · rw [if_neg (by simpa using he)] at h
      simp only [rowAt] at hw
      rw [hw] at h
      simp only [Out.ok_bind] at h
      rw [sizeSub_eq hc hc2, sizeSub_eq (a := D) (c := l.depth * ind) (by omega) (by omega),
        sizeSub_eq (by omega) (by omega)] at h
      cases hls : lines l.node.helpDescription (columns - D) with
      | ok ls =>
        rw [hls] at h
        simp only [Out.ok_bind] at h
        injection h with h
        rw [hmax (l.depth * ind), joinLines_eq, c1, c2, List.append_assoc _ [10], c3,
          ← List.append_assoc _ l.bar] at h
        rw [← h]
        exact .described hl hne hd he hw (by omega) (by omega) (lines_wrapped hls)
      | _ => rw [hls] at h; simp at h

theorem static_page_of {line : Nat → Nat → Nat → Nat × Bytes × Bytes → Out Bytes}
    {write : Nat → Nat → HelpLine → Bytes → Prop} {Num : Int → Bytes → Prop} {f : HelpFormat}
    {info : HelpInfo} {width : Nat} (hc : width < 2 ^ 64) {flatten : Bool} {target : Node}
    (ht : HelpTree target) (hr : RealGroups target)
    (hl : ∀ n ∈ target.nodes, LabelText Num info n (n.helpLabel info))
    (hsmall : ∀ D, IsColumn Num info f.indent flatten target D → D < 2 ^ 64)
    (hline : ∀ D columns l text, D ≤ columns → columns < 2 ^ 64 →
      LabelText Num info l.node (l.node.helpLabel info) →
      (∃ w, terminalWidth (rowAt info l).2.1 = .ok w ∧ l.depth * f.indent + w + f.indent ≤ D) →
      line f.indent D columns (rowAt info l) = .ok text → write D (columns - D) l text) {out : Bytes}
    (h : generateHelpStatic line f info width flatten target = .ok out) :
    PageOf write (fun _ => false) Num f info width flatten target out := by
  unfold generateHelpStatic at h
  cases hD : descColumn f.indent 0 (staticHelp info flatten target) 0 with
  | ok D =>
    have hcol := column_of ht hl hD
    rw [hD] at h
    simp only [Out.ok_bind] at h
    cases hb : formatRows (line f.indent D (usedColumns f width D))
        ((staticHelp info flatten target).flat 0) with
    | ok body =>
      rw [hb] at h
      simp only [Out.ok_bind] at h
      injection h with h
      rw [← h]
      refine page_lines (static_rows_lines ht hr) hb hcol fun l hm text htext => ?_
      have hu := usedColumns_bounds' (f := f) hc (hsmall D hcol)
      refine hline _ _ _ _ hu.1 hu.2 (hl _ (helpLines_nodes _ _ _ l hm)) ?_ htext
      exact (C51_column_right_of_labels info flatten target ht f.indent D hD).2 (rowAt info l)
        (by rw [static_rows_lines ht hr]; exact List.mem_map_of_mem hm)
    | _ => rw [hb] at h; simp at h
  | _ => rw [hD] at h; simp at h

/-- C104, the page: the help made at compile time is the page that lists every node, switched off or not.
Missing from the full statement: numbers in labels lose zeros (C49). -/
theorem C104_page_partial (f : HelpFormat) (info : HelpInfo) (width : Nat) (hc : width < 2 ^ 64)
    (flatten : Bool) (target : Node) (ht : HelpTree target) (hr : RealGroups target)
    (hl : ∀ n ∈ target.nodes, Labelled n)
    (hsmall : ∀ D, IsColumn Kept info f.indent flatten target D → D < 2 ^ 64) (out : Bytes) :
    (generateHelpStatic formatRowStatic f info width flatten target = .ok out →
      FullPage Kept f info width flatten target out) ∧
    (generateHelpStatic formatRowColourStatic f info width flatten target = .ok out →
      FullColourPage Kept f info width flatten target out) :=
  ⟨static_page_of hc ht hr (fun n hn => C82_exact info n (hl n hn)) hsmall
    fun _ _ _ _ h1 h2 h3 h4 => static_line h1 h2 h3 h4,
   static_page_of hc ht hr (fun n hn => C82_exact info n (hl n hn)) hsmall
    fun _ _ _ _ h1 h2 h3 h4 => static_colour_line h1 h2 h3 h4⟩

/-! ## Compared with help at run time -/

theorem formatRow_static {ind D columns : Nat} (hD : D < 2 ^ 31) {row : Nat × Bytes × Bytes}
    (hw : ∃ w, terminalWidth row.2.1 = .ok w ∧ row.1 * ind + w + ind ≤ D) :
    formatRowStatic ind D columns row = formatRow ind D columns row := by
  obtain ⟨k, l, d⟩ := row
  obtain ⟨w, hw, hle⟩ := hw
  dsimp only at hw hle
  unfold formatRowStatic formatRow
  dsimp only
  rw [setGap_eq (n := k * ind) (by omega), hw]
  simp only [Out.ok_bind]
  rw [sizeSub_eq (a := D) (c := k * ind) (by omega) (by omega), sizeSub_eq (c := w) (by omega) (by omega),
    setGap_eq (n := D) (by omega), setGap_eq (n := D - _ - _) (by omega)]

theorem formatRowColour_static {ind D columns : Nat} (hi : 1 ≤ ind) (hD : D < 2 ^ 31)
    {row : Nat × Bytes × Bytes} (hk : row.1 = 0 → row.2.1 = [])
    (hw : ∃ w, terminalWidth row.2.1 = .ok w ∧ row.1 * ind + w + ind ≤ D) :
    formatRowColourStatic ind D columns row = formatRowColour ind D columns row := by
  obtain ⟨k, l, d⟩ := row
  obtain ⟨w, hw, hle⟩ := hw
  dsimp only at hw hle hk
  unfold formatRowColourStatic formatRowColour
  dsimp only
  by_cases hl : l = []
  · rw [if_pos (by simp [hl]), if_pos (by simp [hl])]
  · have hk1 : 1 ≤ k := by
      rcases Nat.eq_zero_or_pos k with rfl | h
      · exact absurd (hk rfl) hl
      · exact h
    have hki : 1 ≤ k * ind := Nat.mul_pos hk1 hi
    rw [setwSpace_eq (n := k * ind) (by omega) (by omega), hw]
    simp only [Out.ok_bind]
    rw [sizeSub_eq (a := D) (c := k * ind) (by omega) (by omega), sizeSub_eq (c := w) (by omega) (by omega),
      setwSpace_eq (n := D) (by omega) (by omega), setwSpace_eq (n := D - _ - _) (by omega) (by omega)]

theorem generate_same {line line' : Nat → Nat → Nat → Nat × Bytes × Bytes → Out Bytes} {f : HelpFormat}
    {info : HelpInfo} {width : Nat} {flatten : Bool} {target : Node} (ht : HelpTree target)
    (hr : RealGroups target)
    (hon : ∀ c ∈ target.children, ∀ n ∈ c.nodes, SwitchedOff n = false)
    (hlines : ∀ D, descColumn f.indent 0 (staticHelp info flatten target) 0 = .ok D →
      ∀ l ∈ helpLines (fun _ => false) flatten target, (∃ w, terminalWidth (rowAt info l).2.1 = .ok w ∧
        (rowAt info l).1 * f.indent + w + f.indent ≤ D) →
      line f.indent D (usedColumns f width D) (rowAt info l) =
        line' f.indent D (usedColumns f width D) (rowAt info l)) :
    generateHelpStatic line f info width flatten target = generateHelp line' f info width flatten target := by
  unfold generateHelpStatic generateHelp
  cases hD : descColumn f.indent 0 (staticHelp info flatten target) 0 with
  | ok D =>
    simp only [Out.ok_bind]
    have hrows : (runtimeHelp info flatten target).flat 0 = (staticHelp info flatten target).flat 0 := by
      rw [runtime_rows_lines ht, static_rows_lines ht hr, helpLines, helpLines,
        linesBelow_on flatten target hon 1]
    rw [hrows, formatRows_congr fun row hrow => ?_]
    have hw := (C51_column_right_of_labels info flatten target ht f.indent D hD).2 row hrow
    rw [static_rows_lines ht hr] at hrow
    obtain ⟨l, hl, rfl⟩ := List.mem_map.1 hrow
    exact hlines D hD l hl hw
  | _ => rfl

/-- C104, the default formatter: if nothing is switched off, the help made at compile time and the help
shown at run time are the same text. -/
theorem C104_same (f : HelpFormat) (info : HelpInfo) (width : Nat) (flatten : Bool) (target : Node)
    (ht : HelpTree target) (hr : RealGroups target)
    (hon : ∀ c ∈ target.children, ∀ n ∈ c.nodes, SwitchedOff n = false)
    (hsmall : ∀ D, descColumn f.indent 0 (staticHelp info flatten target) 0 = .ok D → D < 2 ^ 31) :
    generateHelpStatic formatRowStatic f info width flatten target =
      generateHelp formatRow f info width flatten target :=
  generate_same ht hr hon fun D hD _ _ hw => formatRow_static (hsmall D hD) hw

mutual
theorem depth_below (f : Bool) : ∀ (n : Node) (d : Nat), ∀ l ∈ linesBelow (fun _ => false) f d n,
    d ≤ l.depth
  | .mk k u h v p cs, d, l, hl => by
    have ih := depth_of f cs d l
    by_cases hg : IsGroup (.mk k u h v p cs)
    · rw [linesBelow_group _ _ _ _ hg] at hl
      obtain ⟨i, hi, rfl⟩ := List.mem_mapIdx.1 hl
      exact Nat.le_refl _
    · rw [linesBelow_open _ _ _ _ hg] at hl
      split at hl
      · simp at hl
      · exact ih hl
theorem depth_of (f : Bool) : ∀ (cs : List Node) (d : Nat), ∀ l ∈ linesOf (fun _ => false) f d cs,
    d ≤ l.depth
  | [], d, l, hl => by simp [linesOf] at hl
  | c :: cs, d, l, hl => by
    have ih := depth_of f cs d l
    have ihc := depth_below f c (d + 1) l
    rw [linesOf] at hl
    rcases List.mem_append.1 hl with hl | hl
    · split at hl
      · simp at hl
      · rcases List.mem_cons.1 hl with rfl | hl
        · exact Nat.le_refl _
        · have := ihc hl; omega
    · exact ih hl
end

/-- C104, the colour formatter: the same holds for the help of the root. Missing from the full statement:
the help of another node, see `C104_colour_false`. -/
theorem C104_colour_partial (f : HelpFormat) (hi : 1 ≤ f.indent) (info : HelpInfo) (width : Nat)
    (flatten : Bool) (target : Node) (hk : target.kind = .root) (ht : HelpTree target)
    (hr : RealGroups target)
    (hon : ∀ c ∈ target.children, ∀ n ∈ c.nodes, SwitchedOff n = false)
    (hsmall : ∀ D, descColumn f.indent 0 (staticHelp info flatten target) 0 = .ok D → D < 2 ^ 31) :
    generateHelpStatic formatRowColourStatic f info width flatten target =
      generateHelp formatRowColour f info width flatten target :=
  generate_same ht hr hon fun D hD l hl hw => formatRowColour_static hi (hsmall D hD) (fun h0 => by
    rcases List.mem_cons.1 hl with rfl | hl
    · show HelpLine.bar _ ++ Node.helpLabel info target = []
      simp [HelpLine.bar, Node.helpLabel, hk]
    · have h1 := depth_below _ _ _ _ hl
      have h2 : l.depth = 0 := h0
      omega) hw

/-! ## Programs -/

theorem static_produced {line : Nat → Nat → Nat → Nat × Bytes × Bytes → Out Bytes}
    (hline : line = formatRowStatic ∨ line = formatRowColourStatic) {f : HelpFormat} {info : HelpInfo}
    {tree n : Node} (h : Helpful f info tree) (hs : HelpTree tree) (hr : RealGroups tree)
    (hn : n ∈ tree.nodes) {columns : Nat} (hc : columns < 2 ^ 64) (flatten : Bool) :
    ∃ text, generateHelpStatic line f info columns flatten n = .ok text := by
  have hl := h.labels n hn flatten
  have hsn := helpTree_below hs hn
  have hrn : RealGroups n := fun m hm => hr m (nodes_trans _ _ hn _ hm)
  obtain ⟨D, hD⟩ := descColumn_total f.indent (staticHelp info flatten n) 0 0 fun r hr =>
    let ⟨w, hw, _⟩ := hl r hr
    ⟨w, hw⟩
  have hD2 := descColumn_bound f.indent (2 ^ 31) _ _ _ _ hD (by omega) hl
  unfold generateHelpStatic
  rw [hD]
  simp only [Out.ok_bind]
  have hrows : ∃ body, formatRows (line f.indent D (usedColumns f columns D))
      ((staticHelp info flatten n).flat 0) = .ok body := by
    refine formatRows_total fun row hrow => ?_
    obtain ⟨w, hw, hle⟩ := (C51_column_right_of_labels info flatten n hsn f.indent D hD).2 row hrow
    have hu := usedColumns_bounds (f := f) hc hD2
    rw [static_rows_lines hsn hrn] at hrow
    obtain ⟨l, hl, rfl⟩ := List.mem_map.1 hrow
    obtain ⟨cs, hp, hcs⟩ := h.texts _ (nodes_trans _ _ hn _ (helpLines_nodes _ _ _ l hl))
    have h2 : 2 ≤ usedColumns f columns D - D := by
      have := h.offset
      unfold usedColumns sizeMax
      split <;> omega
    obtain ⟨ls, hls⟩ := C47_terminates_two_columns_partial cs hp _ h2
    unfold rowAt at hw hle ⊢
    dsimp only at hw hle
    rcases hline with rfl | rfl
    all_goals
      first | unfold formatRowStatic | unfold formatRowColourStatic
      dsimp only
      split
      · exact ⟨_, rfl⟩
      · split
        · exact ⟨_, rfl⟩
        · rw [hw, sizeSub_eq hu.1 hu.2]
          simp only [Out.ok_bind]
          rw [hcs, hls]
          exact ⟨_, rfl⟩
  obtain ⟨body, hb⟩ := hrows
  rw [hb]
  exact ⟨_, rfl⟩

theorem program_groups {fmt : Node → Formatter} {info : HelpInfo} {columns depth : Nat} {tree : Node}
    (hc : compiles info.cfg depth defaultRules (program fmt info columns tree) = true) :
    RealGroups tree := by
  intro n hn hg
  obtain ⟨-, -, hnodes⟩ := compiles_iff_parts hc
  obtain ⟨p, hp⟩ := mem_nodes.1 (mem_install (g := fun h ts =>
    helpParse (fmt h).line (fmt h).format info columns ts tree).2 ⟨n, hn, rfl⟩)
  have h := (nodeAsserts_parts (hnodes p _ hp)).2.1
  unfold classAsserts basicOneOfAsserts at h
  rw [install_kind, install_children] at h
  rcases hg with hk | hk
  all_goals
    rw [hk] at h
    simp only [Bool.and_eq_true, decide_eq_true_eq, List.length_map] at h
    first | exact h.1.1.1.1.1.1 | exact h.1.1.1.1.1.1.1

/-- C104, programs: for each node of a program that compiles, help can be made at compile time, and it is
the page that lists every node below it. Missing from the full statement: as above, and texts of C34. -/
theorem C104_program_partial (fmt : Node → Formatter) (info : HelpInfo) (columns depth : Nat) (tree : Node)
    (hc : compiles info.cfg depth defaultRules (program fmt info columns tree) = true)
    (f : HelpFormat) (hh : Helpful f info tree) (hcol : columns < 2 ^ 64) (m : Node)
    (hm : m ∈ tree.nodes) (flatten : Bool) :
    (∃ text, generateHelpStatic formatRowStatic f info columns flatten m = .ok text ∧
      FullPage Kept f info columns flatten m text) ∧
    ∃ text, generateHelpStatic formatRowColourStatic f info columns flatten m = .ok text ∧
      FullColourPage Kept f info columns flatten m text := by
  have hs := (program_parts hc).1
  have hr := program_groups hc
  have hl : ∀ n ∈ m.nodes, Labelled n := fun n hn => program_labelled hc (nodes_trans _ _ hm _ hn)
  have hlt : ∀ n ∈ m.nodes, LabelText Kept info n (n.helpLabel info) := fun n hn => C82_exact info n (hl n hn)
  have hrm : RealGroups m := fun x hx => hr x (nodes_trans _ _ hm _ hx)
  have hsmall : ∀ D, IsColumn Kept info f.indent flatten m D → D < 2 ^ 64 := by
    intro D hD
    obtain ⟨E, hE⟩ := descColumn_total f.indent (staticHelp info flatten m) 0 0 fun r hr =>
      let ⟨w, hw, _⟩ := hh.labels m hm flatten r hr
      ⟨w, hw⟩
    have h2 := descColumn_bound f.indent (2 ^ 31) _ _ _ _ hE (by omega) (hh.labels m hm flatten)
    have h3 := column_of (helpTree_below hs hm) hlt hE
    have := column_unique kept_unique (fun n hn => program_single hc (nodes_trans _ _ hm _ hn)) hD h3
    omega
  obtain ⟨t1, h1⟩ := static_produced (.inl rfl) hh hs hr hm hcol flatten
  obtain ⟨t2, h2⟩ := static_produced (.inr rfl) hh hs hr hm hcol flatten
  have hp := fun out => C104_page_partial f info columns hcol flatten m (helpTree_below hs hm) hrm hl hsmall out
  exact ⟨⟨t1, h1, (hp t1).1 h1⟩, t2, h2, (hp t2).2 h2⟩

/-! ## Examples -/

open AskHelpEx in
example : (∃ text, generateHelpStatic formatRowStatic (formats ask).format info 80 true tree = .ok text ∧
      FullPage Kept (formats ask).format info 80 true tree text) ∧
    ∃ text, generateHelpStatic formatRowColourStatic (formats ask).format info 80 true tree = .ok text ∧
      FullColourPage Kept (formats ask).format info 80 true tree text :=
  C104_program_partial formats info 80 100 tree (by decide +kernel) _ (tree_helpful ask) (by decide) tree
    (self_mem_nodes _) true

/-- At compile time nothing is left out, and at run time what is switched off is. -/
example : generateHelpStatic formatRowStatic hFormat hInfo 80 true hRoot = .ok (b
    ("prog\n\n    --help,-h             Show this text\n    add                   Adds one\n" ++
     "        --name=<Value>    Name of the 猫\n        --hidden          Not shown\n     \n" ++
     "        One of:\n            ┌ --one       First\n            └ --two       Second\n")) ∧
    generateHelp formatRow hFormat hInfo 80 true hRoot = .ok (b
    ("prog\n\n    --help,-h             Show this text\n    add                   Adds one\n" ++
     "        --name=<Value>    Name of the 猫\n     \n" ++
     "        One of:\n            ┌ --one       First\n            └ --two       Second\n")) := by
  decide +kernel

/-- A mode in which nothing is switched off. -/
def onMode : Node := .mk .mode 4 104 strT [.noneName (b "add"), .description (b "Adds one"), .router] [hName]

/-- The hypotheses of `C104_same` and `C104_colour_partial` are met. -/
example : HelpTree onMode ∧ RealGroups onMode ∧
    (∀ c ∈ onMode.children, ∀ n ∈ c.nodes, SwitchedOff n = false) ∧
    descColumn 4 0 (staticHelp hInfo true onMode) 0 = .ok 22 := by
  refine ⟨helpTree_of_test (by decide +kernel), ?_, by decide +kernel, by decide +kernel⟩
  intro n hn hg
  have : ∀ n ∈ onMode.nodes, n.kind = .mode ∨ n.kind = .arg := by decide +kernel
  rcases this n hn with h | h <;> simp [IsGroup, h] at hg

/-- C104 is false for the colour formatter: at run time it writes a space before the label of the node
whose help is shown, at compile time it does not. -/
theorem C104_colour_false :
    generateHelpStatic formatRowColourStatic hFormat hInfo 80 true onMode = .ok (b "prog\n\n" ++
      red ++ b "add" ++ green ++ b "                   Adds one\n" ++ resetColour ++
      red ++ b "    --name=<Value>" ++ green ++ b "    Name of the 猫\n" ++ resetColour) ∧
    generateHelp formatRowColour hFormat hInfo 80 true onMode = .ok (b "prog\n\n" ++
      red ++ b " add" ++ green ++ b "                   Adds one\n" ++ resetColour ++
      red ++ b "    --name=<Value>" ++ green ++ b "    Name of the 猫\n" ++ resetColour) := by
  decide +kernel

end ArgRouter.Props
