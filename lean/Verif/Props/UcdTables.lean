import Verif.Lemmas.Tables

/-!
# C95: the generated tables are those of the data files
-/

namespace ArgRouter.Props

open ArgRouter.Utf8 ArgRouter.Spec.Ucd ArgRouter.Tools.Tables

/-- Lookup in the table made from disjoint ranges. -/
theorem lookup_sorted (rs : List Range) (h1 : ∀ r ∈ rs, r.first ≤ r.last)
    (h2 : rs.Pairwise fun a b => a.last < b.first ∨ b.last < a.first) (cp : Nat) (r : Range) :
    findRange (sortBy Range.first rs) cp = some r ↔ r ∈ rs ∧ r.first ≤ cp ∧ cp ≤ r.last := by
  have hp := sortBy_perm Range.first rs
  rw [C38_lookup _ ⟨fun x hx => h1 x (hp.mem_iff.1 hx), sortBy_disjoint Range.first Range.last rs h1 h2⟩,
    hp.mem_iff]

theorem loaded_rows {rs : List Range}
    (h : ∀ r ∈ rs, r.first < 2 ^ 21 ∧ r.last < 2 ^ 21 ∧ r.md < 2 ^ 6) :
    loaded (rs.map fun r => (r.first, r.last, some r.md)) = rs := by
  unfold loaded
  rw [List.map_map]
  conv => rhs; rw [← List.map_id rs]
  refine List.map_congr_left fun r hr => ?_
  obtain ⟨h1, h2, h3⟩ := h r hr
  exact packed_ofNat h1 h2 h3

theorem loaded_pairs {rs : List (Nat × Nat)} (h : ∀ r ∈ rs, r.1 < 2 ^ 21 ∧ r.2 < 2 ^ 21) :
    loaded (rs.map fun r => (r.1, r.2, none)) = rs.map fun r => ⟨r.1, r.2, 0⟩ := by
  unfold loaded
  rw [List.map_map]
  refine List.map_congr_left fun r hr => ?_
  obtain ⟨h1, h2⟩ := h r hr
  exact packed_ofNat (m := 0) h1 h2 (by decide)

theorem sortBy_map {α β : Type} (f : α → β) (key : β → Nat) (l : List α) :
    (sortBy (fun x => key (f x)) l).map f = sortBy key (l.map f) := by
  have hi : ∀ (x : α) (l : List α),
      (insertBy (fun x => key (f x)) x l).map f = insertBy key (f x) (l.map f) := by
    intro x l
    induction l with
    | nil => rfl
    | cons y l ih =>
      rw [insertBy, List.map_cons, insertBy]
      split
      · rfl
      · rw [List.map_cons, ih]
  induction l with
  | nil => rfl
  | cons x l ih => rw [sortBy, hi, ih]; rfl

/-- The ranges of the entries a table is made of are disjoint. -/
theorem consistent_ranges {es : List Entry} (hc : Consistent es) (v : Entry → Option Nat) :
    let rs := es.filterMap fun e => (v e).map fun m => (⟨e.first, e.last, m⟩ : Range)
    (∀ r ∈ rs, r.first ≤ r.last ∧ r.last ≤ 0x10FFFF) ∧
    rs.Pairwise (fun a b => a.last < b.first ∨ b.last < a.first) ∧
    ∀ r : Range, r ∈ rs ↔ ∃ e ∈ es, e.first = r.first ∧ e.last = r.last ∧ v e = some r.md := by
  have hmem : ∀ r : Range, r ∈ (es.filterMap fun e => (v e).map fun m => (⟨e.first, e.last, m⟩ : Range)) ↔
      ∃ e ∈ es, e.first = r.first ∧ e.last = r.last ∧ v e = some r.md := by
    intro r
    rw [List.mem_filterMap]
    constructor
    · rintro ⟨e, he, h⟩
      obtain ⟨m, hm, rfl⟩ := Option.map_eq_some_iff.1 h
      exact ⟨e, he, rfl, rfl, hm⟩
    · rintro ⟨e, he, h1, h2, h3⟩
      exact ⟨e, he, by rw [h3, Option.map_some, h1, h2]⟩
  refine ⟨fun r hr => ?_, ?_, hmem⟩
  · obtain ⟨e, he, h1, h2, -⟩ := (hmem r).1 hr
    rw [← h1, ← h2]
    exact hc.1 e he
  · rw [List.pairwise_filterMap]
    refine List.Pairwise.imp (fun {a b} h r hr r' hr' => ?_) hc.2
    obtain ⟨m, -, rfl⟩ := Option.map_eq_some_iff.1 hr
    obtain ⟨m', -, rfl⟩ := Option.map_eq_some_iff.1 hr'
    exact h

/-! ## Whitespace and width -/

/-- C95, the tables of whitespace and of wide and narrow characters: for every data file the script
prints a table, and a code point is in it if and only if it has one of the properties asked for in the
file. -/
theorem C95_property (content : List Char) (es : List Entry) (hf : IsFile content es)
    (hv : HasVersion content) (hc : Consistent es) (names : List String) (table : String) :
    ∃ text rows, runPlain content (names.map String.toList) table = some text ∧
      IsTable table text rows ∧
      ∀ cp, (findRange (loaded rows) cp).isSome = true ↔
        ∃ e ∈ es, e.name ∈ names ∧ e.first ≤ cp ∧ cp ≤ e.last := by
  have hcol : collect (plainLine (names.map String.toList)) (lines [] content) =
      some (es.filterMap fun e => if e.name ∈ names then some (e.first, e.last) else none) := by
    rw [collect_file (g := fun e => some (if e.name ∈ names then some (e.first, e.last) else none))
      ?_ hf ?_]
    · exact collect_total fun e _ => rfl
    · intro l hl
      rcases line_cases hl with ⟨-, h⟩ | ⟨e, -, -, h, -⟩
      · unfold plainLine
        dsimp only
        rw [h]
      · cases h
    · intro e _ l hl
      rcases line_cases hl with ⟨h, -⟩ | ⟨en, line, sc, h, hs, ha, hcp, -⟩
      · cases h
      · cases h
        unfold plainLine
        dsimp only
        rw [hs, ha]
        dsimp only
        have : (names.map String.toList).contains e.name.toList = decide (e.name ∈ names) := by
          rw [Bool.eq_iff_iff]
          simp only [List.contains_iff_mem, List.mem_map, decide_eq_true_eq]
          constructor
          · rintro ⟨x, hx, h⟩
            rw [← String.toList_inj.1 h]
            exact hx
          · exact fun h => ⟨_, h, rfl⟩
        rw [this]
        by_cases h : e.name ∈ names
        · simp [h, hcp]
        · simp [h]
  unfold runPlain
  rw [version_found hv, hcol]
  refine ⟨_, _, rfl, isTable_of_rows _ _ _ (fun r => (r.1, r.2, none)) row2_isRow, fun cp => ?_⟩
  obtain ⟨h1, h2, h3⟩ := consistent_ranges hc fun e => if e.name ∈ names then some 0 else none
  have he : (es.filterMap fun e => (if e.name ∈ names then some 0 else none : Option Nat).map
        fun m => (⟨e.first, e.last, m⟩ : Range)) =
      (es.filterMap fun e => if e.name ∈ names then some (e.first, e.last) else none).map
        fun r => ⟨r.1, r.2, 0⟩ := by
    rw [List.map_filterMap]
    congr 1
    funext e
    split <;> rfl
  rw [he] at h1 h2 h3
  have hp := sortBy_perm (fun r : Nat × Nat => r.1)
    (es.filterMap fun e => if e.name ∈ names then some (e.first, e.last) else none)
  rw [loaded_pairs, sortBy_map (fun r : Nat × Nat => (⟨r.1, r.2, 0⟩ : Range)) Range.first]
  · rw [Option.isSome_iff_exists]
    simp only [lookup_sorted _ (fun r hr => (h1 r hr).1) h2, h3]
    constructor
    · rintro ⟨r, ⟨e, he, e1, e2, e3⟩, h4, h5⟩
      refine ⟨e, he, ?_, by omega, by omega⟩
      split at e3
      · assumption
      · cases e3
    · rintro ⟨e, he, hn, h4, h5⟩
      exact ⟨⟨e.first, e.last, 0⟩, ⟨e, he, rfl, rfl, by rw [if_pos hn]⟩, h4, h5⟩
  · intro r hr
    have := h1 ⟨r.1, r.2, 0⟩ (List.mem_map.2 ⟨r, hp.mem_iff.1 hr, rfl⟩)
    dsimp only at this
    omega

/-! ## Line breaks -/

/-- The number of a line break class. -/
def lineNumber (c : LClass) : Nat := ((List.range 39).find? fun v => LClass.ofMeta v == c).getD 0

theorem lineNumber_spec (c : LClass) : lineNumber c < 64 ∧ LClass.ofMeta (lineNumber c) = c := by
  cases c <;> decide

theorem lineClass_known {e : Entry} {cls : LClass} (h : lineBreakClass e.name e.category = some cls)
    {line : Str} {sc : Nat}
    (hcat : e.category = none ∨ ∃ c s, e.category = some s ∧ findFrom '#' sc line = some c ∧
        (line.take (c + 4)).drop (c + 2) = s.toList) :
    lineClass line sc e.name.toList = some (lineNumber cls) := by
  obtain ⟨a, z, name, cat⟩ := e
  dsimp only at h hcat ⊢
  unfold lineBreakClass at h
  split at h
  case h_5 =>
    rcases hcat with rfl | ⟨c, s, rfl, hc, hs⟩
    · cases h
    · have hl : lineClass line sc "SA".toList =
          if s.toList == "Mn".toList || s.toList == "Mc".toList then some 8 else some 1 := by
        unfold lineClass
        rw [if_neg (by decide), if_neg (by decide), if_pos (by decide), hc]
        dsimp only
        rw [hs]
      rw [hl]
      split at h
      · rename_i hx; cases hx; cases h; decide
      · rename_i hx; cases hx; cases h; decide
      · rename_i s' h1 h2 hx
        cases hx
        cases h
        refine if_neg ?_
        simp only [Bool.or_eq_true, beq_iff_eq, String.toList_inj, not_or]
        exact ⟨fun h => h1 (by rw [h]), fun h => h2 (by rw [h])⟩
      · cases h
  all_goals first
    | (cases h; rfl)
    | cases h

theorem lineClass_unknown {e : Entry} (h : lineBreakClass e.name none = none) (hsa : e.name ≠ "SA")
    (line : Str) (sc : Nat) : lineClass line sc e.name.toList = none := by
  obtain ⟨a, z, name, cat⟩ := e
  dsimp only at h hsa ⊢
  have hne : ∀ n : String, lineBreakClass n none ≠ none → (name.toList == n.toList) = false := by
    intro n hn
    rw [beq_eq_false_iff_ne]
    intro hx
    rw [String.toList_inj.1 hx] at h
    exact hn h
  unfold lineClass
  rw [hne "AI" (by decide), hne "SG" (by decide), hne "XX" (by decide), hne "CJ" (by decide)]
  have hsa' : (name.toList == "SA".toList) = false := by
    rw [beq_eq_false_iff_ne]
    exact fun hx => hsa (String.toList_inj.1 hx)
  rw [hsa']
  simp only [Bool.or_self, Bool.false_eq_true, if_false]
  unfold member
  rw [Option.map_eq_none_iff, List.find?_eq_none]
  intro m hm hx
  have hall : ∀ m ∈ lineNames, lineBreakClass m.2 none ≠ none := by decide
  have := hne m.2 (hall m hm)
  rw [beq_eq_false_iff_ne] at this
  exact this (by simpa using (beq_iff_eq.1 hx).symm)

/-- C95, line breaks: for every data file with known classes the script prints a table, and looking a
code point up in it gives the class the file assigns, after the resolution of the classes that depend
on more than the character. -/
theorem C95_line (content : List Char) (es : List Entry) (hf : IsFile content es)
    (hv : HasVersion content) (hc : Consistent es)
    (hk : ∀ e ∈ es, (lineBreakClass e.name e.category).isSome = true) :
    ∃ text rows, runLine content = some text ∧ IsTable "line_break_table" text rows ∧
      ∀ cp cls, (findRange (loaded rows) cp).map (fun r => LClass.ofMeta r.md) = some cls ↔
        ∃ e ∈ es, e.first ≤ cp ∧ cp ≤ e.last ∧ lineBreakClass e.name e.category = some cls := by
  have hcol : collect lineLine (lines [] content) = some (es.filterMap fun e =>
      ((lineBreakClass e.name e.category).map lineNumber).map fun m => ⟨e.first, e.last, m⟩) := by
    rw [collect_file (g := fun e => some (((lineBreakClass e.name e.category).map lineNumber).map
      fun m => ⟨e.first, e.last, m⟩)) ?_ hf ?_]
    · exact collect_total fun e _ => rfl
    · intro l hl
      rcases line_cases hl with ⟨-, h⟩ | ⟨e, -, -, h, -⟩
      · unfold lineLine
        dsimp only
        rw [h]
      · cases h
    · intro e he l hl
      rcases line_cases hl with ⟨h, -⟩ | ⟨en, line, sc, h, hs, ha, hcp, hcat⟩
      · cases h
      · cases h
        obtain ⟨cls, hcls⟩ := Option.isSome_iff_exists.1 (hk e he)
        unfold lineLine
        dsimp only
        rw [hs, ha]
        dsimp only
        rw [lineClass_known hcls hcat, hcp, hcls]
        rfl
  unfold runLine
  rw [version_found hv, hcol]
  obtain ⟨h1, h2, h3⟩ := consistent_ranges hc fun e => (lineBreakClass e.name e.category).map lineNumber
  have hmd : ∀ r : Range, r ∈ (es.filterMap fun e =>
      ((lineBreakClass e.name e.category).map lineNumber).map
        fun m => (⟨e.first, e.last, m⟩ : Range)) → r.md < 64 := by
    intro r hr
    obtain ⟨e, -, -, -, h⟩ := (h3 r).1 hr
    obtain ⟨cls, -, h⟩ := Option.map_eq_some_iff.1 h
    rw [← h]
    exact (lineNumber_spec cls).1
  refine ⟨_, _, rfl, isTable_of_rows _ _ _ (fun r => (r.first, r.last, some r.md)) row3_isRow,
    fun cp cls => ?_⟩
  rw [loaded_rows, Option.map_eq_some_iff]
  · simp only [lookup_sorted _ (fun r hr => (h1 r hr).1) h2, h3]
    constructor
    · rintro ⟨r, ⟨⟨e, he, e1, e2, e3⟩, h4, h5⟩, rfl⟩
      obtain ⟨c, hc1, hc2⟩ := Option.map_eq_some_iff.1 e3
      refine ⟨e, he, by omega, by omega, ?_⟩
      rw [hc1, ← hc2, (lineNumber_spec c).2]
    · rintro ⟨e, he, h4, h5, h6⟩
      exact ⟨⟨e.first, e.last, lineNumber cls⟩, ⟨⟨e, he, rfl, rfl, by rw [h6]; rfl⟩, h4, h5⟩,
        (lineNumber_spec cls).2⟩
  · intro r hr
    have hr := (sortBy_perm _ _).mem_iff.1 hr
    have := h1 r hr
    exact ⟨by omega, by omega, hmd r hr⟩

/-- C95, line breaks: a file with a class that is not known stops the script. -/
theorem C95_line_unknown (content : List Char) (es : List Entry) (hf : IsFile content es) (e : Entry)
    (he : e ∈ es) (hn : ∀ category, lineBreakClass e.name category = none) :
    runLine content = none := by
  have hsa : e.name ≠ "SA" := fun h => by
    have := hn (some "Mn")
    rw [h] at this
    revert this
    decide
  have : collect lineLine (lines [] content) = none := by
    refine collect_file_none (fun l hl => ?_) hf he
    rcases line_cases hl with ⟨h, -⟩ | ⟨en, line, sc, h, hs, ha, -⟩
    · cases h
    · cases h
      unfold lineLine
      dsimp only
      rw [hs, ha]
      dsimp only
      rw [lineClass_unknown (hn none) hsa]
      rfl
  unfold runLine
  rw [this]
  cases extractVersion content <;> rfl

/-! ## Grapheme clusters -/

/-- The number of a grapheme cluster break class. -/
def graphemeNumber (c : GClass) : Nat := ((List.range 15).find? fun v => GClass.ofMeta v == c).getD 0

theorem graphemeNumber_spec (c : GClass) :
    graphemeNumber c < 64 ∧ GClass.ofMeta (graphemeNumber c) = c := by
  cases c <;> decide

theorem member_known {name : String} {cls : GClass} (h : graphemeClass name = some cls) :
    member graphemeNames name.toList = some (graphemeNumber cls) := by
  unfold graphemeClass at h
  split at h
  all_goals first
    | (cases h; decide)
    | cases h

theorem member_unknown {name : String} (h : graphemeClass name = none) :
    member graphemeNames name.toList = none := by
  unfold member
  rw [Option.map_eq_none_iff, List.find?_eq_none]
  intro m hm hx
  have hall : ∀ m ∈ graphemeNames, graphemeClass m.2 ≠ none := by decide
  have := String.toList_inj.1 (beq_iff_eq.1 hx)
  rw [← this] at h
  exact hall m hm h

/-- C95, grapheme clusters: for every data file with known classes and every file of emoji properties,
if no code point is in two of their ranges, the script prints a table, and looking a code point up in it
gives the class the first file assigns, or that of pictographs if the second one does. -/
theorem C95_grapheme (content emoji : List Char) (es fs : List Entry) (hf : IsFile content es)
    (hg : IsFile emoji fs) (hv : HasVersion content) (hw : HasVersion emoji)
    (hc : Consistent (es ++ fs.filter fun e => e.name == "Extended_Pictographic"))
    (hk : ∀ e ∈ es, (graphemeClass e.name).isSome = true) :
    ∃ text rows, runGrapheme content emoji = some text ∧
      IsTable "grapheme_cluster_break_table" text rows ∧
      ∀ cp cls, (findRange (loaded rows) cp).map (fun r => GClass.ofMeta r.md) = some cls ↔
        (∃ e ∈ es, e.first ≤ cp ∧ cp ≤ e.last ∧ graphemeClass e.name = some cls) ∨
        (∃ e ∈ fs, e.first ≤ cp ∧ cp ≤ e.last ∧ e.name = "Extended_Pictographic" ∧
          cls = .extended_pictographic) := by
  have hcol : collect graphemeLine (lines [] content) = some (es.filterMap fun e =>
      ((graphemeClass e.name).map graphemeNumber).map fun m => ⟨e.first, e.last, m⟩) := by
    rw [collect_file (g := fun e => some (((graphemeClass e.name).map graphemeNumber).map
      fun m => ⟨e.first, e.last, m⟩)) ?_ hf ?_]
    · exact collect_total fun e _ => rfl
    · intro l hl
      rcases line_cases hl with ⟨-, h⟩ | ⟨e, -, -, h, -⟩
      · unfold graphemeLine
        dsimp only
        rw [h]
      · cases h
    · intro e he l hl
      rcases line_cases hl with ⟨h, -⟩ | ⟨en, line, sc, h, hs, ha, hcp, hcat⟩
      · cases h
      · cases h
        obtain ⟨cls, hcls⟩ := Option.isSome_iff_exists.1 (hk e he)
        unfold graphemeLine
        dsimp only
        rw [hs, ha]
        dsimp only
        rw [member_known hcls, hcp, hcls]
        rfl
  have hcol2 : collect emojiLine (lines [] emoji) =
      some ((fs.filter fun e => e.name == "Extended_Pictographic").filterMap fun e =>
        ((graphemeClass e.name).map graphemeNumber).map fun m => ⟨e.first, e.last, m⟩) := by
    rw [collect_file (g := fun e => some ((Option.guard (fun e : Entry =>
      e.name == "Extended_Pictographic") e).bind fun e => ((graphemeClass e.name).map
        graphemeNumber).map fun m => ⟨e.first, e.last, m⟩)) ?_ hg ?_]
    · rw [collect_total fun e _ => rfl, List.filterMap_filter]
      congr 2
      funext e
      cases h : (e.name == "Extended_Pictographic") <;> simp [Option.guard, h]
    · intro l hl
      rcases line_cases hl with ⟨-, h⟩ | ⟨e, -, -, h, -⟩
      · unfold emojiLine
        dsimp only
        rw [h]
      · cases h
    · intro e he l hl
      rcases line_cases hl with ⟨h, -⟩ | ⟨en, line, sc, h, hs, ha, hcp, hcat⟩
      · cases h
      · cases h
        unfold emojiLine
        dsimp only
        rw [hs, ha]
        dsimp only
        by_cases hn : e.name = "Extended_Pictographic"
        · rw [hn, if_neg (by decide), hcp]
          have hg14 : graphemeNumber .extended_pictographic = 14 := by decide
          have hgc : graphemeClass e.name = some .extended_pictographic := by rw [hn]; rfl
          have hgd : Option.guard (fun e : Entry => e.name == "Extended_Pictographic") e = some e := by
            simp [Option.guard, hn]
          rw [hgd, Option.bind_some, hgc]
          show _ = some (some (⟨e.first, e.last, graphemeNumber .extended_pictographic⟩ : Range))
          rw [hg14]
          rfl
        · rw [if_pos (bne_iff_ne.2 fun h => hn (String.toList_inj.1 h))]
          simp [Option.guard, hn]
  unfold runGrapheme
  rw [version_found hv, hcol, version_found hw, hcol2]
  obtain ⟨h1, h2, h3⟩ := consistent_ranges hc fun e => (graphemeClass e.name).map graphemeNumber
  rw [List.filterMap_append] at h1 h2 h3
  refine ⟨_, _, rfl, isTable_of_rows _ _ _ (fun r => (r.first, r.last, some r.md)) row3_isRow,
    fun cp cls => ?_⟩
  rw [loaded_rows, Option.map_eq_some_iff]
  · simp only [lookup_sorted _ (fun r hr => (h1 r hr).1) h2, h3]
    constructor
    · rintro ⟨r, ⟨⟨e, he, e1, e2, e3⟩, h4, h5⟩, rfl⟩
      obtain ⟨c, hc1, hc2⟩ := Option.map_eq_some_iff.1 e3
      rcases List.mem_append.1 he with he | he
      · refine .inl ⟨e, he, by omega, by omega, ?_⟩
        rw [hc1, ← hc2, (graphemeNumber_spec c).2]
      · obtain ⟨he, hn⟩ := List.mem_filter.1 he
        have hn := beq_iff_eq.1 hn
        refine .inr ⟨e, he, by omega, by omega, hn, ?_⟩
        rw [← hc2, (graphemeNumber_spec c).2]
        rw [hn] at hc1
        exact (Option.some.inj hc1).symm
    · rintro (⟨e, he, h4, h5, h6⟩ | ⟨e, he, h4, h5, hn, rfl⟩)
      · exact ⟨⟨e.first, e.last, graphemeNumber cls⟩, ⟨⟨e, List.mem_append_left _ he, rfl, rfl,
          by rw [h6]; rfl⟩, h4, h5⟩, (graphemeNumber_spec cls).2⟩
      · exact ⟨⟨e.first, e.last, 14⟩, ⟨⟨e, List.mem_append_right _ (List.mem_filter.2 ⟨he, by simp [hn]⟩),
          rfl, rfl, by rw [hn]; rfl⟩, h4, h5⟩, rfl⟩
  · intro r hr
    have hr := (sortBy_perm _ _).mem_iff.1 hr
    have h4 := h1 r hr
    obtain ⟨e, -, -, -, h⟩ := (h3 r).1 hr
    obtain ⟨c, -, h⟩ := Option.map_eq_some_iff.1 h
    have := (graphemeNumber_spec c).1
    exact ⟨by omega, by omega, by omega⟩

/-- C95, grapheme clusters: a file with a class that is not known stops the script. -/
theorem C95_grapheme_unknown (content emoji : List Char) (es : List Entry) (hf : IsFile content es)
    (e : Entry) (he : e ∈ es) (hn : graphemeClass e.name = none) :
    runGrapheme content emoji = none := by
  have : collect graphemeLine (lines [] content) = none := by
    refine collect_file_none (fun l hl => ?_) hf he
    rcases line_cases hl with ⟨h, -⟩ | ⟨en, line, sc, h, hs, ha, -⟩
    · cases h
    · cases h
      unfold graphemeLine
      dsimp only
      rw [hs, ha]
      dsimp only
      rw [member_unknown hn]
      rfl
  unfold runGrapheme
  rw [this]
  cases extractVersion content <;> rfl

/-! ## The version -/

/-- C95: without the version of the database in the first line of each of its data files, no script
prints a table. -/
theorem C95_version (content : List Char) (h : ¬ HasVersion content) :
    (∀ names table, runPlain content names table = none) ∧ runLine content = none ∧
    (∀ emoji, runGrapheme content emoji = none) ∧
    (∀ first, runGrapheme first content = none) := by
  have hn : extractVersion content = none := by
    cases hx : extractVersion content with
    | none => rfl
    | some u => exact absurd (version_only hx) h
  refine ⟨fun names table => ?_, ?_, fun emoji => ?_, fun first => ?_⟩
  · unfold runPlain; rw [hn]; rfl
  · unfold runLine; rw [hn]; rfl
  · unfold runGrapheme; rw [hn]; rfl
  · unfold runGrapheme
    rw [hn]
    cases extractVersion first with
    | none => rfl
    | some u =>
      cases hc : collect graphemeLine (lines [] first) with
      | none => simp [hc]
      | some l => simp [hc]

example : ¬ HasVersion "# LineBreak-14.0.txt\n0020;SP # 1.2.3\n".toList := fun h =>
  absurd (version_found h) (by decide +kernel)

/-! ## Examples -/

namespace UcdEx

def entries : List Entry := [⟨0x0E31, 0x0E31, "SA", some "Mn"⟩, ⟨0x0020, 0x0020, "SP", none⟩,
  ⟨0x0E40, 0x0E44, "SA", some "Lo"⟩, ⟨0x00A1, 0x00A1, "OP", none⟩]

def content : List Char := ("# LineBreak-14.0.0.txt\n\n0E31      ; SA # Mn  THAI CHARACTER MAI HAN-AKAT\n" ++
  "0020;SP\n  0E40..0E44;SA # Lo [5] THAI \r\n00A1;OP# Po\n").toList

set_option maxRecDepth 100000 in
theorem isFile : IsFile content entries := by
  have hb : ∀ s : List Char, s.all (fun c => c == ' ' || c == '\t' || c == '\r') = true → Blank s := by
    intro s h c hc
    have := List.all_eq_true.1 h c hc
    simpa [or_assoc] using this
  have hn : ∀ s : List Char, s ≠ [] → s.all (fun c => c.isAlphanum || c == '_') = true → IsName s := by
    intro s h1 h2
    refine ⟨h1, fun c hc => ?_⟩
    have := List.all_eq_true.1 h2 c hc
    simpa using this
  have hx : ∀ ds : List Nat, ds ≠ [] → ds.all (· < 16) = true →
      IsHex (ds.map fun d => "0123456789ABCDEF".toList.getD d '0')
        (ds.foldl (fun a d => 16 * a + d) 0) := by
    intro ds h1 h2
    refine ⟨by simpa using h1, ds.map (Prod.mk true), fun x hx => ?_, by rw [List.map_map]; rfl,
      by rw [List.foldl_map]⟩
    obtain ⟨d, hd, rfl⟩ := List.mem_map.1 hx
    simpa using List.all_eq_true.1 h2 d hd
  have h1 : IsLine "# LineBreak-14.0.0.txt".toList none :=
    .comment (w := []) (fun c h => by cases h) (by decide)
  have h2 : IsLine [] none := .blank fun c h => by cases h
  have h3 : IsLine "0E31      ; SA # Mn  THAI CHARACTER MAI HAN-AKAT".toList
      (some ⟨0x0E31, 0x0E31, "SA", some "Mn"⟩) :=
    .entry (e := ⟨0x0E31, 0x0E31, "SA", some "Mn"⟩) (w0 := []) (r := "0E31".toList)
      (w1 := "      ".toList) (w2 := [' ']) (n := "SA".toList) (w3 := [' '])
      (hb _ (by decide)) (hb _ (by decide)) (hb _ (by decide)) (hb _ (by decide))
      (.inl ⟨hx [0, 14, 3, 1] (by decide) (by decide), rfl⟩) (hn _ (by decide) (by decide)) rfl
      (.category (x := 'M') (y := 'n') (by decide) (by decide)
        (s := "  THAI CHARACTER MAI HAN-AKAT".toList) (by decide))
  have h4 : IsLine "0020;SP".toList (some ⟨0x0020, 0x0020, "SP", none⟩) :=
    .entry (e := ⟨0x0020, 0x0020, "SP", none⟩) (w0 := []) (r := "0020".toList)
      (w1 := []) (w2 := []) (n := "SP".toList) (w3 := [])
      (hb _ (by decide)) (hb _ (by decide)) (hb _ (by decide)) (hb _ (by decide))
      (.inl ⟨hx [0, 0, 2, 0] (by decide) (by decide), rfl⟩) (hn _ (by decide) (by decide)) rfl .nothing
  have h5 : IsLine "  0E40..0E44;SA # Lo [5] THAI \r".toList (some ⟨0x0E40, 0x0E44, "SA", some "Lo"⟩) :=
    .entry (e := ⟨0x0E40, 0x0E44, "SA", some "Lo"⟩) (w0 := [' ', ' ']) (r := "0E40..0E44".toList)
      (w1 := []) (w2 := []) (n := "SA".toList) (w3 := [' '])
      (hb _ (by decide)) (hb _ (by decide)) (hb _ (by decide)) (hb _ (by decide))
      (.inr ⟨_, _, rfl, hx [0, 14, 4, 0] (by decide) (by decide), hx [0, 14, 4, 4] (by decide) (by decide)⟩)
      (hn _ (by decide) (by decide)) rfl
      (.category (x := 'L') (y := 'o') (by decide) (by decide) (s := " [5] THAI \r".toList) (by decide))
  have h6 : IsLine "00A1;OP# Po".toList (some ⟨0x00A1, 0x00A1, "OP", none⟩) :=
    .entry (e := ⟨0x00A1, 0x00A1, "OP", none⟩) (w0 := []) (r := "00A1".toList)
      (w1 := []) (w2 := []) (n := "OP".toList) (w3 := [])
      (hb _ (by decide)) (hb _ (by decide)) (hb _ (by decide)) (hb _ (by decide))
      (.inl ⟨hx [0, 0, 10, 1] (by decide) (by decide), rfl⟩) (hn _ (by decide) (by decide)) rfl
      (.comment (s := " Po".toList) (by decide))
  exact .line h1 (.line h2 (.line h3 (.line h4 (.line h5 (.line h6 .empty)))))

set_option maxRecDepth 100000 in
/-- The hypotheses of `C95_line` and `C95_property` are met by a small file. -/
example : IsFile content entries ∧ HasVersion content ∧ Consistent entries ∧
    ∀ e ∈ entries, (lineBreakClass e.name e.category).isSome = true :=
  ⟨isFile, ⟨"# LineBreak-".toList, ['1', '4'], ['0'], ['0'], ".txt".toList, _, rfl, by decide, by decide,
    by decide⟩, ⟨by decide, by decide⟩, by decide⟩

/-- What the script prints for it. -/
example : runLine content = some (["constexpr auto line_break_table = std::array<code_point::range, 4>{{",
    "    {0x000020, 0x000020, 0x000022},", "    {0x0000A1, 0x0000A1, 0x00001D},",
    "    {0x000E31, 0x000E31, 0x000008},", "    {0x000E40, 0x000E44, 0x000001},", "}};"].map
      String.toList) := by decide +kernel

end UcdEx

end ArgRouter.Props
