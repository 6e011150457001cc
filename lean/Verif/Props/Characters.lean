import Verif.Lemmas.Steps
import Verif.Props.Misread
import Verif.Props.Uax29

/-!
# C127: characters have the properties that Unicode gives them
-/

namespace ArgRouter.Props

open ArgRouter.Utf8 ArgRouter.Spec

/-! ## Columns -/

theorem wide_table (n : Nat) : decide (∃ r ∈ doubleWidthTable, r.first ≤ n ∧ n ≤ r.last) =
    (inRanges wideCharacters n || inRanges wideBlocks n) := by
  have h := ((tableSteps_exists doubleWidth_sorted).zip (op := fun a c : Bool => a == c)
    ((rangeStep_of (l := wideCharacters) (by decide +kernel)).zip (op := or)
      (rangeStep_of (l := wideBlocks) (by decide +kernel)))).all (by decide +kernel) n
  exact beq_iff_eq.1 h

theorem zero_table (n : Nat) : decide (∃ r ∈ zeroWidthTable, r.first ≤ n ∧ n ≤ r.last) =
    (inRanges nonspacingMarks n || inRanges enclosingMarks n) := by
  have h := ((tableSteps_exists zeroWidth_sorted).zip (op := fun a c : Bool => a == c)
    ((rangeStep_of (l := nonspacingMarks) (by decide +kernel)).zip (op := or)
      (rangeStep_of (l := enclosingMarks) (by decide +kernel)))).all (by decide +kernel) n
  exact beq_iff_eq.1 h

theorem columnsOf_unicode (n : Nat) : columnsOf n = unicodeColumns n := by
  have h1 := wide_table n
  have h2 := zero_table n
  unfold columnsOf unicodeColumns
  rw [← h1, ← h2]
  simp only [decide_eq_true_eq]

/-- C127, columns: a text takes as many columns as Unicode gives its characters. -/
theorem C127_columns (cs : List Char) (h : Plain cs) :
    terminalWidth (enc cs) = .ok ((cs.map fun c => unicodeColumns c.toNat).sum) := by
  rw [C40_width_sum_partial cs h]
  congr 2
  exact List.map_congr_left fun c _ => columnsOf_unicode c.toNat

/-! ## Classes -/

/-- A class for the numbers for which a test holds, and otherwise what there was. -/
def elseStep {α : Type} (k : α) (s : Step Bool) (t : Step α) : Step α :=
  Step.zip (fun q c => if q = true then k else c) s t

theorem elseStep_of {α : Type} {k : α} {s : Step Bool} {t : Step α} {f : Nat → Bool} {g : Nat → α}
    (hs : s.Of f) (ht : t.Of g) : (elseStep k s t).Of fun n => if f n = true then k else g n :=
  hs.zip ht

/-- The steps of the Hangul syllables. -/
def hangulSteps (k : Nat) : Nat → List (Nat × GClass)
  | 0 => [(k, .any)]
  | m + 1 => (k, .LV) :: (k + 1, .LVT) :: hangulSteps (k + 28) m

theorem hangulSteps_val (n : Nat) : ∀ (m k : Nat), k ≤ n → ∀ v,
    stepVal v (hangulSteps k m) n =
      if n < k + 28 * m then (if (n - k) % 28 = 0 then .LV else .LVT) else .any := by
  intro m
  induction m with
  | zero =>
    intro k h v
    rw [hangulSteps, stepVal, if_neg (by omega), if_neg (by omega)]
    rfl
  | succ m ih =>
    intro k h v
    simp only [hangulSteps, stepVal]
    rw [if_neg (by omega)]
    by_cases h1 : n < k + 1
    · rw [if_pos h1, if_pos (by omega), if_pos (by omega)]
    · rw [if_neg h1]
      by_cases h2 : k + 28 ≤ n
      · rw [ih _ h2, show n - (k + 28) = n - k - 28 by omega,
          show (n - k - 28) % 28 = (n - k) % 28 by omega,
          show k + 28 + 28 * m = k + 28 * (m + 1) by omega]
      · rw [if_pos (by omega), if_neg (by omega)]
        cases m with
        | zero => rw [hangulSteps, stepVal, if_pos (by omega)]
        | succ m => rw [hangulSteps, stepVal, if_pos (by omega)]

theorem hangulStep_of : Step.Of ⟨.any, hangulSteps 0xAC00 399⟩ hangulSyllable := by
  intro n
  show stepVal .any (hangulSteps 0xAC00 399) n = _
  unfold hangulSyllable
  by_cases h : 0xAC00 ≤ n
  · rw [hangulSteps_val n 399 0xAC00 h]
    by_cases h' : n ≤ 0xD7A3
    · rw [if_pos (show n < 0xAC00 + 28 * 399 by omega), if_pos (⟨h, h'⟩ : 0xAC00 ≤ n ∧ n ≤ 0xD7A3)]
    · rw [if_neg (by omega), if_neg (fun hc => h' hc.2)]
  · rw [if_neg (fun hc => h hc.1)]
    show stepVal .any ((0xAC00, GClass.LV) :: _) n = _
    rw [stepVal, if_pos (by omega)]

theorem graphemeTable_sorted : sortedB graphemeTable = true := by decide +kernel

theorem gClass_step : Step.Of ⟨.any, tableSteps (fun r => GClass.ofMeta r.md) .any graphemeTable⟩ gClass := by
  intro n
  have hp := sortedB_pairwise graphemeTable_sorted
  have hw := sortedB_wf graphemeTable_sorted
  unfold gClass
  cases h : findRange graphemeTable n with
  | some r =>
    obtain ⟨h1, h2, h3⟩ := findRange_sound h
    exact tableSteps_mem _ _ h2 h3 _ _ hp hw h1
  | none =>
    refine tableSteps_none _ _ _ fun r hr hc => ?_
    have := (findRange_isSome_iff (cp := n) hp hw).2 ⟨r, hr, hc⟩
    rw [h] at this
    cases this

/-- The steps of `unicodeCluster`. -/
def clusterStep : Step GClass :=
  elseStep .CR (pointStep 0xD) <| elseStep .LF (pointStep 0xA) <| elseStep .ZWJ (pointStep 0x200D) <|
  elseStep .prepend (rangeStep prepended) <|
  elseStep .extend (.zip or (.zip or (rangeStep nonspacingMarks) (rangeStep enclosingMarks))
    (rangeStep otherExtend)) <|
  elseStep .control (.zip or (.zip or (.zip or (rangeStep separatorCharacters) (rangeStep controlCharacters))
    (rangeStep formatCharacters)) (rangeStep ignorableUnassigned)) <|
  elseStep .regional_indicator (rangeStep [(0x1F1E6, 0x1F1FF)]) <|
  elseStep .spacing_mark (.zip or (rangeStep alsoSpacing)
    (.zip (fun a c => a && !c) (rangeStep spacingMarks) (rangeStep notSpacing))) <|
  elseStep .L (rangeStep [(0x1100, 0x115F), (0xA960, 0xA97C)]) <|
  elseStep .V (rangeStep [(0x1160, 0x11A7), (0xD7B0, 0xD7C6)]) <|
  elseStep .T (rangeStep [(0x11A8, 0x11FF), (0xD7CB, 0xD7FB)]) ⟨.any, hangulSteps 0xAC00 399⟩

theorem clusterStep_of : clusterStep.Of unicodeCluster := by
  have h := elseStep_of (k := .CR) (pointStep_of 0xD) <| elseStep_of (k := .LF) (pointStep_of 0xA) <|
    elseStep_of (k := .ZWJ) (pointStep_of 0x200D) <|
    elseStep_of (k := .prepend) (rangeStep_of (l := prepended) (by decide +kernel)) <|
    elseStep_of (k := .extend) (.zip (op := or) (.zip (op := or)
      (rangeStep_of (l := nonspacingMarks) (by decide +kernel))
      (rangeStep_of (l := enclosingMarks) (by decide +kernel)))
      (rangeStep_of (l := otherExtend) (by decide +kernel))) <|
    elseStep_of (k := .control) (.zip (op := or) (.zip (op := or) (.zip (op := or)
      (rangeStep_of (l := separatorCharacters) (by decide +kernel))
      (rangeStep_of (l := controlCharacters) (by decide +kernel)))
      (rangeStep_of (l := formatCharacters) (by decide +kernel)))
      (rangeStep_of (l := ignorableUnassigned) (by decide +kernel))) <|
    elseStep_of (k := .regional_indicator) (rangeStep_of (l := [(0x1F1E6, 0x1F1FF)]) (by decide +kernel)) <|
    elseStep_of (k := .spacing_mark) (.zip (op := or)
      (rangeStep_of (l := alsoSpacing) (by decide +kernel))
      (.zip (op := fun a c => a && !c) (rangeStep_of (l := spacingMarks) (by decide +kernel))
        (rangeStep_of (l := notSpacing) (by decide +kernel)))) <|
    elseStep_of (k := .L) (rangeStep_of (l := [(0x1100, 0x115F), (0xA960, 0xA97C)]) (by decide +kernel)) <|
    elseStep_of (k := .V) (rangeStep_of (l := [(0x1160, 0x11A7), (0xD7B0, 0xD7C6)]) (by decide +kernel)) <|
    elseStep_of (k := .T) (rangeStep_of (l := [(0x11A8, 0x11FF), (0xD7CB, 0xD7FB)]) (by decide +kernel))
      hangulStep_of
  intro n
  have := h n
  simp only [decide_eq_true_eq] at this
  exact this

theorem class_unicode (n : Nat) :
    gClass n = unicodeCluster n ∨ (gClass n = .extended_pictographic ∧ unicodeCluster n = .any) := by
  have h := (gClass_step.zip (op := fun a c : GClass => decide (a = c ∨ (a = .extended_pictographic ∧ c = .any)))
    clusterStep_of).all (by decide +kernel) n
  exact of_decide_eq_true h

/-- C127, clusters: every character has the class that UAX #29 gives it; those that UAX #29 gives none may
be pictographs. -/
theorem C127_classes (c : Char) : Uax29.classOf c = unicodeCluster c.toNat ∨
    (Uax29.classOf c = .extended_pictographic ∧ unicodeCluster c.toNat = .any) := by
  rw [← gClass_eq]
  exact class_unicode c.toNat

/-! ## Line breaking classes -/

theorem lineTable_sorted' : sortedB lineTable = true := by decide +kernel

theorem lClass_step : Step.Of ⟨.any, tableSteps (fun r => LClass.ofMeta r.md) .any lineTable⟩ lClass := by
  intro n
  have hp := sortedB_pairwise lineTable_sorted'
  have hw := sortedB_wf lineTable_sorted'
  unfold lClass
  cases h : findRange lineTable n with
  | some r =>
    obtain ⟨h1, h2, h3⟩ := findRange_sound h
    exact tableSteps_mem _ _ h2 h3 _ _ hp hw h1
  | none =>
    refine tableSteps_none _ _ _ fun r hr hc => ?_
    have := (findRange_isSome_iff (cp := n) hp hw).2 ⟨r, hr, hc⟩
    rw [h] at this
    cases this

/-- The steps of the image of a function. -/
def mapStep {α β : Type} (g : α → β) (s : Step α) : Step β := ⟨g s.start, s.steps.map fun p => (p.1, g p.2)⟩

theorem mapStep_of {α β : Type} (g : α → β) {s : Step α} {f : Nat → α} (h : s.Of f) :
    (mapStep g s).Of fun n => g (f n) := by
  intro n
  show stepVal (g s.start) (s.steps.map fun p => (p.1, g p.2)) n = g (f n)
  rw [stepVal_map, h n]

/-- The steps of `unicodeLine`. -/
def lineStep : Step LClass :=
  elseStep .CR (pointStep 0xD) <| elseStep .LF (pointStep 0xA) <| elseStep .NL (pointStep 0x85) <|
  elseStep .SP (pointStep 0x20) <| elseStep .ZW (pointStep 0x200B) <| elseStep .ZWJ (pointStep 0x200D) <|
  elseStep .HY (pointStep 0x2D) <| elseStep .SY (pointStep 0x2F) <| elseStep .CB (pointStep 0xFFFC) <|
  elseStep .BK (rangeStep [(0xB, 0xC), (0x2028, 0x2029)]) <|
  elseStep .WJ (rangeStep [(0x2060, 0x2060), (0xFEFF, 0xFEFF)]) <|
  elseStep .B2 (rangeStep [(0x2014, 0x2014), (0x2E3A, 0x2E3B)]) <|
  elseStep .CP (rangeStep [(0x29, 0x29), (0x5D, 0x5D)]) <|
  elseStep .EM (rangeStep [(0x1F3FB, 0x1F3FF)]) <|
  elseStep .RI (rangeStep [(0x1F1E6, 0x1F1FF)]) <|
  elseStep .GL (rangeStep glue) <| elseStep .IS (rangeStep infixSeparators) <|
  elseStep .IN_ (rangeStep leaders) <| elseStep .HL (rangeStep hebrewLetters) <|
  elseStep .NU (.zip or (rangeStep [(0x66B, 0x66C)])
    (.zip (fun a c => a && !c) (rangeStep decimalDigits) (rangeStep [(0xFF10, 0xFF19)]))) <|
  elseStep .CM (.zip or (rangeStep otherCombining)
    (.zip or (.zip or (rangeStep nonspacingMarks) (rangeStep enclosingMarks))
      (.zip (fun a c => a && !c) (rangeStep spacingMarks) (rangeStep [(0xF7F, 0xF7F)])))) <|
  elseStep .JL (rangeStep [(0x1100, 0x115F), (0xA960, 0xA97C)]) <|
  elseStep .JV (rangeStep [(0x1160, 0x11A7), (0xD7B0, 0xD7C6)]) <|
  elseStep .JT (rangeStep [(0x11A8, 0x11FF), (0xD7CB, 0xD7FB)]) <|
  mapStep hangulLine ⟨.any, hangulSteps 0xAC00 399⟩

set_option maxHeartbeats 4000000 in
theorem lineStep_of : lineStep.Of unicodeLine := by
  have h := elseStep_of (k := LClass.CR) (pointStep_of 0xD) <| elseStep_of (k := .LF) (pointStep_of 0xA) <|
    elseStep_of (k := .NL) (pointStep_of 0x85) <| elseStep_of (k := .SP) (pointStep_of 0x20) <|
    elseStep_of (k := .ZW) (pointStep_of 0x200B) <| elseStep_of (k := .ZWJ) (pointStep_of 0x200D) <|
    elseStep_of (k := .HY) (pointStep_of 0x2D) <| elseStep_of (k := .SY) (pointStep_of 0x2F) <|
    elseStep_of (k := .CB) (pointStep_of 0xFFFC) <|
    elseStep_of (k := .BK) (rangeStep_of (l := [(0xB, 0xC), (0x2028, 0x2029)]) (by decide +kernel)) <|
    elseStep_of (k := .WJ) (rangeStep_of (l := [(0x2060, 0x2060), (0xFEFF, 0xFEFF)]) (by decide +kernel)) <|
    elseStep_of (k := .B2) (rangeStep_of (l := [(0x2014, 0x2014), (0x2E3A, 0x2E3B)]) (by decide +kernel)) <|
    elseStep_of (k := .CP) (rangeStep_of (l := [(0x29, 0x29), (0x5D, 0x5D)]) (by decide +kernel)) <|
    elseStep_of (k := .EM) (rangeStep_of (l := [(0x1F3FB, 0x1F3FF)]) (by decide +kernel)) <|
    elseStep_of (k := .RI) (rangeStep_of (l := [(0x1F1E6, 0x1F1FF)]) (by decide +kernel)) <|
    elseStep_of (k := .GL) (rangeStep_of (l := glue) (by decide +kernel)) <|
    elseStep_of (k := .IS) (rangeStep_of (l := infixSeparators) (by decide +kernel)) <|
    elseStep_of (k := .IN_) (rangeStep_of (l := leaders) (by decide +kernel)) <|
    elseStep_of (k := .HL) (rangeStep_of (l := hebrewLetters) (by decide +kernel)) <|
    elseStep_of (k := .NU) (.zip (op := or) (rangeStep_of (l := [(0x66B, 0x66C)]) (by decide +kernel))
      (.zip (op := fun a c => a && !c) (rangeStep_of (l := decimalDigits) (by decide +kernel))
        (rangeStep_of (l := [(0xFF10, 0xFF19)]) (by decide +kernel)))) <|
    elseStep_of (k := .CM) (.zip (op := or) (rangeStep_of (l := otherCombining) (by decide +kernel))
      (.zip (op := or) (.zip (op := or) (rangeStep_of (l := nonspacingMarks) (by decide +kernel))
        (rangeStep_of (l := enclosingMarks) (by decide +kernel)))
        (.zip (op := fun a c => a && !c) (rangeStep_of (l := spacingMarks) (by decide +kernel))
          (rangeStep_of (l := [(0xF7F, 0xF7F)]) (by decide +kernel))))) <|
    elseStep_of (k := .JL) (rangeStep_of (l := [(0x1100, 0x115F), (0xA960, 0xA97C)]) (by decide +kernel)) <|
    elseStep_of (k := .JV) (rangeStep_of (l := [(0x1160, 0x11A7), (0xD7B0, 0xD7C6)]) (by decide +kernel)) <|
    elseStep_of (k := .JT) (rangeStep_of (l := [(0x11A8, 0x11FF), (0xD7CB, 0xD7FB)]) (by decide +kernel)) <|
    mapStep_of hangulLine hangulStep_of
  intro n
  have := h n
  simp only [decide_eq_true_eq] at this
  exact this

/-- The classes that `unicodeLine` does not tell apart. -/
def otherLineClasses : List LClass := [.any, .AL, .BA, .BB, .CL, .EB, .EX, .ID, .NS, .OP, .PO, .PR, .QU]

/-- C127, lines: every code point has the line breaking class that UAX #14 gives it, as far as this is by
list or by general category. -/
theorem C127_lines (n : Nat) : lClass n = unicodeLine n ∨
    (lClass n ∈ otherLineClasses ∧ unicodeLine n = .any) := by
  have h := (lClass_step.zip
    (op := fun a c : LClass => decide (a = c ∨ (a ∈ otherLineClasses ∧ c = .any)))
    lineStep_of).all (by decide +kernel) n
  exact of_decide_eq_true h

/-- C127, lines: brackets open and close, quotation marks are quotation marks, and no assigned character is
without a class. -/
theorem C127_punctuation (n : Nat) :
    (inRanges openPunctuation n = true → lClass n = .OP) ∧
    (inRanges closePunctuation n = true → lClass n = .CL ∨ lClass n = .CP) ∧
    (inRanges quotePunctuation n = true → lClass n = .QU) ∧
    (lClass n = .any → n < 0x110000 → inRanges unassigned n = true) := by
  have h1 := (lClass_step.zip (op := fun a (c : Bool) => decide (c = true → a = LClass.OP))
    (rangeStep_of (l := openPunctuation) (by decide +kernel))).all (by decide +kernel) n
  have h2 := (lClass_step.zip (op := fun a (c : Bool) => decide (c = true → a = LClass.CL ∨ a = LClass.CP))
    (rangeStep_of (l := closePunctuation) (by decide +kernel))).all (by decide +kernel) n
  have h3 := (lClass_step.zip (op := fun a (c : Bool) => decide (c = true → a = LClass.QU))
    (rangeStep_of (l := quotePunctuation) (by decide +kernel))).all (by decide +kernel) n
  have h4 := (lClass_step.zip (op := fun a (c : Bool) => decide (a = LClass.any → c = true))
    (.zip (op := or) (rangeStep_of (l := unassigned) (by decide +kernel))
      (s := rangeStep unassigned) (t := ⟨false, [(0x110000, true)]⟩) (g := fun n => decide (0x110000 ≤ n))
      (by
        intro n
        show (if n < 0x110000 then false else true) = decide (0x110000 ≤ n)
        by_cases h : n < 0x110000
        · rw [if_pos h, decide_eq_false (by omega)]
        · rw [if_neg h, decide_eq_true (by omega)]))).all_from_zero (by decide +kernel) (by decide +kernel) n
  refine ⟨of_decide_eq_true h1, of_decide_eq_true h2, of_decide_eq_true h3, fun h hn => ?_⟩
  have := of_decide_eq_true h4 h
  rw [Bool.or_eq_true, decide_eq_true_eq] at this
  exact this.resolve_right (by omega)

/-- A cat face and a Chinese character take two columns, a combining accent none; the latter extends what is
before it, and belongs to what is before it when lines are broken; a Hangul syllable has its class. -/
example : terminalWidth (enc ['a', '猫', '\u0301']) = .ok 3 ∧ unicodeColumns '猫'.toNat = 2 ∧
    unicodeColumns 0x301 = 0 ∧ unicodeCluster 0x301 = .extend ∧ unicodeLine 0x301 = .CM ∧
    unicodeCluster '각'.toNat = .LVT ∧ unicodeLine '가'.toNat = .H2 ∧
    unicodeLine '7'.toNat = .NU ∧ Plain ['a', '猫', '\u0301'] := by
  refine ⟨?_, ?_, ?_, ?_, ?_, ?_, ?_, ?_, ?_⟩ <;> decide +kernel

end ArgRouter.Props
