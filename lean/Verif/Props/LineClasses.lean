import Verif.Props.Characters

/-!
# C127: pictographs and the other line breaking classes
-/

namespace ArgRouter.Props

open ArgRouter.Utf8 ArgRouter.Spec

theorem pictograph_unicode (n : Nat) : gClass n = .extended_pictographic ↔ inRanges pictographs n = true := by
  have h := (gClass_step.zip (op := fun a (c : Bool) => decide (a = GClass.extended_pictographic) == c)
    (rangeStep_of (l := pictographs) (by decide +kernel))).all (by decide +kernel) n
  have := beq_iff_eq.1 h
  rw [← this, decide_eq_true_iff]

/-- C127, clusters, exactly: a character is a pictograph if it has the property Extended_Pictographic, and
otherwise has the class that UAX #29 gives it. -/
theorem C127_clusters (c : Char) : Uax29.classOf c =
    if inRanges pictographs c.toNat then .extended_pictographic else unicodeCluster c.toNat := by
  rw [← gClass_eq]
  split
  · rename_i h
    exact (pictograph_unicode _).2 h
  · rename_i h
    rcases class_unicode c.toNat with h' | ⟨h', -⟩
    · exact h'
    · exact absurd ((pictograph_unicode _).1 h') h

/-- A line breaking class is that of the characters in a list. -/
theorem line_class {k : LClass} {l : List (Nat × Nat)} (hs : sortedB (l.map asRange) = true)
    (hc : ((Step.zip (fun (a : Bool) (c : Bool) => c || a)
      (Step.zip (fun a (c : Bool) => decide (a = k) == c)
        ⟨.any, tableSteps (fun r => LClass.ofMeta r.md) .any lineTable⟩ (rangeStep l))
      (rangeStep changedIn15)).start &&
      (stepClean (Step.zip (fun (a : Bool) (c : Bool) => c || a)
      (Step.zip (fun a (c : Bool) => decide (a = k) == c)
        ⟨.any, tableSteps (fun r => LClass.ofMeta r.md) .any lineTable⟩ (rangeStep l))
      (rangeStep changedIn15)).steps).all (·.2)) = true) (n : Nat) (hn : inRanges changedIn15 n = false) :
    lClass n = k ↔ inRanges l n = true := by
  have h := ((lClass_step.zip (op := fun a (c : Bool) => decide (a = k) == c) (rangeStep_of hs)).zip
    (op := fun (a : Bool) (c : Bool) => c || a) (rangeStep_of (l := changedIn15) (by decide +kernel))).all hc n
  simp only [hn, Bool.false_or] at h
  have := beq_iff_eq.1 h
  rw [← this, decide_eq_true_iff]

theorem line_AL (n : Nat) (hn : inRanges changedIn15 n = false) : lClass n = .AL ↔ inRanges lineAL n = true :=
  line_class (by decide +kernel) (by decide +kernel) n hn

theorem line_BA (n : Nat) (hn : inRanges changedIn15 n = false) : lClass n = .BA ↔ inRanges lineBA n = true :=
  line_class (by decide +kernel) (by decide +kernel) n hn

theorem line_BB (n : Nat) (hn : inRanges changedIn15 n = false) : lClass n = .BB ↔ inRanges lineBB n = true :=
  line_class (by decide +kernel) (by decide +kernel) n hn

theorem line_CL (n : Nat) (hn : inRanges changedIn15 n = false) : lClass n = .CL ↔ inRanges lineCL n = true :=
  line_class (by decide +kernel) (by decide +kernel) n hn

theorem line_EB (n : Nat) (hn : inRanges changedIn15 n = false) : lClass n = .EB ↔ inRanges lineEB n = true :=
  line_class (by decide +kernel) (by decide +kernel) n hn

theorem line_EX (n : Nat) (hn : inRanges changedIn15 n = false) : lClass n = .EX ↔ inRanges lineEX n = true :=
  line_class (by decide +kernel) (by decide +kernel) n hn

theorem line_ID (n : Nat) (hn : inRanges changedIn15 n = false) : lClass n = .ID ↔ inRanges lineID n = true :=
  line_class (by decide +kernel) (by decide +kernel) n hn

theorem line_NS (n : Nat) (hn : inRanges changedIn15 n = false) : lClass n = .NS ↔ inRanges lineNS n = true :=
  line_class (by decide +kernel) (by decide +kernel) n hn

theorem line_OP (n : Nat) (hn : inRanges changedIn15 n = false) : lClass n = .OP ↔ inRanges lineOP n = true :=
  line_class (by decide +kernel) (by decide +kernel) n hn

theorem line_PO (n : Nat) (hn : inRanges changedIn15 n = false) : lClass n = .PO ↔ inRanges linePO n = true :=
  line_class (by decide +kernel) (by decide +kernel) n hn

theorem line_PR (n : Nat) (hn : inRanges changedIn15 n = false) : lClass n = .PR ↔ inRanges linePR n = true :=
  line_class (by decide +kernel) (by decide +kernel) n hn

theorem line_QU (n : Nat) (hn : inRanges changedIn15 n = false) : lClass n = .QU ↔ inRanges lineQU n = true :=
  line_class (by decide +kernel) (by decide +kernel) n hn

attribute [local irreducible] lineAL lineBA lineBB lineCL lineEB lineEX lineID lineNS
  lineOP linePO linePR lineQU

/-- C127, lines, the other classes: each is the class of exactly the characters that Unicode gives it to.
(The data are of version 15, without what it changed.) -/
theorem C127_line_classes (n : Nat) (hn : inRanges changedIn15 n = false) :
    ∀ p ∈ lineClasses, (lClass n = p.1 ↔ inRanges p.2 n = true) := by
  intro p hp
  simp only [lineClasses, List.mem_cons, List.not_mem_nil, or_false] at hp
  rcases hp with h | h | h | h | h | h | h | h | h | h | h | h <;> subst h
  · exact line_AL n hn
  · exact line_BA n hn
  · exact line_BB n hn
  · exact line_CL n hn
  · exact line_EB n hn
  · exact line_EX n hn
  · exact line_ID n hn
  · exact line_NS n hn
  · exact line_OP n hn
  · exact line_PO n hn
  · exact line_PR n hn
  · exact line_QU n hn

/-- C127, lines, exactly: what the class of a character is, if it is not one that Unicode 15 changed. -/
theorem C127_line_class (n : Nat) (hn : inRanges changedIn15 n = false) : lClass n =
    match lineClasses.find? fun p => inRanges p.2 n with
    | some p => p.1
    | none => unicodeLine n := by
  have h := C127_line_classes n hn
  cases hf : lineClasses.find? fun p => inRanges p.2 n with
  | some p =>
    have hp : inRanges p.2 n = true := List.find?_some (p := fun p : LClass × List (Nat × Nat) => inRanges p.2 n) hf
    exact (h p (List.mem_of_find?_eq_some hf)).2 hp
  | none =>
    rcases C127_lines n with h' | ⟨h', h0⟩
    · exact h'
    · have hnone := List.find?_eq_none.1 hf
      simp only [otherLineClasses, List.mem_cons, List.not_mem_nil, or_false] at h'
      rcases h' with h' | h' | h' | h' | h' | h' | h' | h' | h' | h' | h' | h' | h'
      · rw [h', h0]
      · exact absurd ((line_AL n hn).1 h') (hnone (.AL, lineAL) (by simp only [lineClasses, List.mem_cons, true_or, or_true]))
      · exact absurd ((line_BA n hn).1 h') (hnone (.BA, lineBA) (by simp only [lineClasses, List.mem_cons, true_or, or_true]))
      · exact absurd ((line_BB n hn).1 h') (hnone (.BB, lineBB) (by simp only [lineClasses, List.mem_cons, true_or, or_true]))
      · exact absurd ((line_CL n hn).1 h') (hnone (.CL, lineCL) (by simp only [lineClasses, List.mem_cons, true_or, or_true]))
      · exact absurd ((line_EB n hn).1 h') (hnone (.EB, lineEB) (by simp only [lineClasses, List.mem_cons, true_or, or_true]))
      · exact absurd ((line_EX n hn).1 h') (hnone (.EX, lineEX) (by simp only [lineClasses, List.mem_cons, true_or, or_true]))
      · exact absurd ((line_ID n hn).1 h') (hnone (.ID, lineID) (by simp only [lineClasses, List.mem_cons, true_or, or_true]))
      · exact absurd ((line_NS n hn).1 h') (hnone (.NS, lineNS) (by simp only [lineClasses, List.mem_cons, true_or, or_true]))
      · exact absurd ((line_OP n hn).1 h') (hnone (.OP, lineOP) (by simp only [lineClasses, List.mem_cons, true_or, or_true]))
      · exact absurd ((line_PO n hn).1 h') (hnone (.PO, linePO) (by simp only [lineClasses, List.mem_cons, true_or, or_true]))
      · exact absurd ((line_PR n hn).1 h') (hnone (.PR, linePR) (by simp only [lineClasses, List.mem_cons, true_or, or_true]))
      · exact absurd ((line_QU n hn).1 h') (hnone (.QU, lineQU) (by simp only [lineClasses, List.mem_cons, true_or, or_true]))

/-- A pictograph, a letter, an ideograph and a currency sign. -/
example : Uax29.classOf '😀' = .extended_pictographic ∧ inRanges pictographs '😀'.toNat = true ∧
    inRanges changedIn15 '猫'.toNat = false ∧ inRanges lineAL 'a'.toNat = true ∧
    inRanges lineID '猫'.toNat = true ∧ inRanges linePR '$'.toNat = true ∧
    inRanges lineAL '猫'.toNat = false := by
  refine ⟨?_, ?_, ?_, ?_, ?_, ?_, ?_⟩ <;> decide +kernel

end ArgRouter.Props
