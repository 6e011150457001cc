import Verif.Spec.Uax29
import Verif.Lemmas.Grapheme
import Verif.Props.Tables

/-! # C96: grapheme clusters are those of UAX 29 -/

namespace ArgRouter.Props

open ArgRouter.Utf8 ArgRouter.Spec ArgRouter.Spec.Uax29

theorem gClass_eq (c : Char) : gClass c.toNat = classOf c := by
  have ht := C38_shipped_tables.2.2.2.1
  unfold gClass classOf
  cases hf : findRange graphemeTable c.toNat with
  | none =>
    have := (C38_lookup_none _ ht _).1 hf
    rw [List.find?_eq_none.2 (fun r hr => by simpa using this r hr)]
  | some r =>
    obtain ⟨h1, h2, h3⟩ := (C38_lookup _ ht _ _).1 hf
    cases hg : graphemeTable.find? fun r => decide (r.first ≤ c.toNat ∧ c.toNat ≤ r.last) with
    | none =>
      have := List.find?_eq_none.1 hg r h1
      simp only [decide_eq_true_eq] at this
      exact absurd ⟨h2, h3⟩ this
    | some q =>
      have h4 := List.find?_some hg
      have h5 := List.mem_of_find?_eq_some hg
      have := (C38_lookup _ ht c.toNat q).2 ⟨h5, by simpa using h4⟩
      rw [hf] at this
      cases this
      rfl

/-- The window after reading a text. -/
def gWin (w : GWindow) : List Char → GWindow
  | [] => w
  | c :: cs => gWin (gPush (gClass c.toNat) w) cs

theorem gWin_eq (cs : List Char) : ∀ (h : List GClass), gWin ((h ++ gWindowInit).take 16) cs =
    ((cs.map classOf).reverse ++ h ++ gWindowInit).take 16 := by
  induction cs with
  | nil => intro h; simp [gWin]
  | cons c cs ih =>
    intro h
    have : gPush (gClass c.toNat) ((h ++ gWindowInit).take 16) =
        ((classOf c :: h) ++ gWindowInit).take 16 := by
      unfold gPush windowSize
      rw [gClass_eq, List.take_take, List.cons_append, List.take_succ_cons]
      rfl
    rw [gWin, this, ih (classOf c :: h)]
    simp

theorem nextC_eq (cs : List Char) (i : Nat) (h : i < cs.length) :
    nextC (cs.drop i) = classOf (cs[i]'h) := by
  rw [List.drop_eq_getElem_cons h, nextC, gClass_eq]

/-- Where the clusters meet. -/
theorem clustersFrom_cut (cs : List Char) : ∀ (w : GWindow) (acc : List Char) (i : Nat), 0 < i →
    i < cs.length → (CutAt (clustersFrom w acc cs) (acc.length + i) ↔
      gShouldBreak (gWin w (cs.take i)) (nextC (cs.drop i)) = true) := by
  induction cs with
  | nil => intro w acc i _ h; simp at h
  | cons c cs ih =>
    intro w acc i h0 h1
    obtain ⟨j, rfl⟩ : ∃ j, i = j + 1 := ⟨i - 1, by omega⟩
    have h1 : j < cs.length := by simpa using h1
    rw [clustersFrom]
    simp only [List.take_succ_cons, List.drop_succ_cons, gWin]
    by_cases hb : gShouldBreak (gPush (gClass c.toNat) w) (nextC cs) = true
    · rw [if_pos hb]
      by_cases hj : j = 0
      · subst hj
        simp only [List.take_zero, List.drop_zero, gWin, hb, iff_true]
        exact ⟨1, by simp⟩
      · rw [← ih _ [] j (by omega) h1]
        constructor
        · rintro ⟨k, hk⟩
          cases k with
          | zero => simp at hk
          | succ k => exact ⟨k, by simp at hk; simp; omega⟩
        · rintro ⟨k, hk⟩
          exact ⟨k + 1, by simp at hk; simp; omega⟩
    · rw [if_neg hb]
      by_cases hj : j = 0
      · subst hj
        simp only [List.take_zero, List.drop_zero, gWin, hb, Bool.false_eq_true, iff_false]
        rintro ⟨k, hk⟩
        cases cs with
        | nil => simp at h1
        | cons d cs =>
          rw [clustersFrom] at hk
          have : ∃ p ps, (if gShouldBreak (gPush (gClass d.toNat) (gPush (gClass c.toNat) w)) (nextC cs) = true
              then (acc ++ [c] ++ [d]) :: clustersFrom (gPush (gClass d.toNat) (gPush (gClass c.toNat) w)) [] cs
              else clustersFrom (gPush (gClass d.toNat) (gPush (gClass c.toNat) w)) (acc ++ [c] ++ [d]) cs) =
              (acc ++ [c] ++ [d] ++ p) :: ps := by
            split
            · exact ⟨[], _, by rw [List.append_nil]⟩
            · exact clustersFrom_acc _ _ _ (by simp)
          obtain ⟨p, ps, e⟩ := this
          rw [e] at hk
          cases k with
          | zero => simp at hk
          | succ k => simp at hk
      · have := ih (gPush (gClass c.toNat) w) (acc ++ [c]) j (by omega) h1
        rw [← this]
        simp only [List.length_append, List.length_singleton]
        rw [show acc.length + 1 + j = acc.length + (j + 1) by omega]

theorem riRun_take_min (h : List GClass) : ∀ n, riRun ((h ++ List.replicate 16 GClass.any).take n) =
    min (indicators h) n := by
  induction h with
  | nil => intro n; cases n <;> simp [riRun, indicators, List.replicate]
  | cons c h ih =>
    intro n
    cases n with
    | zero => simp [riRun]
    | succ n =>
      rw [List.cons_append, List.take_succ_cons]
      cases c <;> simp only [riRun, indicators, ih] <;> omega

set_option maxHeartbeats 4000000 in
/-- Outside the exceptional places the library decides as the rules do, and at these it does not. -/
theorem shouldBreak_joins (last : GClass) (earlier : List GClass) (next : GClass) :
    gShouldBreak (((last :: earlier) ++ gWindowInit).take 16) next = true ↔
      (joins (last :: earlier) next = false ↔ ¬ Exceptional (last :: earlier) next) := by
  have hri : riRun (((last :: earlier) ++ gWindowInit).take 16) =
      min (indicators (last :: earlier)) 16 := riRun_take_min _ 16
  have hhead : gHead (((last :: earlier) ++ gWindowInit).take 16) = last := by
    rw [List.cons_append, List.take_succ_cons]; rfl
  simp only [gShouldBreak, List.any_cons, List.any_nil, GB3, GB6, GB7, GB8, GB9, GB9a, GB9b, GB11,
    GB12_13, hri, hhead]
  generalize hI : indicators (last :: earlier) = I
  have hI0 : last ≠ .regional_indicator → I = 0 := by
    intro h; subst hI; cases last <;> first | rfl | exact absurd rfl h
  by_cases hn : next = .regional_indicator
  · subst hn
    by_cases hl : last = .regional_indicator
    · subst hl
      simp only [joins, Exceptional, isControl, hI]
      by_cases h1 : I % 2 = 1 <;> by_cases h2 : 16 < I <;> simp [h1, h2] <;> omega
    · rw [hI0 hl]
      cases last <;> simp [joins, Exceptional, isControl, hI, hI0] at hl ⊢
  · generalize hE : endsWithPictograph earlier = E
    cases next <;> first
      | exact absurd rfl hn
      | (cases last <;> cases E <;> simp [joins, Exceptional, isControl, hI, hE])

/-- The classes of the first characters of a text, the last one first. -/
def classesBefore (cs : List Char) (i : Nat) : List GClass := ((cs.take i).map classOf).reverse

theorem cut_iff (cs : List Char) (i : Nat) (h0 : 0 < i) (h1 : i < cs.length) :
    CutAt (clustersFrom gWindowInit [] cs) i ↔
      (joins (classesBefore cs i) (classOf cs[i]) = false ↔
        ¬ Exceptional (classesBefore cs i) (classOf cs[i])) := by
  have hc := clustersFrom_cut cs gWindowInit [] i h0 h1
  simp only [List.length_nil, Nat.zero_add] at hc
  rw [hc, nextC_eq cs i h1]
  have hw := gWin_eq (cs.take i) []
  rw [show (([] : List GClass) ++ gWindowInit).take 16 = gWindowInit by decide, List.append_nil] at hw
  rw [hw]
  obtain ⟨last, earlier, e⟩ : ∃ l e, classesBefore cs i = l :: e := by
    cases h : classesBefore cs i with
    | nil =>
      have : (classesBefore cs i).length = i := by
        simp only [classesBefore, List.length_reverse, List.length_map, List.length_take]
        omega
      rw [h, List.length_nil] at this
      omega
    | cons l e => exact ⟨l, e, rfl⟩
  rw [e, show ((cs.take i).map classOf).reverse = last :: earlier from e]
  exact shouldBreak_joins last earlier _

/-- C96: iterating over well-formed text gives consecutive non-empty parts of it, and at every place in
the text but the exceptional ones, they meet exactly if the rules of UAX 29 have a boundary there. Missing
from the full statement: the exceptional places, where the opposite is true (`C96_exceptional`), and
characters with the lead bytes DF and EF (`C41_false`). -/
theorem C96_boundaries_partial (cs : List Char) (h : Plain cs) :
    ∃ parts : List (List Char), graphemes (enc cs) = .ok (parts.map enc) ∧ parts.flatten = cs ∧
      (∀ p ∈ parts, p ≠ []) ∧
      ∀ i (_ : 0 < i) (hi : i < cs.length), ¬ Exceptional (classesBefore cs i) (classOf cs[i]) →
        (CutAt parts i ↔ joins (classesBefore cs i) (classOf cs[i]) = false) := by
  refine ⟨_, graphemes_enc h, by simpa using clustersFrom_flatten gWindowInit [] cs,
    clustersFrom_ne_nil _ _ _, fun i h0 hi he => ?_⟩
  rw [cut_iff cs i h0 hi]
  simp [he]

/-- C96, the exceptional places: there the parts meet exactly if the rules have no boundary. -/
theorem C96_exceptional (cs : List Char) (h : Plain cs) :
    ∃ parts : List (List Char), graphemes (enc cs) = .ok (parts.map enc) ∧ parts.flatten = cs ∧
      ∀ i (_ : 0 < i) (hi : i < cs.length), Exceptional (classesBefore cs i) (classOf cs[i]) →
        (CutAt parts i ↔ joins (classesBefore cs i) (classOf cs[i]) = true) := by
  refine ⟨_, graphemes_enc h, by simpa using clustersFrom_flatten gWindowInit [] cs,
    fun i h0 hi he => ?_⟩
  rw [cut_iff cs i h0 hi]
  simp [he]

/-- C96, whole texts: if no place in a text is exceptional, the clusters are those of UAX 29. -/
theorem C96_clusters_partial (cs : List Char) (h : Plain cs)
    (he : ∀ i (_ : 0 < i) (hi : i < cs.length), ¬ Exceptional (classesBefore cs i) (classOf cs[i])) :
    ∃ parts : List (List Char), graphemes (enc cs) = .ok (parts.map enc) ∧ parts.flatten = cs ∧
      (∀ p ∈ parts, p ≠ []) ∧
      ∀ i (_ : 0 < i) (hi : i < cs.length),
        (CutAt parts i ↔ joins (classesBefore cs i) (classOf cs[i]) = false) := by
  obtain ⟨parts, h1, h2, h3, h4⟩ := C96_boundaries_partial cs h
  exact ⟨parts, h1, h2, h3, fun i h0 hi => h4 i h0 hi (he i h0 hi)⟩

/-- A text with an accent, a family, a flag, a Korean syllable of three letters and a line end: no place
is exceptional, and its clusters. -/
example :
    let cs := "e\u0301👨\u200D👩🇬🇧각\r\nx".toList
    Plain cs ∧ (∀ i < cs.length, ∀ hi : i < cs.length, 0 < i →
      ¬ Exceptional (classesBefore cs i) (classOf (cs[i]'hi))) ∧
    graphemes (enc cs) = .ok ([['e', '\u0301'], ['👨', '\u200D', '👩'], ['🇬', '🇧'], ['각'], ['\r', '\n'],
      ['x']].map enc) := by decide +kernel

/-- Where the parts of a text start. -/
def startsFrom (n : Nat) : List (List Char) → List Nat
  | [] => []
  | p :: ps => n :: startsFrom (n + p.length) ps

theorem startsFrom_length (ps : List (List Char)) : ∀ n, (startsFrom n ps).length = ps.length := by
  induction ps with
  | nil => intro n; rfl
  | cons p ps ih => intro n; simp [startsFrom, ih]

theorem startsFrom_ge (ps : List (List Char)) : ∀ n, ∀ i ∈ startsFrom n ps, n ≤ i := by
  induction ps with
  | nil => intro n i h; cases h
  | cons p ps ih =>
    intro n i h
    simp only [startsFrom, List.mem_cons] at h
    rcases h with rfl | h
    · exact Nat.le_refl _
    · have := ih _ i h; omega

theorem startsFrom_nodup (ps : List (List Char)) (h : ∀ p ∈ ps, p ≠ []) :
    ∀ n, (startsFrom n ps).Nodup := by
  induction ps with
  | nil => intro n; exact List.nodup_nil
  | cons p ps ih =>
    intro n
    rw [startsFrom, List.nodup_cons]
    refine ⟨fun hm => ?_, ih (fun q hq => h q (List.mem_cons_of_mem _ hq)) _⟩
    have := startsFrom_ge ps _ n hm
    have := List.length_pos_iff.2 (h p List.mem_cons_self)
    omega

theorem mem_startsFrom (ps : List (List Char)) (h : ∀ p ∈ ps, p ≠ []) : ∀ n i,
    i ∈ startsFrom n ps ↔ i < n + ps.flatten.length ∧ ∃ k, n + ((ps.take k).flatten).length = i := by
  induction ps with
  | nil =>
    intro n i
    simp only [startsFrom, List.not_mem_nil, List.flatten_nil, List.length_nil, Nat.add_zero, false_iff]
    rintro ⟨h1, k, h2⟩
    simp at h2; omega
  | cons p ps ih =>
    intro n i
    have hp := List.length_pos_iff.2 (h p List.mem_cons_self)
    rw [startsFrom, List.mem_cons, ih (fun q hq => h q (List.mem_cons_of_mem _ hq))]
    simp only [List.flatten_cons, List.length_append]
    constructor
    · rintro (rfl | ⟨h1, k, h2⟩)
      · exact ⟨by omega, 0, by simp⟩
      · exact ⟨by omega, k + 1, by
          simp only [List.take_succ_cons, List.flatten_cons, List.length_append]; omega⟩
    · rintro ⟨h1, k, h2⟩
      cases k with
      | zero => left; simp at h2; omega
      | succ k => right; exact ⟨by omega, k, by
          simp only [List.take_succ_cons, List.flatten_cons, List.length_append] at h2; omega⟩

/-- C96, counting: the length of a text in clusters is the number of places where one starts – at its
beginning and where the rules of UAX 29 have a boundary, or at an exceptional place, where they have
none. -/
theorem C96_count (cs : List Char) (h : Plain cs) :
    ∃ starts : List Nat, gCount (enc cs) = .ok starts.length ∧ starts.Nodup ∧
      ∀ i, i ∈ starts ↔ ∃ hi : i < cs.length, i = 0 ∨
        (joins (classesBefore cs i) (classOf cs[i]) = false ↔
          ¬ Exceptional (classesBefore cs i) (classOf cs[i])) := by
  have hne := clustersFrom_ne_nil gWindowInit [] cs
  have hfl : (clustersFrom gWindowInit [] cs).flatten = cs := by
    simpa using clustersFrom_flatten gWindowInit [] cs
  refine ⟨startsFrom 0 (clustersFrom gWindowInit [] cs), ?_, startsFrom_nodup _ hne 0, fun i => ?_⟩
  · rw [gCount, graphemes_enc h, startsFrom_length]
    simp
  · rw [mem_startsFrom _ hne, hfl, Nat.zero_add]
    simp only [Nat.zero_add]
    constructor
    · rintro ⟨hi, hk⟩
      refine ⟨hi, ?_⟩
      by_cases h0 : i = 0
      · exact .inl h0
      · exact .inr ((cut_iff cs i (by omega) hi).1 hk)
    · rintro ⟨hi, h0 | hk⟩
      · exact ⟨hi, 0, by simp [h0]⟩
      · by_cases h0 : i = 0
        · exact ⟨hi, 0, by simp [h0]⟩
        · exact ⟨hi, (cut_iff cs i (by omega) hi).2 hk⟩

/-- The text of the example above has six clusters, and a line end with an accent, at an exceptional
place, is one. -/
example : gCount (enc "e\u0301👨\u200D👩🇬🇧각\r\nx".toList) = .ok 6 ∧ Plain ['\n', '\u0301', 'x'] ∧
    gCount (enc ['\n', '\u0301', 'x']) = .ok 2 := by decide +kernel

/-- C43, exactly: text is never cut before a mark, joiner or spacing mark; and where there is a control
character before or after the place, it is cut unless a mark, a joiner or a spacing mark follows, a prefix
precedes, or the place is inside a line end of two characters. -/
theorem C43_exact (cs : List Char) (h : Plain cs) :
    ∃ parts : List (List Char), graphemes (enc cs) = .ok (parts.map enc) ∧ parts.flatten = cs ∧
      (∀ p ∈ parts, p ≠ []) ∧
      ∀ i (hi : i + 1 < cs.length),
        (classOf cs[i + 1] ∈ [GClass.extend, .ZWJ, .spacing_mark] → ¬ CutAt parts (i + 1)) ∧
        ((isControl (classOf cs[i]) = true ∨ isControl (classOf cs[i + 1]) = true) →
          (CutAt parts (i + 1) ↔ classOf cs[i + 1] ∉ [GClass.extend, .ZWJ, .spacing_mark] ∧
            classOf cs[i] ≠ .prepend ∧ ¬ (classOf cs[i] = .CR ∧ classOf cs[i + 1] = .LF))) := by
  refine ⟨_, graphemes_enc h, by simpa using clustersFrom_flatten gWindowInit [] cs,
    clustersFrom_ne_nil _ _ _, fun i hi => ?_⟩
  rw [cut_iff cs (i + 1) (by omega) hi]
  obtain ⟨earlier, e⟩ : ∃ e, classesBefore cs (i + 1) = classOf cs[i] :: e := by
    refine ⟨classesBefore cs i, ?_⟩
    have ht : cs.take (i + 1) = cs.take i ++ [cs[i]] := by
      rw [List.take_succ_eq_append_getElem (by omega)]
    rw [classesBefore, classesBefore, ht, List.map_append, List.reverse_append]
    rfl
  rw [e]
  generalize classOf cs[i] = last
  generalize classOf cs[i + 1] = next
  constructor
  · intro hm
    simp only [List.mem_cons, List.not_mem_nil, or_false] at hm
    rcases hm with rfl | rfl | rfl <;> cases last <;>
      simp [joins, Exceptional, isControl]
  · intro hc
    cases last <;> simp [isControl] at hc <;>
      (try (rcases hc with hc | hc)) <;> (try cases next) <;>
      simp_all [joins, Exceptional, isControl, indicators]

/-- A control character, a prefix and a mark: where the text is cut. -/
example : Plain ['\n', '\u0301', '\n', '\u0600', '\n', '\r', '\n', 'x'] ∧
    graphemes (enc ['\n', '\u0301', '\n', '\u0600', '\n', '\r', '\n', 'x']) =
      .ok ([['\n', '\u0301'], ['\n'], ['\u0600', '\n'], ['\r', '\n'], ['x']].map enc) := by decide +kernel

/-- C96 is false: an accent after a line end belongs to it (GB4), a mark before a line end holds it
(GB5), a joiner joins a pictograph to a letter (GB11), and eighteen indicators are not nine pairs
(GB12). In each case the rules say otherwise. -/
theorem C96_false :
    (graphemes (enc ['\n', '\u0301']) = .ok [enc ['\n', '\u0301']] ∧ joins [.LF] (classOf '\u0301') = false) ∧
    (graphemes (enc ['\u0600', '\n']) = .ok [enc ['\u0600', '\n']] ∧
      joins [classOf '\u0600'] (classOf '\n') = false) ∧
    (graphemes (enc ['a', '\u200D', '👩']) = .ok [enc ['a', '\u200D', '👩']] ∧
      joins [classOf '\u200D', classOf 'a'] (classOf '👩') = false) ∧
    (graphemes (enc (List.replicate 18 '🇬')) = .ok ((List.replicate 8 ['🇬', '🇬'] ++ [['🇬'], ['🇬']]).map enc) ∧
      joins (List.replicate 17 (classOf '🇬')) (classOf '🇬') = true) := by decide +kernel

end ArgRouter.Props
