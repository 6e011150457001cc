import Verif.Lemmas.Line
import Verif.Props.Utf8
import Verif.Utf8.Grapheme
import Verif.Spec.Wrap

/-!
# C45-C48: line wrapping

Stated for well-formed text without lead bytes DF/EF (`Plain`, see C34/C35 for why).
-/

namespace ArgRouter.Props

open ArgRouter.Utf8 ArgRouter.Spec

theorem colW_eq {c : Char} (h : leadDForEF c = false) : colW c = columns c := cpWidth_encChar h

theorem widthC_eq {cs : List Char} (h : Plain cs) : widthC cs = (cs.map columns).sum := by
  unfold widthC
  rw [List.map_congr_left fun c hc => colW_eq (h c hc)]

theorem wsC_eq {c : Char} (h : leadDForEF c = false) : wsC c = isUnicodeWhitespace c := by
  simpa [wsC] using C39_is_whitespace c [] h

/-- Turning the iteration invariant into a statement about pieces. -/
theorem Wraps.pieces {maxCols : Nat} {P : List Char → List Char → Prop}
    (hP : ∀ line after w, Plain (line ++ after) →
      line.length = (scanC maxCols (line ++ after) w).1 → line ≠ [] → P line after)
    {w : LWindow} {t : List Char} {ls : List (List Char)} (h : Wraps maxCols w t ls) (ht : Plain t) :
    Pieces P t ls := by
  induction h with
  | nil => exact .nil
  | @cons t line gap rest ls w heq hne hlen hgap hrest _ ih =>
    subst heq
    have h1 := Plain.append_iff.1 ht
    have h2 := Plain.append_iff.1 h1.1
    refine .cons (fun c hc => ?_) ?_ (ih h1.2)
    · rw [← wsC_eq (h2.2 c hc)]; exact hgap c hc
    · rw [List.append_assoc] at ht hlen
      exact hP line (gap ++ rest) w ht hlen hne

/-! ## C45 – wrapped lines fit -/

/-- C45: every line produced is at most the requested number of columns wide (whenever the
iteration ends; see C47 for when it does), counted by the tables of character widths, which is also
what `terminal_width` says of it. `fuel` bounds how many lines are taken. Missing: text with lead
bytes DF/EF, for which it is false (`C45_false`). -/
theorem C45_lines_fit_partial (cs : List Char) (h : Plain cs) (n fuel : Nat) (ls : List Bytes)
    (hl : linesFuel fuel (enc cs) n = .ok ls) :
    ∀ l ∈ ls, ∃ line : List Char, l = enc line ∧ (line.map columns).sum ≤ n ∧
      terminalWidth l = .ok ((line.map columns).sum) := by
  by_cases hn : n = 0
  · subst hn
    have : ls = [] := by
      cases fuel <;> simp [linesFuel, LIter.init, LIter.consume, LIter.toList] at hl <;> exact hl
    subst this; simp
  · obtain ⟨parts, rfl, hw⟩ := linesFuel_wraps fuel cs h n hn ls hl
    have hp := Wraps.pieces (P := fun line _ => Plain line ∧ widthC line ≤ n) (by
      intro line after w hpl hlen _
      refine ⟨(Plain.append_iff.1 hpl).1, ?_⟩
      have := scanC_width n (line ++ after) w
      rw [← hlen, List.take_left] at this
      exact this) hw h
    intro l hlmem
    obtain ⟨p, hpm, rfl⟩ := List.mem_map.1 hlmem
    obtain ⟨_, hpl, hpw⟩ := hp.forall p hpm
    rw [widthC_eq hpl] at hpw
    exact ⟨p, rfl, hpw, C40_width_sum_partial p hpl⟩

/-- C45 is false in general: fullwidth exclamation marks (U+FF01, lead byte EF) take two columns
each. The line of three of them and a letter is seven columns wide, not three. -/
theorem C45_false : lines (enc "！！！ab".toList) 3 = .ok [enc "！！！a".toList, b "b"] ∧
    ("！！！a".toList.map columns).sum = 7 := by decide +kernel

example : lines (enc "the quick 猫 jumps".toList) 7 =
    .ok [b "the ", b "quick ", b "猫 ", b "jumps"] := by decide +kernel

/-! ## C46 – only whitespace is lost -/

/-- C46: for a non-zero column count the lines are consecutive pieces of the text and what is left
out between (and after) them is whitespace. -/
theorem C46_only_whitespace_lost_partial (cs : List Char) (h : Plain cs) (n : Nat) (hn : n ≠ 0)
    (fuel : Nat) (ls : List Bytes) (hl : linesFuel fuel (enc cs) n = .ok ls) :
    ∃ parts : List (List Char), ls = parts.map enc ∧ Pieces (fun line _ => line ≠ []) cs parts := by
  obtain ⟨parts, rfl, hw⟩ := linesFuel_wraps fuel cs h n hn ls hl
  exact ⟨parts, rfl, Wraps.pieces (fun _ _ _ _ _ hne => hne) hw h⟩

/-- With a column count of zero the whole text is dropped (documented: the iterator is an end
iterator), so C46 needs a non-zero count. -/
theorem C46_zero_columns_false : lines (b "text") 0 = .ok [] := by decide +kernel

/-- C46 is false for text with lead bytes DF/EF: the lines are cut in the middle of a character. U+07FF
is encoded as DF BF, and the first line ends after its DF. -/
theorem C46_cut_false : lines (enc ['a', 'a', ' ', Char.ofNat 0x7FF, Char.ofNat 0x7FF, ' ', 'c', 'c']) 4
      = .ok [b "aa " ++ [0xDF, 0xBF, 0xDF], [0xBF] ++ b " cc"] ∧
    encChar (Char.ofNat 0x7FF) = [0xDF, 0xBF] := by decide +kernel

/-- The text can be rebuilt from the lines up to whitespace: removing all whitespace from the text
and from the lines gives the same characters. -/
theorem C46_same_non_whitespace_partial (cs : List Char) (h : Plain cs) (n : Nat) (hn : n ≠ 0)
    (fuel : Nat) (ls : List Bytes) (hl : linesFuel fuel (enc cs) n = .ok ls) :
    ∃ parts : List (List Char), ls = parts.map enc ∧
      parts.flatten.filter (fun c => !isUnicodeWhitespace c)
        = cs.filter (fun c => !isUnicodeWhitespace c) := by
  obtain ⟨parts, rfl, hp⟩ := C46_only_whitespace_lost_partial cs h n hn fuel ls hl
  refine ⟨parts, rfl, ?_⟩
  clear hl h
  induction hp with
  | nil => rfl
  | @cons line gap rest ls hgap _ _ ih =>
    have hg : gap.filter (fun c => !isUnicodeWhitespace c) = [] := by
      rw [List.filter_eq_nil_iff]
      intro c hc; simp [hgap c hc]
    simp only [List.flatten_cons, List.filter_append, hg, List.append_nil, ih]

/-! ## C47 – termination -/

/-- C47 is false: a two-column character with a one-column limit is never passed, however many
lines are taken. -/
theorem C47_false : ∀ fuel, linesFuel fuel (enc ['猫']) 1 = .diverge := by
  intro fuel
  have hp : Plain ['猫'] := by decide +kernel
  rw [linesFuel, init_enc _ hp 1 (by decide)]
  simp only [Out.ok_bind, List.cons_ne_nil, if_false]
  exact toList_stuck 1 '猫' [] hp _ (by decide +kernel) fuel

/-- C47, the true part: the iteration ends, within as many lines as there are characters, when every
character fits into the column count. Missing from the full statement: texts with a character wider
than the column count, for which it can be false (`C47_false`). -/
theorem C47_terminates_partial (cs : List Char) (h : Plain cs) (n : Nat) (hn : n ≠ 0)
    (hfit : ∀ c ∈ cs, columns c ≤ n) : ∃ ls, lines (enc cs) n = .ok ls := by
  rw [lines, linesFuel, init_enc cs h n hn]
  simp only [Out.ok_bind]
  by_cases hc : cs = []
  · subst hc; exact ⟨[], by simp [LIter.toList]⟩
  · rw [if_neg hc]
    exact toList_terminates n _ cs _ h (fun c hm => by rw [colW_eq (h c hm)]; exact hfit c hm)
      (length_enc_le cs)

theorem columns_le_sum {c : Char} {cs : List Char} (h : c ∈ cs) :
    columns c ≤ (cs.map columns).sum := by
  induction cs with
  | nil => cases h
  | cons d ds ih =>
    simp only [List.map_cons, List.sum_cons]
    rcases List.mem_cons.1 h with rfl | h
    · omega
    · have := ih h; omega

/-- C47, exactly. For one or more columns the iteration ends if and only if the first character fits
into a line of its own and every other character that does not fit is whitespace; it then ends within
as many lines as the text has bytes. In all other cases it goes on for ever. (For no columns it ends at
once, `C46_zero_columns_false`.) The only thing missing is text with lead bytes DF/EF. -/
theorem C47_exact_partial (cs : List Char) (h : Plain cs) (n : Nat) (hn : n ≠ 0) :
    ((∃ ls, lines (enc cs) n = .ok ls) ↔
      (∀ c ∈ cs.head?, columns c ≤ n) ∧ ∀ c ∈ cs, columns c ≤ n ∨ isUnicodeWhitespace c = true) ∧
    ((¬ ∃ ls, lines (enc cs) n = .ok ls) ↔ ∀ fuel, linesFuel fuel (enc cs) n = .diverge) := by
  have fits : ∀ fuel ls, linesFuel fuel (enc cs) n = .ok ls →
      (∀ c ∈ cs.head?, columns c ≤ n) ∧
        ∀ c ∈ cs, columns c ≤ n ∨ isUnicodeWhitespace c = true := by
    intro fuel ls hl
    obtain ⟨parts, -, hw⟩ := linesFuel_wraps fuel cs h n hn ls hl
    have hp := Wraps.pieces (P := fun line _ => line ≠ [] ∧ ∀ c ∈ line, columns c ≤ n) (by
      intro line after w hpl hlen hne
      refine ⟨hne, fun c hc => ?_⟩
      have := scanC_width n (line ++ after) w
      rw [← hlen, List.take_left, widthC_eq (Plain.append_iff.1 hpl).1] at this
      exact Nat.le_trans (columns_le_sum hc) this) hw h
    clear hw hl h fuel ls
    induction hp with
    | nil => simp
    | @cons line gap rest ls hgap hline _ ih =>
      refine ⟨fun c hc => ?_, fun c hc => ?_⟩
      · cases line with
        | nil => exact absurd rfl hline.1
        | cons d ds =>
          simp only [List.cons_append, List.head?_cons, Option.mem_def, Option.some.injEq] at hc
          exact hline.2 c (by simp [hc])
      · simp only [List.mem_append] at hc
        rcases hc with (hc | hc) | hc
        · exact .inl (hline.2 c hc)
        · exact .inr (hgap c hc)
        · exact ih.2 c hc
  have ends : (∀ c ∈ cs.head?, columns c ≤ n) →
      (∀ c ∈ cs, columns c ≤ n ∨ isUnicodeWhitespace c = true) → ∃ ls, lines (enc cs) n = .ok ls := by
    intro h1 h2
    rw [lines, linesFuel, init_enc cs h n hn]
    simp only [Out.ok_bind]
    by_cases hc : cs = []
    · subst hc; exact ⟨[], by simp [LIter.toList]⟩
    · rw [if_neg hc]
      refine toList_terminates_ws n _ cs _ h (fun c hm => ?_) (fun c hm => ?_) (length_enc_le cs)
      · rw [colW_eq (h c (List.mem_of_mem_head? hm))]; exact h1 c hm
      · rw [colW_eq (h c hm), wsC_eq (h c hm)]; exact h2 c hm
  refine ⟨⟨fun ⟨ls, hl⟩ => fits _ ls hl, fun ⟨h1, h2⟩ => ends h1 h2⟩, ⟨fun hno fuel => ?_, ?_⟩⟩
  · by_cases hc : cs = []
    · subst hc; exact absurd (ends (by simp) (by simp)) hno
    · have hlf : linesFuel fuel (enc cs) n = (stateC n cs lWindowInit).toList fuel := by
        rw [linesFuel, init_enc cs h n hn, if_neg hc]; rfl
      rcases toList_ok_or_diverge n fuel cs lWindowInit h with ⟨ls, hl⟩ | hd
      · have := fits fuel ls (hlf.trans hl)
        exact absurd (ends this.1 this.2) hno
      · exact hlf.trans hd
  · rintro hd ⟨ls, hl⟩
    rw [lines, hd] at hl
    cases hl

/-- With one column a wide character anywhere in the text makes the iteration endless, unless it is
whitespace and not the first character. -/
example : (∀ fuel, linesFuel fuel (enc "cat 猫".toList) 1 = .diverge) ∧
    lines (enc ['a', Char.ofNat 0x3000, 'b']) 1 = .ok [b "a", b "b"] ∧
    ∀ fuel, linesFuel fuel (enc [Char.ofNat 0x3000, 'b']) 1 = .diverge := by
  refine ⟨?_, by decide +kernel, ?_⟩
  · have hp : Plain "cat 猫".toList := by decide +kernel
    rw [← (C47_exact_partial _ hp 1 (by decide)).2, (C47_exact_partial _ hp 1 (by decide)).1]
    decide +kernel
  · have hp : Plain [Char.ofNat 0x3000, 'b'] := by decide +kernel
    rw [← (C47_exact_partial _ hp 1 (by decide)).2, (C47_exact_partial _ hp 1 (by decide)).1]
    decide +kernel

/-- In particular it always ends for two or more columns. -/
theorem C47_terminates_two_columns_partial (cs : List Char) (h : Plain cs) (n : Nat) (hn : 2 ≤ n) :
    ∃ ls, lines (enc cs) n = .ok ls :=
  C47_terminates_partial cs h n (by omega) fun c _ => by
    have : columns c ≤ 2 := by unfold columns; repeat' split
                               all_goals omega
    omega

example : Plain "some 猫 text".toList ∧ ∀ c ∈ "some 猫 text".toList, columns c ≤ 2 := by
  decide +kernel

/-! ## C48 – break opportunities -/

/-- The window of classes after reading `line` with history `w`. -/
def winAfter (w : LWindow) : List Char → LWindow
  | [] => w
  | c :: cs => winAfter (lPush (lClass c.toNat) w) cs

theorem winAfter_append (w : LWindow) (a c : List Char) :
    winAfter w (a ++ c) = winAfter (winAfter w a) c := by
  induction a generalizing w with
  | nil => rfl
  | cons x a ih => simp [winAfter, ih]

/-- None of the implemented line breaking rules (LB6-LB30b) forbids a break after `line`, when
`after` follows and `w` are the classes read before `line`. -/
def Opportunity (w : LWindow) (line after : List Char) : Prop :=
  line ≠ [] ∧ ∀ rule ∈ lineRules, rule (winAfter w line) (lNextC after) = false

theorem shouldBreak_iff (w : LWindow) (n : LClass) :
    lShouldBreak w n = true ↔ ∀ rule ∈ lineRules, rule w n = false := by
  simp only [lShouldBreak, Bool.not_eq_true', List.any_eq_false, Bool.not_eq_true]

theorem lLoopC_opp (maxCols : Nat) (t : List Char) (w0 : LWindow) :
    ∀ (cs pre : List Char), t = pre ++ cs → ∀ lbn, lbn ≤ pre.length →
      (lbn ≠ 0 → Opportunity w0 (t.take lbn) (t.drop lbn)) →
      (∀ i, lbn < i → i ≤ pre.length → ¬ Opportunity w0 (t.take i) (t.drop i)) →
      let k := (lLoopC maxCols t.length cs (widthC pre) pre.length (widthC (t.take lbn)) lbn
        (winAfter w0 pre)).1
      k < t.length → Opportunity w0 (t.take k) (t.drop k) ∨
        ∀ i, Opportunity w0 (t.take i) (t.drop i) → widthC (t.take i) ≤ maxCols →
          widthC (t.take i) = 0 := by
  intro cs
  induction cs with
  | nil => intro pre hpre lbn _ _ _ k hk; simp [k, lLoopC] at hk
  | cons c cs ih =>
    intro pre hpre lbn hlb hopp hno
    have htake : t.take pre.length = pre := by rw [hpre, List.take_left]
    have htake' : t.take (pre.length + 1) = pre ++ [c] := by
      rw [hpre, show pre.length + 1 = (pre ++ [c]).length by simp,
        show pre ++ c :: cs = (pre ++ [c]) ++ cs by simp, List.take_left]
    have hdrop' : t.drop (pre.length + 1) = cs := by
      rw [hpre, show pre.length + 1 = (pre ++ [c]).length by simp,
        show pre ++ c :: cs = (pre ++ [c]) ++ cs by simp, List.drop_left]
    have hwc : widthC (pre ++ [c]) = widthC pre + colW c := by
      rw [widthC_append]; simp [widthC]
    rw [lLoopC]
    by_cases hcol : widthC pre + colW c > maxCols
    · simp only [if_pos hcol]
      intro _
      by_cases hl : widthC (t.take lbn) = 0
      · right
        intro i hi hw
        by_cases h1 : i ≤ pre.length
        · by_cases h2 : lbn < i
          · exact absurd hi (hno i h2 h1)
          · have : t.take lbn = t.take i ++ (t.take lbn).drop i := by
              conv => lhs; rw [← List.take_append_drop i (t.take lbn)]
              rw [List.take_take, Nat.min_eq_left (by omega)]
            rw [this, widthC_append] at hl
            omega
        · exfalso
          have : t.take i = pre ++ [c] ++ (t.take i).drop (pre.length + 1) := by
            conv => lhs; rw [← List.take_append_drop (pre.length + 1) (t.take i)]
            rw [List.take_take, Nat.min_eq_left (by omega), htake']
          rw [this, widthC_append, hwc] at hw
          omega
      · left
        rw [if_neg hl]
        apply hopp
        intro h0; subst h0; simp [widthC] at hl
    · simp only [if_neg hcol]
      have hpre' : t = (pre ++ [c]) ++ cs := by rw [hpre]; simp
      have hlen : (pre ++ [c]).length = pre.length + 1 := by simp
      have hwin : lPush (lClass c.toNat) (winAfter w0 pre) = winAfter w0 (pre ++ [c]) := by
        rw [winAfter_append]; rfl
      by_cases hs : lShouldBreak (lPush (lClass c.toNat) (winAfter w0 pre)) (lNextC cs) = true
      · simp only [if_pos hs]
        have := ih (pre ++ [c]) hpre' (pre.length + 1) (by simp)
          (by
            intro _
            refine ⟨by rw [htake']; simp, ?_⟩
            rw [htake', hdrop', ← hwin]
            exact (shouldBreak_iff _ _).1 hs)
          (by intro i h1 h2; rw [hlen] at h2; omega)
        rw [hlen, htake', hwc, ← hwin] at this
        exact this
      · simp only [if_neg hs]
        have := ih (pre ++ [c]) hpre' lbn (by rw [hlen]; omega) hopp
          (by
            intro i h1 h2
            rw [hlen] at h2
            rcases Nat.lt_or_ge pre.length i with h3 | h3
            · have : i = pre.length + 1 := by omega
              subst this
              rintro ⟨-, ho⟩
              rw [htake', hdrop', ← hwin] at ho
              exact hs ((shouldBreak_iff _ _).2 ho)
            · exact hno i h1 h3)
        rw [hlen, hwc, ← hwin] at this
        exact this

/-- C48: whenever a line ends before the end of the text, it ends at a position where no line
breaking rule forbids a break, or else there is no such position that fits on the line (apart from
positions in front of which there is nothing visible). A line always consists of whole characters
(it is the encoding of a list of characters). `w` is the iterator's record of the classes read
before this line. -/
theorem C48_break_at_opportunity_partial (cs : List Char) (h : Plain cs) (n : Nat) (hn : n ≠ 0)
    (fuel : Nat) (ls : List Bytes) (hl : linesFuel fuel (enc cs) n = .ok ls) :
    ∃ parts : List (List Char), ls = parts.map enc ∧
      Pieces (fun line after => after ≠ [] → ∃ w, Opportunity w line after ∨
        ∀ i, Opportunity w ((line ++ after).take i) ((line ++ after).drop i) →
          (((line ++ after).take i).map columns).sum ≤ n →
          (((line ++ after).take i).map columns).sum = 0) cs parts := by
  obtain ⟨parts, rfl, hw⟩ := linesFuel_wraps fuel cs h n hn ls hl
  refine ⟨parts, rfl, Wraps.pieces ?_ hw h⟩
  intro line after w hpl hlen hne hafter
  refine ⟨w, ?_⟩
  have key := lLoopC_opp n (line ++ after) w (line ++ after) [] rfl 0 (by simp) (by simp)
    (by intro i h1 h2; simp at h2; omega)
  have hlen' : (lLoopC n (line ++ after).length (line ++ after) (widthC []) ([] : List Char).length
      (widthC ((line ++ after).take 0)) 0 (winAfter w [])).1 = line.length := hlen.symm
  simp only [hlen', List.take_left, List.drop_left] at key
  rcases key (by
    rw [List.length_append]
    have := List.length_pos_iff.2 hafter
    omega) with h1 | h1
  · exact .inl h1
  · right
    intro i hi hwi
    have hpi : Plain ((line ++ after).take i) := fun c hc => hpl c (List.mem_of_mem_take hc)
    rw [← widthC_eq hpi] at hwi ⊢
    exact h1 i hi hwi

/-! ### Words

For text of letters and spaces the opportunities do not depend on the history. -/

def isLetter (c : Char) : Prop := (0x41 ≤ c.toNat ∧ c.toNat ≤ 0x5A) ∨ (0x61 ≤ c.toNat ∧ c.toNat ≤ 0x7A)

instance (c : Char) : Decidable (isLetter c) := by unfold isLetter; infer_instance

theorem letter_class {c : Char} (h : isLetter c) : lClass c.toNat = .AL := by
  have h1 : ∀ n : Fin 26, lClass (0x41 + n.val) = .AL := by decide +kernel
  have h2 : ∀ n : Fin 26, lClass (0x61 + n.val) = .AL := by decide +kernel
  rcases h with h | h
  · have := h1 ⟨c.toNat - 0x41, by omega⟩
    simpa [Nat.add_sub_cancel' h.1] using this
  · have := h2 ⟨c.toNat - 0x61, by omega⟩
    simpa [Nat.add_sub_cancel' h.1] using this

theorem space_class : lClass ' '.toNat = .SP := by decide +kernel

theorem firstNonSP_take (w : LWindow) (k : Nat) :
    firstNonSP (w.take k) = none ∨ firstNonSP (w.take k) = firstNonSP w := by
  induction w generalizing k with
  | nil => simp [firstNonSP]
  | cons c w ih =>
    cases k with
    | zero => simp [firstNonSP]
    | succ k =>
      rw [List.take_succ_cons]
      by_cases hc : c = .SP
      · subst hc; exact ih k
      · right; cases c <;> first | rfl | exact absurd rfl hc

theorem firstNonSP_push_space (w : LWindow)
    (h : firstNonSP w = none ∨ firstNonSP w = some .AL) :
    firstNonSP (lPush .SP w) = none ∨ firstNonSP (lPush .SP w) = some .AL := by
  rw [lPush, firstNonSP]
  rcases firstNonSP_take w 15 with h1 | h1
  · exact .inl h1
  · rw [h1]; exact h

/-- Once a letter has been read, only letters and spaces have been read since. -/
theorem firstNonSP_words (w : LWindow) (line : List Char) (h : ∀ c ∈ line, isLetter c ∨ c = ' ') :
    (firstNonSP w = none ∨ firstNonSP w = some .AL) ∨ (∃ d ∈ line, isLetter d) →
    firstNonSP (winAfter w line) = none ∨ firstNonSP (winAfter w line) = some .AL := by
  induction line generalizing w with
  | nil =>
    rintro (h1 | ⟨d, hd, _⟩)
    · exact h1
    · simp at hd
  | cons c cs ih =>
    intro h1
    rw [winAfter]
    have hcs : ∀ c ∈ cs, isLetter c ∨ c = ' ' := fun x hx => h x (List.mem_cons_of_mem _ hx)
    rcases h c List.mem_cons_self with hc | hc
    · rw [letter_class hc]
      exact ih _ hcs (.inl (.inr rfl))
    · subst hc
      rw [space_class]
      rcases h1 with h1 | ⟨d, hd, hl⟩
      · exact ih _ hcs (.inl (firstNonSP_push_space _ h1))
      · rcases List.mem_cons.1 hd with rfl | hd
        · exact absurd hl (by decide)
        · exact ih _ hcs (.inr ⟨d, hd, hl⟩)

/-- A break between a space and a letter is allowed if there is a letter before. -/
theorem opp_space_letter (w : LWindow) (line after : List Char)
    (h : ∀ c ∈ line, isLetter c ∨ c = ' ') (hd : ∃ d ∈ line, isLetter d)
    (a : Char) (ha : isLetter a) : Opportunity w (line ++ [' ']) (a :: after) := by
  refine ⟨by simp, ?_⟩
  rw [lNextC, letter_class ha, winAfter_append]
  have hf := firstNonSP_push_space _ (firstNonSP_words w line h (.inr hd))
  simp only [winAfter, space_class]
  have h0 : lw0 (lPush .SP (winAfter w line)) = .SP := rfl
  generalize lPush .SP (winAfter w line) = v at hf h0
  intro rule hr
  simp only [lineRules, List.mem_cons, List.not_mem_nil, or_false] at hr
  rcases hr with h | h | h | h | h | h | h | h | h | h | h | h | h | h | h | h | h | h | h | h | h |
    h | h | h | h | h | h <;> subst h <;>
    first
    | rfl
    | (simp [LB6, LB7, LB8a_9, LB11, LB12, LB12a, LB13, LB15, LB16, LB17, LB19, LB21, LB21a, LB21b,
        LB22, LB23, LB23a, LB24, LB25, LB26, LB27, LB28, LB29, LB30, LB30a, LB30b, h0]; done)
    | (rcases hf with hf | hf <;> simp [LB14, hf])

/-- No break is allowed between two letters. -/
theorem not_opp_letters (w : LWindow) (line after : List Char) (l a : Char) (hl : isLetter l)
    (ha : isLetter a) : ¬ Opportunity w (line ++ [l]) (a :: after) := by
  rintro ⟨-, h⟩
  have := h LB28 (by simp [lineRules])
  rw [lNextC, letter_class ha, winAfter_append] at this
  simp [winAfter, letter_class hl, LB28, lPush, lw0] at this

/-- Text of letters and spaces only. -/
def Words (cs : List Char) : Prop := ∀ c ∈ cs, isLetter c ∨ c = ' '

theorem words_columns {c : Char} (h : isLetter c ∨ c = ' ') : columns c = 1 := by
  have h1 : ∀ n : Fin 0x80, 0x20 ≤ n.val → n.val ≠ 0x7F → columns (Char.ofNat n.val) = 1 := by
    decide +kernel
  have h2 : c.toNat < 0x80 ∧ 0x20 ≤ c.toNat ∧ c.toNat ≠ 0x7F := by
    rcases h with h | h
    · rcases h with h | h <;> omega
    · subst h; decide
  have := h1 ⟨c.toNat, h2.1⟩ h2.2.1 h2.2.2
  simpa using this

theorem words_plain {cs : List Char} (h : Words cs) : Plain cs := by
  intro c hc
  have h1 : ∀ n : Fin 0x80, leadDForEF (Char.ofNat n.val) = false := by decide +kernel
  have h2 : c.toNat < 0x80 := by
    rcases h c hc with h | h
    · rcases h with h | h <;> omega
    · subst h; decide
  simpa using h1 ⟨c.toNat, h2⟩

theorem space_letter_split : ∀ (v : List Char) (l : Char), Words v → isLetter l → ' ' ∈ v →
    ∃ x y ys, v ++ [l] = x ++ ' ' :: y :: ys ∧ isLetter y ∧ ∀ c ∈ x, c ∈ v := by
  intro v l
  induction v with
  | nil => intro _ _ h; simp at h
  | cons c v ih =>
    intro hw hl hs
    have hw' : Words v := fun c hc => hw c (List.mem_cons_of_mem _ hc)
    by_cases hv : ' ' ∈ v
    · obtain ⟨x, y, ys, h1, h2, h3⟩ := ih hw' hl hv
      refine ⟨c :: x, y, ys, by simp [h1], h2, ?_⟩
      intro d hd
      rcases List.mem_cons.1 hd with rfl | hd
      · exact List.mem_cons_self
      · exact List.mem_cons_of_mem _ (h3 d hd)
    · have hc : c = ' ' := by
        rcases List.mem_cons.1 hs with h | h
        · exact h.symm
        · exact absurd h hv
      subst hc
      cases v with
      | nil => exact ⟨[], l, [], rfl, hl, by simp⟩
      | cons d v =>
        refine ⟨[], d, v ++ [l], rfl, ?_, by simp⟩
        rcases hw' d List.mem_cons_self with h | h
        · exact h
        · exact absurd (h ▸ List.mem_cons_self) hv

/-- C48 for ordinary text (letters and spaces): a line ends in the middle of a word only if it
consists of nothing but the beginning of that word (preceded at most by leading spaces). -/
theorem C48_words (cs : List Char) (h : Words cs) (n : Nat) (hn : n ≠ 0) :
    ∃ parts : List (List Char), lines (enc cs) n = .ok (parts.map enc) ∧
      Pieces (fun line after => ∀ l a, line.getLast? = some l → after.head? = some a →
        isLetter l → isLetter a → ∃ spaces word, line = spaces ++ word ∧
          (∀ c ∈ spaces, c = ' ') ∧ (∀ c ∈ word, isLetter c)) cs parts := by
  have hpl := words_plain h
  obtain ⟨ls, hl⟩ := C47_terminates_partial cs hpl n hn
    (fun c hc => by rw [words_columns (h c hc)]; omega)
  obtain ⟨parts, rfl, hp⟩ := C48_break_at_opportunity_partial cs hpl n hn _ ls hl
  have hfit := C45_lines_fit_partial cs hpl n _ _ hl
  refine ⟨parts, hl, ?_⟩
  clear hl hpl
  induction hp with
  | nil => exact .nil
  | @cons line gap rest ls hgap hP more ih =>
    have hrest : Words rest := fun c hc => h c (by simp [hc])
    have hline : Words line := fun c hc => h c (by simp [hc])
    refine .cons hgap ?_ (ih hrest fun l hl => hfit l (by
      simp only [List.map_cons, List.mem_cons]; exact .inr hl))
    intro l a hl ha hll haa
    obtain ⟨after, hafter⟩ : ∃ after, gap ++ rest = a :: after := by
      cases hg : gap ++ rest with
      | nil => rw [hg] at ha; simp at ha
      | cons x xs => rw [hg] at ha; simp at ha; exact ⟨xs, by rw [ha]⟩
    rw [hafter] at hP
    obtain ⟨w, hw⟩ := hP (by simp)
    obtain ⟨l0, rfl⟩ := List.getLast?_eq_some_iff.1 hl
    rcases hw with hw | hw
    · exact absurd hw (not_opp_letters w l0 after l a hll haa)
    -- the leading spaces, and what follows them
    have hsplit : (l0 ++ [l]) = (l0 ++ [l]).takeWhile (· == ' ') ++ (l0 ++ [l]).dropWhile (· == ' ') :=
      (List.takeWhile_append_dropWhile).symm
    refine ⟨_, _, hsplit, ?_, ?_⟩
    · intro c hc
      have := List.all_takeWhile (l := l0 ++ [l]) (p := (· == ' '))
      rw [List.all_eq_true] at this
      simpa using this c hc
    · intro c hc
      rcases hline c (List.dropWhile_subset _ hc) with h1 | h1
      · exact h1
      · exfalso
        subst h1
        -- leading spaces `sp`, then the rest of the line `u ++ [l]`
        obtain ⟨u, hu⟩ : ∃ u, (l0 ++ [l]).dropWhile (· == ' ') = u ++ [l] := by
          rw [List.dropWhile_append]
          split
          · refine ⟨[], ?_⟩
            have : l ≠ ' ' := by intro e; subst e; exact absurd hll (by decide)
            have h2 : (l == ' ') = false := by simpa using this
            simp only [List.dropWhile, h2, List.nil_append]
          · exact ⟨_, rfl⟩
        have hul : ∀ c ∈ u ++ [l], isLetter c ∨ c = ' ' := by
          rw [← hu]; exact fun c hc => hline c (List.dropWhile_subset _ hc)
        rw [hu] at hc hsplit
        have hsu : ' ' ∈ u := by
          rcases List.mem_append.1 hc with h1 | h1
          · exact h1
          · simp at h1; subst h1; exact absurd hll (by decide)
        obtain ⟨x, y, ys, hxy, hy, hx⟩ := space_letter_split u l
          (fun c hc => hul c (by simp [hc])) hll hsu
        have hhead : ∃ d ∈ x, isLetter d := by
          have hnd : ∀ c, ((l0 ++ [l]).dropWhile (· == ' ')).head? = some c → c ≠ ' ' := by
            intro c hc
            have := List.head?_dropWhile_not (· == ' ') (l0 ++ [l])
            rw [hc] at this; simpa using this
          rw [hu, hxy] at hnd
          cases x with
          | nil => exact absurd rfl (hnd ' ' rfl)
          | cons d x =>
            refine ⟨d, List.mem_cons_self, ?_⟩
            rcases hul d (by rw [hxy]; simp) with h1 | h1
            · exact h1
            · exact absurd h1 (hnd d rfl)
        generalize hsp : (l0 ++ [l]).takeWhile (· == ' ') = sp at hsplit
        rw [hxy] at hsplit
        have hpre : ∀ c ∈ sp ++ x, isLetter c ∨ c = ' ' := by
          intro c hc; apply hline; rw [hsplit]
          rcases List.mem_append.1 hc with h1 | h1 <;> simp [h1]
        have hopp := opp_space_letter w (sp ++ x) (ys ++ a :: after) hpre
          (by obtain ⟨d, h1, h2⟩ := hhead; exact ⟨d, by simp [h1], h2⟩) y hy
        have heq : l0 ++ [l] ++ a :: after = (sp ++ x ++ [' ']) ++ (y :: (ys ++ a :: after)) := by
          rw [hsplit]; simp
        have hones : ∀ v : List Char, Words v → (v.map columns).sum = v.length := by
          intro v hv
          induction v with
          | nil => rfl
          | cons c v ihv =>
            simp only [List.map_cons, List.sum_cons, List.length_cons,
              words_columns (hv c List.mem_cons_self),
              ihv fun c hc => hv c (List.mem_cons_of_mem _ hc)]
            omega
        have hw' := hw (sp ++ x ++ [' ']).length
        rw [heq, List.take_left, List.drop_left] at hw'
        have hpw : Words (sp ++ x ++ [' ']) := by
          intro c hc
          rcases List.mem_append.1 hc with h1 | h1
          · exact hpre c h1
          · simp at h1; exact .inr h1
        have hfit1 := hfit (enc (l0 ++ [l])) (by simp)
        rw [terminalWidth_enc (words_plain hline), widthC_eq (words_plain hline), hones _ hline]
          at hfit1
        obtain ⟨line', _, hkn, hk⟩ := hfit1
        injection hk with hk
        rw [hones _ hpw] at hw'
        have := hw' hopp (by
          have : (l0 ++ [l]).length = (sp ++ (x ++ ' ' :: y :: ys)).length := by rw [← hsplit]
          simp only [List.length_append, List.length_cons, List.length_nil] at this hk ⊢
          omega)
        simp at this

example : Words "hello wide world".toList := by
  intro c hc; revert c; decide +kernel

/-- A word too long for the line is split at the column limit. -/
example : lines (b "abcdefgh ij") 5 = .ok [b "abcde", b "fgh ", b "ij"] := by decide +kernel

/-- C48, one rule the library gets wrong: a combining mark can be separated from its base, so a
"character" in the user's sense (a grapheme cluster) can be split by wrapping. -/
theorem C48_cluster_split_false :
    lines (b "ab\u0301c") 2 = .ok [b "ab", b "\u0301c"] ∧
      graphemes (b "ab\u0301c") = .ok [b "a", b "b\u0301", b "c"] := by decide +kernel

end ArgRouter.Props
