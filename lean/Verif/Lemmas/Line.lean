import Verif.Utf8.Line
import Verif.Lemmas.Text

/-! # Line wrapping on well-formed text, at the level of characters -/

namespace ArgRouter.Utf8

open ArgRouter.Spec

/-- Columns of a character as the library computes them. -/
def colW (c : Char) : Nat := cpWidth (encChar c)

/-- Total columns of a text. -/
def widthC (cs : List Char) : Nat := (cs.map colW).sum

theorem widthC_append (a c : List Char) : widthC (a ++ c) = widthC a + widthC c := by
  simp [widthC]

theorem terminalWidth_enc {cs : List Char} (h : Plain cs) :
    terminalWidth (enc cs) = .ok (widthC cs) := by
  rw [terminalWidth, terminalWidthAux_enc h _ _ (length_enc_le cs), Nat.zero_add]; rfl

theorem terminalWidth_encChar {c : Char} (h : leadDForEF c = false) :
    terminalWidth (encChar c) = .ok (colW c) := by
  have := terminalWidth_enc (cs := [c]) (by intro d hd; simp at hd; subst hd; exact h)
  simpa [widthC] using this

/-- Class of the first character of the remaining text. -/
def lNextC : List Char → LClass
  | [] => .any
  | c :: _ => lClass c.toNat

theorem lNextClass_enc {cs : List Char} (h : Plain cs) : lNextClass (enc cs) = lNextC cs := by
  cases cs with
  | nil => rfl
  | cons c cs =>
    obtain ⟨hc, _⟩ := h.cons
    obtain ⟨x, r, e⟩ := enc_cons_ne_nil c (enc cs)
    have h2 := cpDeref_encChar (enc cs) hc
    rw [enc_cons]
    rw [e] at h2 ⊢
    simp only [lNextClass, h2, decode_encChar' hc, lNextC]

/-- The scanning loop over characters: `n` characters of `total` visited, `lbn` characters at the
last break opportunity. -/
def lLoopC (maxCols total : Nat) :
    List Char → (column n lbColumn lbn : Nat) → LWindow → Nat × LWindow
  | [], _, _, _, _, w => (total, w)
  | c :: cs, column, n, lbColumn, lbn, w =>
    if column + colW c > maxCols then (if lbColumn = 0 then n else lbn, w)
    else
      let w' := lPush (lClass c.toNat) w
      if lShouldBreak w' (lNextC cs) then
        lLoopC maxCols total cs (column + colW c) (n + 1) (column + colW c) (n + 1) w'
      else lLoopC maxCols total cs (column + colW c) (n + 1) lbColumn lbn w'

theorem lLoop_enc (maxCols : Nat) (t : List Char) (ht : Plain t) :
    ∀ (cs pre : List Char), t = pre ++ cs → ∀ fuel column lbColumn lbn w, cs.length ≤ fuel →
      lLoop maxCols (enc t).length fuel (enc cs) column (enc pre).length lbColumn
          (enc (t.take lbn)).length w
        = .ok ((enc (t.take (lLoopC maxCols t.length cs column pre.length lbColumn lbn w).1)).length,
            (lLoopC maxCols t.length cs column pre.length lbColumn lbn w).2) := by
  intro cs
  induction cs with
  | nil =>
    intro pre hpre fuel column lbColumn lbn w _
    cases fuel <;> simp [lLoop, lLoopC]
  | cons c cs ih =>
    intro pre hpre fuel column lbColumn lbn w hf
    have hcs : Plain (c :: cs) := by rw [hpre] at ht; exact (Plain.append_iff.1 ht).2
    obtain ⟨hc, hcs⟩ := hcs.cons
    cases fuel with
    | zero => simp at hf
    | succ n =>
      obtain ⟨x, r, e⟩ := enc_cons_ne_nil c (enc cs)
      have h1 := cpNext_encChar (enc cs) hc
      have h2 := cpDeref_encChar (enc cs) hc
      have h3 : cpSize (encChar c) = (encChar c).length := by
        simpa using cpSize_encChar_plain [] hc
      have htake : t.take pre.length = pre := by rw [hpre, List.take_left]
      have htake' : t.take (pre.length + 1) = pre ++ [c] := by
        rw [hpre, show pre.length + 1 = (pre ++ [c]).length by simp,
          show pre ++ c :: cs = (pre ++ [c]) ++ cs by simp, List.take_left]
      rw [enc_cons]
      rw [e] at h1 h2 ⊢
      rw [lLoop, lLoopC]
      simp only [h1, h2, terminalWidth_encChar hc, Out.ok_bind, decode_encChar' hc,
        lNextClass_enc hcs, h3, beq_iff_eq]
      by_cases hcol : column + colW c > maxCols
      · simp only [if_pos hcol]
        by_cases hl : lbColumn = 0
        · simp [hl, htake]
        · simp [hl]
      · simp only [if_neg hcol]
        have hpre' : t = (pre ++ [c]) ++ cs := by rw [hpre]; simp
        have hb : (enc pre).length + (encChar c).length = (enc (pre ++ [c])).length := by
          rw [enc_append]; simp
        have hlen : (pre ++ [c]).length = pre.length + 1 := by simp
        by_cases hs : lShouldBreak (lPush (lClass c.toNat) w) (lNextC cs) = true
        · simp only [if_pos hs]
          have := ih (pre ++ [c]) hpre' n (column + colW c) (column + colW c) (pre.length + 1)
            (lPush (lClass c.toNat) w) (by simpa using hf)
          rw [hlen, htake', ← hb] at this
          exact this
        · simp only [if_neg hs]
          have := ih (pre ++ [c]) hpre' n (column + colW c) lbColumn lbn
            (lPush (lClass c.toNat) w) (by simpa using hf)
          rw [hlen, ← hb] at this
          exact this

/-- One scan from the start of a line. -/
def scanC (maxCols : Nat) (t : List Char) (w : LWindow) : Nat × LWindow :=
  lLoopC maxCols t.length t 0 0 0 0 w

theorem lScan_enc (maxCols : Nat) (t : List Char) (ht : Plain t) (w : LWindow) :
    lScan (enc t) maxCols w = .ok ⟨enc t, maxCols, (enc (t.take (scanC maxCols t w).1)).length,
      (scanC maxCols t w).2⟩ := by
  have := lLoop_enc maxCols t ht t [] rfl (enc t).length 0 0 0 w (length_enc_le t)
  simp only [enc_nil, List.length_nil, List.take_zero] at this
  simp only [lScan, this, Out.ok_bind, scanC, Out.pure_eq]

/-- What holds of the number of characters a scan returns. `opp i` says that the scan saw a break
opportunity after `i` characters. -/
theorem lLoopC_facts (maxCols : Nat) (t : List Char) :
    ∀ (cs pre : List Char), t = pre ++ cs → ∀ lbn w, lbn ≤ pre.length →
      widthC pre ≤ maxCols →
      (lLoopC maxCols t.length cs (widthC pre) pre.length (widthC (t.take lbn)) lbn w).1 ≤ t.length ∧
      widthC (t.take (lLoopC maxCols t.length cs (widthC pre) pre.length
        (widthC (t.take lbn)) lbn w).1) ≤ maxCols ∧
      (0 < pre.length →
        0 < (lLoopC maxCols t.length cs (widthC pre) pre.length (widthC (t.take lbn)) lbn w).1) := by
  intro cs
  induction cs with
  | nil =>
    intro pre hpre lbn w hlb hw
    simp only [lLoopC]
    refine ⟨Nat.le_refl _, ?_, ?_⟩
    · rw [List.take_length, hpre]; simpa using hw
    · intro h; rw [hpre]; simpa using h
  | cons c cs ih =>
    intro pre hpre lbn w hlb hw
    have htl : t.length = pre.length + (cs.length + 1) := by rw [hpre]; simp
    have htake : t.take pre.length = pre := by rw [hpre, List.take_left]
    have htake' : t.take (pre.length + 1) = pre ++ [c] := by
      rw [hpre, show pre.length + 1 = (pre ++ [c]).length by simp,
        show pre ++ c :: cs = (pre ++ [c]) ++ cs by simp, List.take_left]
    have hwc : widthC (pre ++ [c]) = widthC pre + colW c := by
      rw [widthC_append]; simp [widthC]
    have hmono : widthC (t.take lbn) ≤ widthC pre := by
      have : t.take lbn = pre.take lbn := by rw [hpre, List.take_append_of_le_length hlb]
      rw [this]
      conv => rhs; rw [← List.take_append_drop lbn pre]
      rw [widthC_append]; omega
    rw [lLoopC]
    by_cases hcol : widthC pre + colW c > maxCols
    · simp only [if_pos hcol]
      by_cases hl : widthC (t.take lbn) = 0
      · simp only [if_pos hl, htake]
        exact ⟨by omega, hw, fun h => h⟩
      · simp only [if_neg hl]
        refine ⟨by omega, by omega, ?_⟩
        intro _
        rcases Nat.eq_zero_or_pos lbn with h0 | h0
        · subst h0; simp [widthC] at hl
        · exact h0
    · simp only [if_neg hcol]
      have hpre' : t = (pre ++ [c]) ++ cs := by rw [hpre]; simp
      have hlen : (pre ++ [c]).length = pre.length + 1 := by simp
      by_cases hs : lShouldBreak (lPush (lClass c.toNat) w) (lNextC cs) = true
      · simp only [if_pos hs]
        have := ih (pre ++ [c]) hpre' (pre.length + 1) (lPush (lClass c.toNat) w) (by simp)
          (by omega)
        rw [hlen, htake', hwc] at this
        exact ⟨this.1, this.2.1, fun _ => this.2.2 (by omega)⟩
      · simp only [if_neg hs]
        have := ih (pre ++ [c]) hpre' lbn (lPush (lClass c.toNat) w) (by rw [hlen]; omega)
          (by omega)
        rw [hlen, hwc] at this
        exact ⟨this.1, this.2.1, fun _ => this.2.2 (by omega)⟩

theorem scanC_le (maxCols : Nat) (t : List Char) (w : LWindow) : (scanC maxCols t w).1 ≤ t.length := by
  have := (lLoopC_facts maxCols t t [] rfl 0 w (by simp) (by simp [widthC])).1
  simpa [scanC, widthC] using this

theorem scanC_width (maxCols : Nat) (t : List Char) (w : LWindow) :
    widthC (t.take (scanC maxCols t w).1) ≤ maxCols := by
  have := (lLoopC_facts maxCols t t [] rfl 0 w (by simp) (by simp [widthC])).2.1
  simpa [scanC, widthC] using this

theorem scanC_pos (maxCols : Nat) (c : Char) (cs : List Char) (w : LWindow)
    (h : colW c ≤ maxCols) : 0 < (scanC maxCols (c :: cs) w).1 := by
  have hn : ¬ (0 + colW c > maxCols) := by omega
  simp only [scanC, lLoopC, if_neg hn]
  split
  · have := (lLoopC_facts maxCols (c :: cs) cs [c] rfl 1 (lPush (lClass c.toNat) w) (by simp)
      (by simpa [widthC] using h)).2.2 (by simp)
    simpa [widthC] using this
  · have := (lLoopC_facts maxCols (c :: cs) cs [c] rfl 0 (lPush (lClass c.toNat) w) (by simp)
      (by simpa [widthC] using h)).2.2 (by simp)
    simpa [widthC] using this

/-- A first character that does not fit: the scan makes no progress and changes nothing. -/
theorem scanC_stuck (maxCols : Nat) (c : Char) (cs : List Char) (w : LWindow)
    (h : maxCols < colW c) : scanC maxCols (c :: cs) w = (0, w) := by
  have hn : 0 + colW c > maxCols := by omega
  simp only [scanC, lLoopC, if_pos hn]
  simp

/-! ## Skipping whitespace -/

def wsC (c : Char) : Bool := isWhitespace (encChar c)

theorem skipWs_enc {cs : List Char} (h : Plain cs) : ∀ fuel n, cs.length ≤ fuel →
    skipWs fuel (enc cs) n = .ok (n + (enc (cs.takeWhile wsC)).length) := by
  induction cs with
  | nil => intro fuel n _; cases fuel <;> simp [skipWs]
  | cons c cs ih =>
    intro fuel n hf
    obtain ⟨hc, hcs⟩ := h.cons
    cases fuel with
    | zero => simp at hf
    | succ k =>
      obtain ⟨x, r, e⟩ := enc_cons_ne_nil c (enc cs)
      have h1 := cpNext_encChar (enc cs) hc
      have h2 := cpDeref_encChar (enc cs) hc
      have h3 : cpSize (encChar c) = (encChar c).length := by
        simpa using cpSize_encChar_plain [] hc
      rw [enc_cons]
      rw [e] at h1 h2 ⊢
      rw [skipWs]
      simp only [h1, h2, Out.ok_bind, h3]
      by_cases hw : isWhitespace (encChar c) = true
      · simp only [if_pos hw]
        rw [ih hcs k _ (by simpa using hf), List.takeWhile_cons, wsC, if_pos hw]
        simp [Nat.add_assoc]
      · simp only [if_neg hw]
        rw [List.takeWhile_cons, wsC, if_neg hw]
        simp

/-! ## One step and the whole iteration -/

/-- The iterator state when the rest of the text is `t` and the scan started with window `w0`. -/
def stateC (maxCols : Nat) (t : List Char) (w0 : LWindow) : LIter :=
  ⟨enc t, maxCols, (enc (t.take (scanC maxCols t w0).1)).length, (scanC maxCols t w0).2⟩

theorem enc_eq_nil {cs : List Char} : enc cs = [] ↔ cs = [] := by
  cases cs with
  | nil => simp
  | cons c cs => simp [encChar_ne_nil c]

theorem enc_isEmpty (cs : List Char) : (enc cs).isEmpty = cs.isEmpty := by
  rw [Bool.eq_iff_iff]; simp [enc_eq_nil]

theorem consume_enc (maxCols : Nat) (t : List Char) (ht : Plain t) (w0 : LWindow) (hne : t ≠ [])
    (hk : 0 < (scanC maxCols t w0).1) :
    (stateC maxCols t w0).consume = .ok
      (let rest := (t.drop (scanC maxCols t w0).1).dropWhile wsC
       if rest = [] then ⟨[], maxCols, 0, (scanC maxCols t w0).2⟩
       else stateC maxCols rest (scanC maxCols t w0).2) := by
  have he : (enc t).isEmpty = false := by
    rw [enc_isEmpty]; cases t <;> simp_all
  have hsplit : enc t = enc (t.take (scanC maxCols t w0).1) ++ enc (t.drop (scanC maxCols t w0).1) := by
    rw [← enc_append, List.take_append_drop]
  have hpos : (enc (t.take (scanC maxCols t w0).1)).length ≠ 0 := by
    rw [Ne, List.length_eq_zero_iff, enc_eq_nil, List.take_eq_nil_iff]
    rintro (h | h)
    · omega
    · exact hne h
  have hpd : Plain (t.drop (scanC maxCols t w0).1) := by
    rw [← List.take_append_drop (scanC maxCols t w0).1 t] at ht
    exact (Plain.append_iff.1 ht).2
  have hdrop : (enc t).drop (enc (t.take (scanC maxCols t w0).1)).length
      = enc (t.drop (scanC maxCols t w0).1) := by
    conv => lhs; rw [hsplit]
    rw [List.drop_left]
  have hle : (enc (t.take (scanC maxCols t w0).1)).length ≤ (enc t).length := by
    rw [hsplit, List.length_append]; omega
  have hsp2 : enc (t.drop (scanC maxCols t w0).1)
      = enc ((t.drop (scanC maxCols t w0).1).takeWhile wsC)
        ++ enc ((t.drop (scanC maxCols t w0).1).dropWhile wsC) := by
    rw [← enc_append, List.takeWhile_append_dropWhile]
  have hdrop2 : (enc (t.drop (scanC maxCols t w0).1)).drop
      (enc ((t.drop (scanC maxCols t w0).1).takeWhile wsC)).length
      = enc ((t.drop (scanC maxCols t w0).1).dropWhile wsC) := by
    conv => lhs; rw [hsp2]
    rw [List.drop_left]
  have hle2 : (enc ((t.drop (scanC maxCols t w0).1).takeWhile wsC)).length
      ≤ (enc (t.drop (scanC maxCols t w0).1)).length := by
    rw [hsp2, List.length_append]; omega
  have hpr : Plain ((t.drop (scanC maxCols t w0).1).dropWhile wsC) := by
    rw [← List.takeWhile_append_dropWhile (p := wsC) (l := t.drop (scanC maxCols t w0).1)] at hpd
    exact (Plain.append_iff.1 hpd).2
  simp only [LIter.consume, stateC, he, Bool.false_eq_true, if_false, bne_iff_ne, ne_eq, hpos,
    not_false_eq_true, if_true, hle, hdrop]
  rw [skipWs_enc hpd _ _ (length_enc_le _)]
  simp only [Out.ok_bind, Nat.zero_add, hle2, if_true, hdrop2, enc_isEmpty]
  by_cases hr : (t.drop (scanC maxCols t w0).1).dropWhile wsC = []
  · simp [hr]
  · have : ((t.drop (scanC maxCols t w0).1).dropWhile wsC).isEmpty = false := by
      simpa using hr
    simp only [this, Bool.false_eq_true, if_false, if_neg hr]
    rw [lScan_enc _ _ hpr]

theorem consume_stuck (maxCols : Nat) (c : Char) (cs : List Char) (ht : Plain (c :: cs))
    (w0 : LWindow) (h : maxCols < colW c) :
    (stateC maxCols (c :: cs) w0).consume = .ok (stateC maxCols (c :: cs) w0) := by
  have he : (enc (c :: cs)).isEmpty = false := by rw [enc_isEmpty]; rfl
  have h1 := scanC_stuck maxCols c cs w0 h
  simp only [LIter.consume, stateC, he, Bool.false_eq_true, if_false, h1, List.take_zero, enc_nil,
    List.length_nil, bne_self_eq_false]
  rw [lScan_enc _ _ ht, h1]
  simp

theorem toList_stuck (maxCols : Nat) (c : Char) (cs : List Char) (ht : Plain (c :: cs))
    (w0 : LWindow) (h : maxCols < colW c) :
    ∀ fuel, (stateC maxCols (c :: cs) w0).toList fuel = .diverge := by
  have he : (stateC maxCols (c :: cs) w0).str.isEmpty = false := by
    simp only [stateC]; rw [enc_isEmpty]; rfl
  intro fuel
  induction fuel with
  | zero => rw [LIter.toList, he]; rfl
  | succ n ih => rw [LIter.toList, he, consume_stuck _ _ _ ht _ h]; simp [ih]

/-- The result of wrapping, line by line: each line is a proper prefix part of the remaining text
found by a scan with the window so far, then whitespace is skipped. -/
inductive Wraps (maxCols : Nat) : LWindow → List Char → List (List Char) → Prop
  | nil {w : LWindow} : Wraps maxCols w [] []
  | cons {t line gap rest : List Char} {ls : List (List Char)} (w : LWindow)
      (ht : t = line ++ gap ++ rest) (hne : line ≠ [])
      (hlen : line.length = (scanC maxCols t w).1)
      (hgap : ∀ c ∈ gap, wsC c = true)
      (hrest : ∀ c ∈ rest.head?, wsC c = false)
      (more : Wraps maxCols (scanC maxCols t w).2 rest ls) : Wraps maxCols w t (line :: ls)

theorem toList_wraps (maxCols : Nat) : ∀ fuel (t : List Char) (w0 : LWindow) (ls : List Bytes),
    Plain t → (stateC maxCols t w0).toList fuel = .ok ls →
    ∃ parts, ls = parts.map enc ∧ Wraps maxCols w0 t parts := by
  intro fuel
  induction fuel with
  | zero =>
    intro t w0 ls ht h
    rw [LIter.toList] at h
    split at h
    · rename_i he
      simp only [stateC, enc_isEmpty] at he
      have : t = [] := by simpa using he
      subst this
      cases h
      exact ⟨[], rfl, .nil⟩
    · cases h
  | succ n ih =>
    intro t w0 ls ht h
    cases t with
    | nil =>
      rw [LIter.toList] at h
      simp [stateC] at h
      subst h
      exact ⟨[], rfl, .nil⟩
    | cons c cs =>
      by_cases hc : maxCols < colW c
      · rw [toList_stuck maxCols c cs ht w0 hc] at h; cases h
      · have hk := scanC_pos maxCols c cs w0 (by omega)
        have he : (stateC maxCols (c :: cs) w0).str.isEmpty = false := by
          simp only [stateC]; rw [enc_isEmpty]; rfl
        rw [LIter.toList, he, consume_enc maxCols (c :: cs) ht w0 (by simp) hk] at h
        simp only [Bool.false_eq_true, if_false, Out.ok_bind] at h
        rw [Out.bind_eq_ok] at h
        obtain ⟨ls', hls, e⟩ := h
        simp only [Out.pure_eq, Out.ok.injEq] at e
        have hderef : (stateC maxCols (c :: cs) w0).deref
            = enc ((c :: cs).take (scanC maxCols (c :: cs) w0).1) := by
          have hsplit : enc (c :: cs) = enc ((c :: cs).take (scanC maxCols (c :: cs) w0).1)
              ++ enc ((c :: cs).drop (scanC maxCols (c :: cs) w0).1) := by
            rw [← enc_append, List.take_append_drop]
          simp only [LIter.deref, stateC]
          conv => lhs; arg 2; rw [hsplit]
          rw [List.take_left]
        have hpd : Plain ((c :: cs).drop (scanC maxCols (c :: cs) w0).1) := by
          rw [← List.take_append_drop (scanC maxCols (c :: cs) w0).1 (c :: cs)] at ht
          exact (Plain.append_iff.1 ht).2
        have hpr : Plain (((c :: cs).drop (scanC maxCols (c :: cs) w0).1).dropWhile wsC) := by
          rw [← List.takeWhile_append_dropWhile (p := wsC)
            (l := (c :: cs).drop (scanC maxCols (c :: cs) w0).1)] at hpd
          exact (Plain.append_iff.1 hpd).2
        have hparts : ∃ parts, ls' = parts.map enc ∧
            Wraps maxCols (scanC maxCols (c :: cs) w0).2 (((c :: cs).drop (scanC maxCols (c :: cs) w0).1).dropWhile wsC) parts := by
          split at hls
          · rename_i hr
            have : ls' = [] := by
              cases n <;> simp [LIter.toList] at hls <;> exact hls
            subst this
            rw [hr]
            exact ⟨[], rfl, .nil⟩
          · exact ih _ _ _ hpr hls
        obtain ⟨parts, rfl, hw⟩ := hparts
        refine ⟨(c :: cs).take (scanC maxCols (c :: cs) w0).1 :: parts, ?_, ?_⟩
        · rw [← e, hderef]; rfl
        · refine .cons (gap := ((c :: cs).drop (scanC maxCols (c :: cs) w0).1).takeWhile wsC)
            w0 ?_ ?_ ?_ ?_ ?_ hw
          · rw [List.append_assoc, List.takeWhile_append_dropWhile, List.take_append_drop]
          · rw [Ne, List.take_eq_nil_iff]
            rintro (h' | h')
            · omega
            · cases h'
          · rw [List.length_take]
            have := scanC_le maxCols (c :: cs) w0
            omega
          · intro d hd; exact (List.all_eq_true.1 List.all_takeWhile) d hd
          · intro d hd
            have := List.head?_dropWhile_not wsC ((c :: cs).drop (scanC maxCols (c :: cs) w0).1)
            rw [Option.mem_def.1 hd] at this
            simpa using this

theorem init_enc (cs : List Char) (h : Plain cs) (maxCols : Nat) (hm : maxCols ≠ 0) :
    LIter.init (enc cs) maxCols = .ok (if cs = [] then ⟨[], maxCols, 0, lWindowInit⟩
      else stateC maxCols cs lWindowInit) := by
  have : (maxCols == 0) = false := by simpa using hm
  simp only [LIter.init, this, Bool.false_eq_true, if_false, LIter.consume, enc_isEmpty]
  cases cs with
  | nil => simp
  | cons c cs =>
    simp only [List.isEmpty_cons, Bool.false_eq_true, if_false, bne_self_eq_false, reduceCtorEq]
    rw [lScan_enc _ _ h]
    rfl

theorem linesFuel_wraps (fuel : Nat) (cs : List Char) (h : Plain cs) (maxCols : Nat)
    (hm : maxCols ≠ 0) (ls : List Bytes) (hl : linesFuel fuel (enc cs) maxCols = .ok ls) :
    ∃ parts, ls = parts.map enc ∧ Wraps maxCols lWindowInit cs parts := by
  rw [linesFuel, init_enc cs h maxCols hm] at hl
  simp only [Out.ok_bind] at hl
  by_cases hc : cs = []
  · subst hc
    simp only [if_true] at hl
    have : ls = [] := by cases fuel <;> simp [LIter.toList] at hl <;> exact hl
    subst this
    exact ⟨[], rfl, .nil⟩
  · rw [if_neg hc] at hl
    exact toList_wraps maxCols fuel cs _ ls h hl

/-- Termination when the first character fits and those that do not are whitespace. -/
theorem toList_terminates_ws (maxCols : Nat) : ∀ fuel (t : List Char) (w0 : LWindow),
    Plain t → (∀ c ∈ t.head?, colW c ≤ maxCols) →
    (∀ c ∈ t, colW c ≤ maxCols ∨ wsC c = true) → t.length ≤ fuel →
    ∃ ls, (stateC maxCols t w0).toList fuel = .ok ls := by
  intro fuel
  induction fuel with
  | zero =>
    intro t w0 ht hh hfit hf
    have : t = [] := List.length_eq_zero_iff.1 (by omega)
    subst this
    exact ⟨[], by simp [LIter.toList, stateC]⟩
  | succ n ih =>
    intro t w0 ht hh hfit hf
    cases t with
    | nil => exact ⟨[], by simp [LIter.toList, stateC]⟩
    | cons c cs =>
      have hk := scanC_pos maxCols c cs w0 (hh c (by simp))
      have he : (stateC maxCols (c :: cs) w0).str.isEmpty = false := by
        simp only [stateC]; rw [enc_isEmpty]; rfl
      rw [LIter.toList, he, consume_enc maxCols (c :: cs) ht w0 (by simp) hk]
      simp only [Bool.false_eq_true, if_false, Out.ok_bind]
      have hsub : ∀ d ∈ ((c :: cs).drop (scanC maxCols (c :: cs) w0).1).dropWhile wsC,
          d ∈ (c :: cs) := fun d hd =>
        List.mem_of_mem_drop ((List.dropWhile_sublist _).subset hd)
      have hhead : ∀ d ∈ (((c :: cs).drop (scanC maxCols (c :: cs) w0).1).dropWhile wsC).head?,
          colW d ≤ maxCols := by
        intro d hd
        have hw := List.head?_dropWhile_not wsC ((c :: cs).drop (scanC maxCols (c :: cs) w0).1)
        rw [Option.mem_def.1 hd] at hw
        rcases hfit d (hsub d (List.mem_of_mem_head? hd)) with h | h
        · exact h
        · simp [h] at hw
      have hlen : (((c :: cs).drop (scanC maxCols (c :: cs) w0).1).dropWhile wsC).length ≤ n := by
        have h1 := (List.dropWhile_sublist (p := wsC)
          (l := (c :: cs).drop (scanC maxCols (c :: cs) w0).1)).length_le
        rw [List.length_drop] at h1
        omega
      by_cases hr : ((c :: cs).drop (scanC maxCols (c :: cs) w0).1).dropWhile wsC = []
      · rw [if_pos hr]
        refine ⟨[(stateC maxCols (c :: cs) w0).deref], ?_⟩
        cases n <;> simp [LIter.toList]
      · rw [if_neg hr]
        obtain ⟨ls, hls⟩ := ih _ (scanC maxCols (c :: cs) w0).2
          (fun d hd => ht d (hsub d hd)) hhead (fun d hd => hfit d (hsub d hd)) hlen
        rw [hls]
        exact ⟨_, rfl⟩

/-- Termination when every character fits. -/
theorem toList_terminates (maxCols : Nat) (fuel : Nat) (t : List Char) (w0 : LWindow)
    (ht : Plain t) (hfit : ∀ c ∈ t, colW c ≤ maxCols) (hf : t.length ≤ fuel) :
    ∃ ls, (stateC maxCols t w0).toList fuel = .ok ls :=
  toList_terminates_ws maxCols fuel t w0 ht (fun c hc => hfit c (List.mem_of_mem_head? hc))
    (fun c hc => .inl (hfit c hc)) hf

/-- The iteration over well-formed text either ends or goes on; nothing else can happen. -/
theorem toList_ok_or_diverge (maxCols : Nat) : ∀ fuel (t : List Char) (w0 : LWindow), Plain t →
    (∃ ls, (stateC maxCols t w0).toList fuel = .ok ls) ∨
      (stateC maxCols t w0).toList fuel = .diverge := by
  intro fuel
  induction fuel with
  | zero =>
    intro t w0 _
    rw [LIter.toList]
    split
    · exact .inl ⟨[], rfl⟩
    · exact .inr rfl
  | succ n ih =>
    intro t w0 ht
    cases t with
    | nil => exact .inl ⟨[], by simp [LIter.toList, stateC]⟩
    | cons c cs =>
      by_cases hc : colW c ≤ maxCols
      · have hk := scanC_pos maxCols c cs w0 hc
        have he : (stateC maxCols (c :: cs) w0).str.isEmpty = false := by
          simp only [stateC]; rw [enc_isEmpty]; rfl
        rw [LIter.toList, he, consume_enc maxCols (c :: cs) ht w0 (by simp) hk]
        simp only [Bool.false_eq_true, if_false, Out.ok_bind]
        by_cases hr : ((c :: cs).drop (scanC maxCols (c :: cs) w0).1).dropWhile wsC = []
        · rw [if_pos hr]
          refine .inl ⟨[(stateC maxCols (c :: cs) w0).deref], ?_⟩
          cases n <;> simp [LIter.toList]
        · rw [if_neg hr]
          rcases ih (((c :: cs).drop (scanC maxCols (c :: cs) w0).1).dropWhile wsC)
            (scanC maxCols (c :: cs) w0).2 (fun d hd =>
              ht d (List.mem_of_mem_drop ((List.dropWhile_sublist _).subset hd))) with ⟨ls, h⟩ | h
          · rw [h]; exact .inl ⟨_, rfl⟩
          · rw [h]; exact .inr rfl
      · exact .inr (toList_stuck maxCols c cs ht w0 (by omega) _)

end ArgRouter.Utf8
