import Verif.Lemmas.Text
import Verif.Spec.Wrap

/-!
# C34, C35, C36, C39, C40: UTF-8 decoding, iteration, counting, whitespace and width
-/

namespace ArgRouter.Props

open ArgRouter.Utf8 ArgRouter.Spec

/-! ## C34 – decoding inverts UTF-8 encoding -/

/-- C34 is false: U+FF01 (three byte form, lead byte EF) is measured as four bytes and does not
decode; U+07C0 (two byte form, lead byte DF) is measured as three. -/
theorem C34_false :
    cpSize (encChar '！') = 4 ∧ (encChar '！').length = 3 ∧ decode (encChar '！') = none ∧
    cpSize (encChar '߀') = 3 ∧ (encChar '߀').length = 2 ∧ decode (encChar '߀') = none := by
  decide +kernel

/-- C34, the true part: every scalar value whose lead byte is neither DF nor EF (that is, every
scalar outside U+07C0–U+07FF and U+F000–U+FFFF) decodes to itself and is measured correctly,
whatever text follows. Missing from the full statement: the two excluded blocks. -/
theorem C34_decode_encode_partial (c : Char) (rest : Bytes) (h : leadDForEF c = false) :
    decode (encChar c ++ rest) = some c.toNat ∧
    cpSize (encChar c ++ rest) = (encChar c).length :=
  ⟨decode_encChar c rest h, cpSize_encChar_plain rest h⟩

example : leadDForEF '猫' = false ∧ leadDForEF '😀' = false ∧ leadDForEF 'é' = false ∧
    leadDForEF '\n' = false := by decide

/-- C34, exact extent of the defect: the excluded scalars are all measured one byte too long. -/
theorem C34_size_exact (c : Char) (rest : Bytes) :
    cpSize (encChar c ++ rest) = (encChar c).length ↔
      ¬ (0x7C0 ≤ c.toNat ∧ c.toNat ≤ 0x7FF ∨ 0xF000 ≤ c.toNat ∧ c.toNat ≤ 0xFFFF) := by
  rw [cpSize_encChar]
  simp only [leadDForEF, Bool.or_eq_true, Bool.and_eq_true, decide_eq_true_eq]
  split <;> simp_all

/-! ## C35 – code point iteration -/

/-- C35 is false: iterating the one-character string "！" leaves the string (undefined behaviour of
`remove_prefix`), and iterating "！a" yields one piece instead of two. -/
theorem C35_false :
    cpList (enc ['！']) = .ub ∧ cpList (enc ['！', 'a']) = .ok [enc ['！', 'a']] := by
  decide +kernel

/-- C35, the true part: on well-formed text without lead bytes DF/EF the iteration yields exactly
the characters, in order, and never leaves the string. -/
theorem C35_iterate_partial (cs : List Char) (h : Plain cs) :
    cpList (enc cs) = .ok (cs.map encChar) :=
  cpListAux_enc h _ (length_enc_le cs)

example : Plain "héllo, 猫 😀".toList := by decide +kernel

/-- Iteration over arbitrary bytes (well-formed or not) always ends, either normally or by stepping
outside the string. -/
theorem C35_terminates (s : Bytes) : cpList s ≠ .diverge ∧ ∀ e, cpList s ≠ .throw e := by
  have aux : ∀ fuel (s : Bytes), s.length ≤ fuel →
      cpListAux fuel s ≠ .diverge ∧ ∀ e, cpListAux fuel s ≠ .throw e := by
    intro fuel
    induction fuel with
    | zero => intro s hs; cases s <;> simp_all [cpListAux]
    | succ n ih =>
      intro s hs
      cases s with
      | nil => simp [cpListAux]
      | cons x r =>
        simp only [cpListAux, cpNext]
        by_cases hle : cpSize (x :: r) ≤ (x :: r).length
        · rw [if_pos hle]
          have hp := cpSize_pos x r
          obtain ⟨h1, h2⟩ := ih ((x :: r).drop (cpSize (x :: r))) (by
            simp only [List.length_drop, List.length_cons] at hs ⊢; omega)
          simp only [Out.ok_bind]
          match he : cpListAux n ((x :: r).drop (cpSize (x :: r))) with
          | .ok a => simp
          | .throw e => exact absurd he (h2 e)
          | .foreign => simp
          | .ub => simp
          | .diverge => exact absurd he h1
        · rw [if_neg hle]; simp
  exact aux _ s (Nat.le_refl _)

/-- Iteration over arbitrary bytes: when it ends normally the pieces are non-empty, at most four
bytes long, and their concatenation is the string. -/
theorem C35_pieces (s : Bytes) (ps : List Bytes) (h : cpList s = .ok ps) :
    ps.flatten = s ∧ ∀ p ∈ ps, 1 ≤ p.length ∧ p.length ≤ 4 := by
  have aux : ∀ fuel (s : Bytes) ps, cpListAux fuel s = .ok ps →
      ps.flatten = s ∧ ∀ p ∈ ps, 1 ≤ p.length ∧ p.length ≤ 4 := by
    intro fuel
    induction fuel with
    | zero => intro s ps h; cases s <;> simp_all [cpListAux]
    | succ n ih =>
      intro s ps h
      cases s with
      | nil => simp [cpListAux] at h; subst h; simp
      | cons x r =>
        simp only [cpListAux, cpNext] at h
        by_cases hle : cpSize (x :: r) ≤ (x :: r).length
        · rw [if_pos hle, Out.ok_bind, Out.bind_eq_ok] at h
          obtain ⟨qs, hq, e⟩ := h
          simp only [Out.pure_eq, Out.ok.injEq] at e
          subst e
          obtain ⟨h1, h2⟩ := ih _ _ hq
          refine ⟨by simp [h1, cpDeref], ?_⟩
          intro p hp
          rcases List.mem_cons.1 hp with rfl | hp
          · have hp := cpSize_pos x r
            simp only [cpDeref, List.length_take]
            have : cpSize (x :: r) ≤ 4 := by
              rw [cpSize_cons]; repeat' split
              all_goals omega
            omega
          · exact h2 p hp
        · rw [if_neg hle] at h; simp at h
  exact aux _ s ps h

example : cpList [0x61, 0xFF, 0x80, 0x80, 0x80, 0x62] =
    .ok [[0x61], [0xFF, 0x80, 0x80, 0x80], [0x62]] := by decide +kernel

/-! ## C36 – code point count -/

/-- C36: the code point count of well-formed text is its number of characters. -/
theorem C36_count (cs : List Char) : cpCount (enc cs) = cs.length := by
  induction cs with
  | nil => rfl
  | cons c cs ih => rw [enc_cons, cpCount_append, cpCount_encChar, ih, List.length_cons]; omega

example : cpCount (enc "！猫é".toList) = 3 := by decide +kernel

/-! ## C39 – whitespace -/

theorem whitespace_lookup (n : Nat) : (findRange whitespaceTable n).isSome =
    ((0x9 ≤ n && n ≤ 0xD) || n == 0x20 || n == 0x85 || n == 0xA0 ||
      n == 0x1680 || (0x2000 ≤ n && n ≤ 0x200A) || n == 0x2028 ||
      n == 0x2029 || n == 0x202F || n == 0x205F || n == 0x3000) := by
  have hs : sortedB whitespaceTable = true := by decide +kernel
  rw [Bool.eq_iff_iff, findRange_isSome_iff (sortedB_pairwise hs) (sortedB_wf hs)]
  simp only [whitespaceTable, whitespaceTable0, List.mem_cons, List.not_mem_nil, or_false,
    exists_eq_or_imp, exists_eq_left, Bool.or_eq_true, Bool.and_eq_true, decide_eq_true_eq, beq_iff_eq]
  omega

/-- `is_whitespace` looks at the first character only and recognises exactly White_Space. -/
theorem C39_is_whitespace (c : Char) (rest : Bytes) (h : leadDForEF c = false) :
    isWhitespace (encChar c ++ rest) = isUnicodeWhitespace c := by
  rw [isWhitespace, decode_encChar c rest h]
  exact whitespace_lookup c.toNat

/-- And nothing that is cut short is whitespace: not the empty text, and not a character without its
last bytes. -/
theorem C39_truncated (c : Char) (k : Nat) (hk : k < (encChar c).length) :
    isWhitespace ((encChar c).take k) = false := by
  have hs : (encChar c).length ≤ cpSize (encChar c) := by
    have := cpSize_encChar c []
    rw [List.append_nil] at this
    omega
  cases he : encChar c with
  | nil => rw [he] at hk; cases hk
  | cons x r =>
    rw [he] at hs hk
    cases k with
    | zero => rfl
    | succ k =>
      have hs' : cpSize (x :: r.take k) = cpSize (x :: r) := by rw [cpSize_cons, cpSize_cons]
      simp only [List.length_cons] at hs hk
      have hd : decode (x :: r.take k) = none := by
        simp only [decode, hs']
        rw [if_neg (by simp; omega), if_pos]
        simp only [List.length_cons, List.length_take]; omega
      simp [isWhitespace, List.take_succ_cons, hd]

/-- Half of an em space. -/
example : isWhitespace (encChar '\u2003') = true ∧ 2 < (encChar '\u2003').length ∧
    isWhitespace ((encChar '\u2003').take 2) = false := by decide +kernel

/-- C39 is false when a character with lead byte EF (or DF) precedes the whitespace: the space of
"！ a" is swallowed by the mis-measured character. And whitespace is found where there is none: the last
two bytes of the postal mark face after such a character are read as a space. -/
theorem C39_false : (containsWhitespace (enc ['！', ' ', 'a']) = .ok false ∧
    isUnicodeWhitespace ' ' = true) ∧
    (containsWhitespace (enc ['！', '\u3020']) = .ok true ∧
      (['！', '\u3020'].any isUnicodeWhitespace) = false) := by decide +kernel

/-- C39, the true part: for well-formed text without lead bytes DF/EF. -/
theorem C39_contains_whitespace_partial (cs : List Char) (h : Plain cs) :
    containsWhitespace (enc cs) = .ok (cs.any isUnicodeWhitespace) := by
  rw [containsWhitespace, containsWhitespaceAux_enc h _ (length_enc_le cs)]
  congr 1
  induction cs with
  | nil => rfl
  | cons c cs ih =>
    obtain ⟨hc, hcs⟩ := h.cons
    have := C39_is_whitespace c [] hc
    simp only [List.append_nil] at this
    simp [this, ih hcs]

example : Plain "--long name".toList ∧ "--long name".toList.any isUnicodeWhitespace = true ∧
    Plain "猫　犬".toList ∧ "猫　犬".toList.any isUnicodeWhitespace = true := by decide +kernel

/-! ## C40 – terminal width -/

theorem doubleWidth_sorted : sortedB doubleWidthTable = true := by decide +kernel
theorem zeroWidth_sorted : sortedB zeroWidthTable = true := by decide +kernel

theorem cpWidth_encChar {c : Char} (h : leadDForEF c = false) : cpWidth (encChar c) = columns c := by
  rw [cpWidth, decode_encChar' h]
  simp only [columns, findRange_isSome_iff (sortedB_pairwise doubleWidth_sorted)
    (sortedB_wf doubleWidth_sorted), findRange_isSome_iff (sortedB_pairwise zeroWidth_sorted)
    (sortedB_wf zeroWidth_sorted)]

/-- C40: the width of a text is the sum of the columns of its characters. -/
theorem C40_width_sum_partial (cs : List Char) (h : Plain cs) :
    terminalWidth (enc cs) = .ok ((cs.map columns).sum) := by
  rw [terminalWidth, terminalWidthAux_enc h _ _ (length_enc_le cs), Nat.zero_add]
  congr 2
  exact List.map_congr_left fun c hc => cpWidth_encChar (h c hc)

/-- C40, additivity (for text without lead bytes DF/EF). -/
theorem C40_width_additive_partial (cs ds : List Char) (hc : Plain cs) (hd : Plain ds) :
    ∃ w₁ w₂, terminalWidth (enc cs) = .ok w₁ ∧ terminalWidth (enc ds) = .ok w₂ ∧
      terminalWidth (enc cs ++ enc ds) = .ok (w₁ + w₂) := by
  refine ⟨_, _, C40_width_sum_partial cs hc, C40_width_sum_partial ds hd, ?_⟩
  rw [← enc_append, C40_width_sum_partial _ (Plain.append_iff.2 ⟨hc, hd⟩)]
  simp

/-- C40 is false in general: "！" has lead byte EF; the width of "！a" is not the sum of widths
(the width of "！" alone is undefined behaviour) and the width of "！！！！" counts three "characters". -/
theorem C40_false : terminalWidth (enc ['！']) = .ub ∧ terminalWidth (enc ['！', 'a']) = .ok 1 ∧
    columns '！' = 2 := by decide +kernel

/-- C40, upper bound. -/
theorem C40_width_bound_partial (cs : List Char) (h : Plain cs) :
    ∃ w, terminalWidth (enc cs) = .ok w ∧ w ≤ 2 * cs.length := by
  refine ⟨_, C40_width_sum_partial cs h, ?_⟩
  clear h
  induction cs with
  | nil => simp
  | cons c cs ih =>
    have : columns c ≤ 2 := by unfold columns; repeat' split
                               all_goals omega
    simp only [List.map_cons, List.sum_cons, List.length_cons]; omega

/-- C40, ASCII: text whose characters are all ASCII occupies one column per character (for the
printable ones this is the terminal's behaviour; control characters are also counted as one). -/
theorem C40_width_ascii (cs : List Char) (h : ∀ c ∈ cs, c.toNat < 0x80) :
    terminalWidth (enc cs) = .ok cs.length := by
  have hp : Plain cs := by
    intro c hc
    have := h c hc
    simp only [leadDForEF, Bool.or_eq_false_iff, Bool.and_eq_false_iff, decide_eq_false_iff_not]
    omega
  rw [C40_width_sum_partial cs hp]
  congr 1
  have h1 : ∀ r ∈ doubleWidthTable, 0x80 ≤ r.first := by decide +kernel
  have h2 : ∀ r ∈ zeroWidthTable, 0x80 ≤ r.first := by decide +kernel
  have hcol : ∀ c ∈ cs, columns c = 1 := by
    intro c hc
    have hlt := h c hc
    unfold columns
    rw [if_neg, if_neg]
    · rintro ⟨r, hr, h3, _⟩; have := h2 r hr; omega
    · rintro ⟨r, hr, h3, _⟩; have := h1 r hr; omega
  rw [List.map_congr_left hcol]
  clear hcol h hp
  induction cs with
  | nil => rfl
  | cons c cs ih => simp only [List.map_cons, List.sum_cons, ih, List.length_cons]; omega

example : terminalWidth (enc "--help".toList) = .ok 6 :=
  C40_width_ascii _ (by decide)

end ArgRouter.Props
