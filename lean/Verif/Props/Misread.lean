import Verif.Spec.Misread
import Verif.Props.Spill

/-!
# C35, C39, C40: what any well-formed text is read as
-/

namespace ArgRouter.Props

open ArgRouter.Utf8 ArgRouter.Spec

/-- The numbers that bytes are read as, and whether reading leaves the bytes. -/
inductive Reads : Bytes → List Nat → Bool → Prop
  | nil : Reads [] [] false
  | step {x : UInt8} {r : Bytes} {v : Nat} {vs : List Nat} {sp : Bool} :
      cpSize (x :: r) ≤ (x :: r).length → decode (cpDeref (x :: r)) = some v →
      Reads ((x :: r).drop (cpSize (x :: r))) vs sp → Reads (x :: r) (v :: vs) sp
  | spill {x : UInt8} {r : Bytes} : ¬ cpSize (x :: r) ≤ (x :: r).length → Reads (x :: r) [] true

/-- Bytes that lack one byte, and the number they stand for without it. -/
def Opens (pre : Bytes) (n : Nat) : Prop :=
  pre ≠ [] ∧ (∀ r, cpSize (pre ++ r) = pre.length + 1) ∧
    ∀ y : UInt8, decode (pre ++ [y]) = some (n * 64 + y.toNat % 64)

theorem opens_cont {x : UInt8} (h : 128 ≤ x.toNat) (h' : x.toNat < 192) : Opens [x] (x.toNat % 32) := by
  have hs : ∀ r, cpSize (x :: r) = 2 := by
    intro r
    rw [cpSize_cons]
    rw [if_neg (by omega), if_pos (by omega)]
  refine ⟨by simp, fun r => hs r, fun y => ?_⟩
  show decode (x :: [y]) = _
  rw [decode_cons (hs _), if_neg (by decide), if_neg (by simp)]
  show some (decodeTail (x.toNat &&& 31) [y]) = _
  rw [decodeTail_cons, decodeTail_nil]
  have : x.toNat &&& 31 = x.toNat % 32 := Nat.and_two_pow_sub_one_eq_mod x.toNat 5
  rw [this]

theorem opens_lead {c : Char} (h : leadDForEF c = true) : Opens (encChar c) (stretched c) := by
  have hs := fun r => cpSize_encChar c r
  simp only [h, if_true] at hs
  refine ⟨encChar_ne_nil c, hs, fun y => ?_⟩
  have hs := hs [y]
  simp only [leadDForEF, Bool.or_eq_true, Bool.and_eq_true, decide_eq_true_eq] at h
  unfold stretched
  rcases encChar_cases c with ⟨g, e⟩ | ⟨g, g', e⟩ | ⟨g, g', e⟩ | ⟨g, g', e⟩
  · omega
  · have hl : c.toNat / 64 + 0xC0 = 0xDF := by omega
    rw [e] at hs ⊢
    simp only [List.cons_append, List.nil_append, List.length_cons, List.length_nil] at hs ⊢
    rw [decode_cons hs, if_neg (by decide), if_neg (by simp), if_pos g', hl,
      toNat_ofNat (by decide), List.take_of_length_le (by simp),
      show (0xDF &&& (0x1F >>> (2 + 1 - 2)) : Nat) = 15 by decide,
      decodeTail_cons, decodeTail_cons, decodeTail_nil, toNat_ofNat (by omega)]
    exact congrArg some (by omega)
  · have hl : c.toNat / 4096 + 0xE0 = 0xEF := by omega
    rw [e] at hs ⊢
    simp only [List.cons_append, List.nil_append, List.length_cons, List.length_nil] at hs ⊢
    rw [decode_cons hs, if_neg (by decide), if_neg (by simp), if_neg (by omega), hl,
      toNat_ofNat (by decide), List.take_of_length_le (by simp),
      show (0xEF &&& (0x1F >>> (3 + 1 - 2)) : Nat) = 7 by decide, decodeTail_cons, decodeTail_cons, decodeTail_cons, decodeTail_nil, toNat_ofNat (by omega),
      toNat_ofNat (by omega)]
    exact congrArg some (by omega)
  · omega

/-- Reading on after a number that is completed with the byte `y`. -/
theorem reads_open {pre : Bytes} {n : Nat} (h : Opens pre n) (y : UInt8) {s : Bytes} {vs : List Nat} {sp : Bool}
    (hr : Reads s vs sp) : Reads (pre ++ y :: s) ((n * 64 + y.toNat % 64) :: vs) sp := by
  obtain ⟨h0, h1, h2⟩ := h
  have hs := h1 (y :: s)
  have hd : cpDeref (pre ++ y :: s) = pre ++ [y] := by
    rw [cpDeref, hs, List.take_append]
    simp [List.take_of_length_le]
  have hdrop : (pre ++ y :: s).drop (cpSize (pre ++ y :: s)) = s := by
    rw [hs, List.drop_append]
    simp [List.drop_of_length_le]
  have hlen : cpSize (pre ++ y :: s) ≤ (pre ++ y :: s).length := by
    rw [hs]; simp
  have h2 := h2 y
  rw [← hd] at h2
  generalize hw : pre ++ y :: s = w at *
  cases w with
  | nil => simp at hw
  | cons x r => exact .step hlen h2 (by rw [hdrop]; exact hr)

theorem reads_end {pre : Bytes} {n : Nat} (h : Opens pre n) : Reads pre [] true := by
  obtain ⟨h0, h1, -⟩ := h
  have hs := h1 []
  rw [List.append_nil] at hs
  cases pre with
  | nil => exact absurd rfl h0
  | cons x r => exact .spill (by omega)

theorem reads_enc (cs : List Char) : Reads (enc cs) (readAs none cs) (spills false cs) ∧
    ∀ pre n, Opens pre n → Reads (pre ++ enc cs) (readAs (some n) cs) (spills true cs) := by
  induction cs with
  | nil =>
    refine ⟨.nil, fun pre n h => ?_⟩
    rw [enc_nil, List.append_nil]
    exact reads_end h
  | cons c cs ih =>
    constructor
    · show Reads (encChar c ++ enc cs) (if leadDForEF c = true then _ else _) (spills (leadDForEF c) cs)
      cases hb : leadDForEF c with
      | true => rw [if_pos rfl]; exact ih.2 _ _ (opens_lead hb)
      | false =>
        rw [if_neg (by decide)]
        have h1 := cpSize_encChar_plain (enc cs) hb
        have h2 := cpDeref_encChar (enc cs) hb
        have h3 := decode_encChar' hb
        rw [← h2] at h3
        have hlen : cpSize (encChar c ++ enc cs) ≤ (encChar c ++ enc cs).length := by rw [h1]; simp
        have hdrop : (encChar c ++ enc cs).drop (cpSize (encChar c ++ enc cs)) = enc cs := by
          rw [h1, List.drop_left]
        obtain ⟨x, t, e⟩ := enc_cons_ne_nil c (enc cs)
        rw [e] at h3 hlen hdrop ⊢
        exact .step hlen h3 (by rw [hdrop]; exact ih.1)
    · intro pre n h
      show Reads (pre ++ (encChar c ++ enc cs)) ((n * 64 + firstBits c) :: _)
        (spills (decide ((encChar c).length = 2 ∨ (encChar c).length = 4)) cs)
      unfold firstBits
      rcases encChar_cases c with ⟨g, e⟩ | ⟨g, g', e⟩ | ⟨g, g', e⟩ | ⟨g, g', e⟩
      · rw [e]
        exact reads_open h _ ih.1
      · rw [e]
        refine reads_open h _ ?_
        have hk : (UInt8.ofNat (c.toNat % 64 + 0x80)).toNat = c.toNat % 64 + 0x80 := toNat_ofNat (by omega)
        have ho := opens_cont (x := UInt8.ofNat (c.toNat % 64 + 0x80)) (by omega) (by omega)
        have := ih.2 _ _ ho
        rw [hk, show (c.toNat % 64 + 0x80) % 32 = c.toNat % 32 by omega] at this
        exact this
      · rw [e]
        refine reads_open h _ ?_
        have hk : (UInt8.ofNat (c.toNat / 64 % 64 + 0x80)).toNat = c.toNat / 64 % 64 + 0x80 :=
          toNat_ofNat (by omega)
        have hk' : (UInt8.ofNat (c.toNat % 64 + 0x80)).toNat = c.toNat % 64 + 0x80 := toNat_ofNat (by omega)
        have ho := opens_cont (x := UInt8.ofNat (c.toNat / 64 % 64 + 0x80)) (by omega) (by omega)
        have := reads_open ho (UInt8.ofNat (c.toNat % 64 + 0x80)) ih.1
        rw [hk, hk', show (c.toNat / 64 % 64 + 0x80) % 32 * 64 + (c.toNat % 64 + 0x80) % 64 = c.toNat % 2048 by
          omega] at this
        exact this
      · rw [e]
        refine reads_open h _ ?_
        have hk : (UInt8.ofNat (c.toNat / 4096 % 64 + 0x80)).toNat = c.toNat / 4096 % 64 + 0x80 :=
          toNat_ofNat (by omega)
        have hk' : (UInt8.ofNat (c.toNat / 64 % 64 + 0x80)).toNat = c.toNat / 64 % 64 + 0x80 :=
          toNat_ofNat (by omega)
        have hk'' : (UInt8.ofNat (c.toNat % 64 + 0x80)).toNat = c.toNat % 64 + 0x80 := toNat_ofNat (by omega)
        have ho := opens_cont (x := UInt8.ofNat (c.toNat / 4096 % 64 + 0x80)) (by omega) (by omega)
        have ho' := opens_cont (x := UInt8.ofNat (c.toNat % 64 + 0x80)) (by omega) (by omega)
        have hi := ih.2 _ _ ho'
        rw [hk'', show (c.toNat % 64 + 0x80) % 32 = c.toNat % 32 by omega] at hi
        have := reads_open ho (UInt8.ofNat (c.toNat / 64 % 64 + 0x80)) hi
        rw [hk, hk', show (c.toNat / 4096 % 64 + 0x80) % 32 * 64 + (c.toNat / 64 % 64 + 0x80) % 64 =
          c.toNat / 64 % 2048 by omega] at this
        exact this

theorem reads_list {s : Bytes} {vs : List Nat} {sp : Bool} (h : Reads s vs sp) : ∀ fuel, s.length ≤ fuel →
    if sp = true then cpListAux fuel s = .ub
    else ∃ ps, cpListAux fuel s = .ok ps ∧ ps.map decode = vs.map some := by
  induction h with
  | nil => intro fuel _; rw [if_neg (by decide)]; exact ⟨[], by cases fuel <;> rfl, rfl⟩
  | @step x r v vs sp h1 h2 h3 ih =>
    intro fuel hf
    cases fuel with
    | zero => simp at hf
    | succ fuel =>
      have hp := cpSize_pos x r
      have := ih fuel (by simp only [List.length_drop, List.length_cons] at hf ⊢; omega)
      simp only [cpListAux, cpNext, if_pos h1, Out.ok_bind]
      cases sp with
      | true =>
        rw [if_pos rfl] at this ⊢
        rw [this]; rfl
      | false =>
        rw [if_neg (by decide)] at this ⊢
        obtain ⟨ps, e, hm⟩ := this
        exact ⟨_, by rw [e]; rfl, by rw [List.map_cons, List.map_cons, hm, h2]⟩
  | @spill x r h1 =>
    intro fuel hf
    cases fuel with
    | zero => simp at hf
    | succ fuel =>
      rw [if_pos rfl]
      simp only [cpListAux, cpNext, if_neg h1]
      rfl

theorem space_at {s : Bytes} {v : Nat} (h : decode s = some v) : isWhitespace s = spaceNumber v := by
  rw [isWhitespace, h]
  exact whitespace_lookup v

theorem reads_space {s : Bytes} {vs : List Nat} {sp : Bool} (h : Reads s vs sp) : ∀ fuel, s.length ≤ fuel →
    containsWhitespaceAux fuel s =
      if vs.any spaceNumber then .ok true else if sp then .ub else .ok false := by
  induction h with
  | nil => intro fuel _; cases fuel <;> rfl
  | @step x r v vs sp h1 h2 h3 ih =>
    intro fuel hf
    cases fuel with
    | zero => simp at hf
    | succ fuel =>
      have hp := cpSize_pos x r
      have := ih fuel (by simp only [List.length_drop, List.length_cons] at hf ⊢; omega)
      simp only [containsWhitespaceAux, space_at h2, cpNext, if_pos h1, Out.ok_bind, this, List.any_cons]
      by_cases hv : spaceNumber v = true
      · simp [hv]
      · simp [hv]
  | @spill x r h1 =>
    intro fuel hf
    cases fuel with
    | zero => simp at hf
    | succ fuel =>
      have hd : decode (cpDeref (x :: r)) = none := by
        rw [cpDeref, List.take_of_length_le (by omega), decode_cons rfl, if_neg, if_pos]
        · simp only [List.length_cons] at h1; omega
        · simp only [List.length_cons] at h1; omega
      simp only [containsWhitespaceAux, isWhitespace, hd, cpNext, if_neg h1]
      rfl

theorem width_at {s : Bytes} {v : Nat} (h : decode s = some v) : cpWidth s = columnsOf v := by
  rw [cpWidth, h]
  simp only [columnsOf, findRange_isSome_iff (sortedB_pairwise doubleWidth_sorted)
    (sortedB_wf doubleWidth_sorted), findRange_isSome_iff (sortedB_pairwise zeroWidth_sorted)
    (sortedB_wf zeroWidth_sorted)]

theorem reads_width {s : Bytes} {vs : List Nat} {sp : Bool} (h : Reads s vs sp) : ∀ fuel w, s.length ≤ fuel →
    terminalWidthAux fuel w s = if sp then .ub else .ok (w + (vs.map columnsOf).sum) := by
  induction h with
  | nil => intro fuel w _; cases fuel <;> rfl
  | @step x r v vs sp h1 h2 h3 ih =>
    intro fuel w hf
    cases fuel with
    | zero => simp at hf
    | succ fuel =>
      have hp := cpSize_pos x r
      have := ih fuel (w + columnsOf v) (by simp only [List.length_drop, List.length_cons] at hf ⊢; omega)
      simp only [terminalWidthAux, width_at h2, cpNext, if_pos h1, Out.ok_bind, this, List.map_cons,
        List.sum_cons, Nat.add_assoc]
  | @spill x r h1 =>
    intro fuel w hf
    cases fuel with
    | zero => simp at hf
    | succ fuel =>
      simp only [terminalWidthAux, cpNext, if_neg h1]
      rfl

/-- C34, exactly, for the scalar values that are measured one byte too long: at the end of the text they do
not decode; elsewhere the next byte is decoded with them, to another number. -/
theorem C34_misread (c : Char) (h : leadDForEF c = true) :
    decode (encChar c) = none ∧ ∀ (y : UInt8) (rest : Bytes),
      decode (encChar c ++ y :: rest) = some (stretched c * 64 + y.toNat % 64) ∧
      stretched c * 64 + y.toNat % 64 ≠ c.toNat := by
  obtain ⟨h0, h1, h2⟩ := opens_lead h
  have hs : ∀ r, cpSize (encChar c ++ r) = (encChar c).length + 1 := h1
  refine ⟨?_, fun y rest => ⟨?_, ?_⟩⟩
  · have hs := hs []
    rw [List.append_nil] at hs
    cases he : encChar c with
    | nil => exact absurd he h0
    | cons x r =>
      rw [he] at hs
      rw [decode_cons hs, if_neg (by simp), if_pos (by simp)]
  · have hy := h2 y
    have hs1 := hs (y :: rest)
    have hs2 := hs [y]
    cases he : encChar c with
    | nil => exact absurd he h0
    | cons x r =>
      rw [he] at hs1 hs2 hy
      simp only [List.cons_append] at hs1 hs2 hy ⊢
      rw [decode_cons hs2, if_neg (by simp), if_neg (by simp)] at hy
      rw [decode_cons hs1, if_neg (by simp), if_neg (by simp), ← hy]
      have hl : (x :: r).length + 1 - 1 = r.length + 1 := by simp
      rw [hl, List.take_append, List.take_append]
      simp
  · simp only [leadDForEF, Bool.or_eq_true, Bool.and_eq_true, decide_eq_true_eq] at h
    unfold stretched
    split
    · have : 960 ≤ c.toNat % 1024 := by omega
      omega
    · have : 28672 ≤ c.toNat % 32768 := by omega
      omega

/-- C35, for every well-formed text: if reading it does not leave it, it is read as the numbers that
`readAs` tells. -/
theorem C35_read_as (cs : List Char) (h : spills false cs = false) :
    ∃ ps, cpList (enc cs) = .ok ps ∧ ps.map decode = (readAs none cs).map some := by
  have := reads_list (reads_enc cs).1 _ (Nat.le_refl _)
  rw [h, if_neg (by decide)] at this
  exact this

/-- C39, exactly, for every well-formed text: whitespace is reported if it is among the numbers that the
text is read as. If it is not, reading on to the end may leave the text. -/
theorem C39_exact (cs : List Char) :
    containsWhitespace (enc cs) =
      if (readAs none cs).any spaceNumber then .ok true
      else if spills false cs then .ub else .ok false :=
  reads_space (reads_enc cs).1 _ (Nat.le_refl _)

/-- C40, exactly, for every well-formed text: its width is the sum of the columns of the numbers that it
is read as. -/
theorem C40_exact (cs : List Char) :
    terminalWidth (enc cs) =
      if spills false cs then .ub else .ok (((readAs none cs).map columnsOf).sum) := by
  rw [terminalWidth, reads_width (reads_enc cs).1 _ _ (Nat.le_refl _), Nat.zero_add]

/-- Plain text is read as it is; the numbers mean what the characters mean. -/
theorem readAs_plain {cs : List Char} (h : Plain cs) : readAs none cs = cs.map Char.toNat := by
  induction cs with
  | nil => rfl
  | cons c cs ih =>
    obtain ⟨hc, hcs⟩ := h.cons
    rw [readAs]
    simp only [hc, List.map_cons, ih hcs]
    rfl

theorem spaceNumber_char (c : Char) : spaceNumber c.toNat = isUnicodeWhitespace c := rfl

theorem columnsOf_char (c : Char) : columnsOf c.toNat = columns c := rfl

/-- Text that is misread: the space after "！" is taken for a part of it; the postal mark face after it is
read as a space; a space further on is found before the text is left; and "！" at the end leaves it. -/
example : readAs none ['！', ' ', 'a'] = [0x1FC060, 0x61] ∧ readAs none ['！', '〠'] = [0x1FC063, 0x20] ∧
    (readAs none ['！', 'é', 'b', ' ', '！']).any spaceNumber = true ∧
    spills false ['！', 'é', 'b', ' ', '！'] = true ∧
    containsWhitespace (enc ['！', 'é', 'b', ' ', '！']) = .ok true := by
  refine ⟨?_, ?_, ?_, ?_, ?_⟩ <;> decide +kernel

end ArgRouter.Props
