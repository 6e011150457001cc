import Verif.Exc.Format

/-!
# Error messages and their translation

C55 and C56: what the text of an error is.
-/

namespace ArgRouter

namespace Spec

/-- The parts of an error message: literal text, a placeholder for one token, and a placeholder for
all remaining tokens with the text to put between them. -/
inductive Piece where
  | text (s : Bytes)
  | one
  | rest (sep : Bytes)
  deriving DecidableEq

/-- How a part is written in the message: `{}` for one token, `{sep}` for all remaining ones. -/
def Piece.written : Piece → Bytes
  | .text s => s
  | .one => b "{}"
  | .rest sep => b "{" ++ sep ++ b "}"

/-- The message as the user writes it. -/
def written (ps : List Piece) : Bytes := ps.flatMap Piece.written

/-- No braces in a text. -/
def NoBrace (s : Bytes) : Prop := 0x7B ∉ s ∧ 0x7D ∉ s

/-- A part is sensible: braces are only used for placeholders. -/
def Piece.Ok : Piece → Prop
  | .text s => NoBrace s
  | .one => True
  | .rest sep => sep ≠ [] ∧ NoBrace sep

/-- Is it a placeholder? -/
def Piece.isHole : Piece → Bool
  | .text _ => false
  | _ => true

/-- A well-formed message: sensible parts, and no placeholder behind one that takes all tokens. -/
def WellFormed : List Piece → Prop
  | [] => True
  | .rest sep :: ps => Piece.Ok (.rest sep) ∧ WellFormed ps ∧ ∀ p ∈ ps, p.isHole = false
  | p :: ps => p.Ok ∧ WellFormed ps

/-- The message with the tokens filled in: missing tokens are empty, superfluous ones dropped. -/
def filled (cfg : Config) : List Piece → List Token → Bytes
  | [], _ => []
  | .text s :: ps, ts => s ++ filled cfg ps ts
  | .one :: ps, [] => filled cfg ps []
  | .one :: ps, t :: ts => t.str cfg ++ filled cfg ps ts
  | .rest sep :: ps, ts => sep.intercalate (ts.map (Token.str cfg)) ++ filled cfg ps []

/-- The whole error text: a message without placeholder gets the tokens appended. -/
def errorText (cfg : Config) (ps : List Piece) (ts : List Token) : Bytes :=
  if ps.any Piece.isHole then filled cfg ps ts
  else if ts = [] then written ps
  else written ps ++ b ": " ++ (b ", ").intercalate (ts.map (Token.str cfg))

end Spec

open Spec

/-! ## Finding the placeholders -/

theorem findByte_at (c : UInt8) (a m r : Bytes) (h : c ∉ m) :
    findByte c (a ++ (m ++ c :: r)) a.length = some (a.length + m.length) := by
  unfold findByte
  rw [List.drop_left]
  suffices hs : (m ++ c :: r).findIdx? (· == c) = some m.length by rw [hs]; rfl
  induction m with
  | nil => simp [List.findIdx?_cons]
  | cons x m ih =>
    have hx : (x == c) = false := by
      simp only [beq_eq_false_iff_ne]; intro e; exact h (by simp [e])
    simp only [List.cons_append, List.findIdx?_cons, hx, Bool.false_eq_true, if_false]
    rw [ih (fun hm => h (List.mem_cons_of_mem _ hm))]
    simp

theorem findByte_none (c : UInt8) (a m : Bytes) (h : c ∉ m) :
    findByte c (a ++ m) a.length = none := by
  unfold findByte
  rw [List.drop_left]
  have : m.findIdx? (· == c) = none := by
    rw [List.findIdx?_eq_none_iff]
    intro x hx
    simp only [beq_eq_false_iff_ne]
    intro e; exact h (e ▸ hx)
  rw [this]; rfl

/-- Where the placeholders of a message are. -/
def holesAt : Nat → List Piece → List Placeholder
  | _, [] => []
  | n, .text s :: ps => holesAt (n + s.length) ps
  | n, .one :: ps => ⟨n, []⟩ :: holesAt (n + 2) ps
  | n, .rest sep :: ps => ⟨n, sep⟩ :: holesAt (n + sep.length + 2) ps

theorem wf_tail {p : Piece} {ps : List Piece} (h : Spec.WellFormed (p :: ps)) :
    p.Ok ∧ Spec.WellFormed ps := by
  cases p with
  | text s => exact h
  | one => exact h
  | rest sep => exact ⟨h.1, h.2.1⟩

theorem written_cons (p : Piece) (ps : List Piece) : written (p :: ps) = p.written ++ written ps :=
  rfl

theorem b_open : b "{" = [0x7B] := by decide +kernel
theorem b_close : b "}" = [0x7D] := by decide +kernel
theorem b_pair : b "{}" = [0x7B, 0x7D] := by decide +kernel

/-- One step of the search at a placeholder. -/
theorem placeholdersFrom_hole (pre t sep rest : Bytes) (ht : NoBrace t) (hs : NoBrace sep)
    (fuel : Nat) :
    placeholdersFrom (pre ++ (t ++ (0x7B :: (sep ++ 0x7D :: rest)))) (fuel + 1) pre.length =
      ⟨pre.length + t.length, sep⟩ ::
        placeholdersFrom (pre ++ (t ++ (0x7B :: (sep ++ 0x7D :: rest)))) fuel
          (pre ++ t ++ [0x7B] ++ sep ++ [0x7D]).length := by
  have h1 := findByte_at 0x7B pre t (sep ++ 0x7D :: rest) ht.1
  have h2 : findByte 0x7D (pre ++ (t ++ (0x7B :: (sep ++ 0x7D :: rest)))) (pre.length + 1) =
      some (pre.length + t.length + 1 + sep.length) := by
    cases t with
    | nil =>
      have := findByte_at 0x7D (pre ++ [0x7B]) sep rest hs.2
      simp only [List.length_append, List.length_cons, List.length_nil, List.append_assoc,
        List.cons_append, List.nil_append] at this ⊢
      rw [this]
    | cons x t =>
      have hn : (0x7D : UInt8) ∉ t ++ 0x7B :: sep := by
        have h3 := ht.2
        simp only [List.mem_cons, not_or] at h3
        simp only [List.mem_append, List.mem_cons, not_or]
        exact ⟨h3.2, by decide, hs.2⟩
      have := findByte_at 0x7D (pre ++ [x]) (t ++ 0x7B :: sep) rest hn
      simp only [List.length_append, List.length_cons, List.length_nil, List.append_assoc,
        List.cons_append, List.nil_append] at this ⊢
      rw [this]; congr 1; omega
  rw [placeholdersFrom, h1, h2]
  simp only
  have hlt : pre.length + t.length < pre.length + t.length + 1 + sep.length := by omega
  rw [if_pos hlt]
  congr 1
  · congr 1
    have : pre ++ (t ++ (0x7B :: (sep ++ 0x7D :: rest))) =
        (pre ++ t ++ [0x7B]) ++ (sep ++ 0x7D :: rest) := by simp
    rw [this, show pre.length + t.length + 1 = (pre ++ t ++ [0x7B]).length by simp; omega,
      List.drop_left]
    have hl : (pre ++ t ++ [0x7B]).length + sep.length - (pre.length + t.length) - 1 = sep.length :=
      by simp only [List.length_append, List.length_cons, List.length_nil]; omega
    rw [hl]
    simp
  · congr 1
    simp; omega

theorem placeholdersFrom_none (pre t : Bytes) (ht : NoBrace t) (fuel : Nat) :
    placeholdersFrom (pre ++ t) fuel pre.length = [] := by
  cases fuel with
  | zero => rfl
  | succ n => rw [placeholdersFrom, findByte_none _ _ _ ht.1]

theorem placeholdersFrom_written (ps : List Piece) : ∀ (pre t : Bytes) (fuel : Nat),
    (∀ p ∈ ps, p.Ok) → NoBrace t → (written ps).length < fuel →
    placeholdersFrom (pre ++ (t ++ written ps)) fuel pre.length =
      holesAt (pre.length + t.length) ps := by
  induction ps with
  | nil =>
    intro pre t fuel _ ht _
    simpa [written, holesAt] using placeholdersFrom_none pre t ht fuel
  | cons p ps ih =>
    intro pre t fuel hok ht hf
    have hps : ∀ p ∈ ps, p.Ok := fun q hq => hok q (List.mem_cons_of_mem _ hq)
    have hp := hok p List.mem_cons_self
    rw [written_cons] at hf ⊢
    cases p with
    | text s =>
      have hs : NoBrace s := hp
      have := ih pre (t ++ s) fuel hps
        ⟨by simp [ht.1, hs.1], by simp [ht.2, hs.2]⟩ (by simp at hf; omega)
      simpa [Piece.written, holesAt, Nat.add_assoc] using this
    | one =>
      cases fuel with
      | zero => omega
      | succ fuel =>
        simp only [Piece.written, b_pair] at hf ⊢
        have h := placeholdersFrom_hole pre t [] (written ps) ht ⟨by simp, by simp⟩ fuel
        have h2 := ih (pre ++ t ++ [0x7B] ++ [] ++ [0x7D]) [] fuel hps ⟨by simp, by simp⟩
          (by simp at hf; omega)
        have e : pre ++ t ++ [0x7B] ++ [] ++ [0x7D] ++ ([] ++ written ps) =
            pre ++ (t ++ (0x7B :: ([] ++ 0x7D :: written ps))) := by simp
        rw [e] at h2
        rw [h2] at h
        simpa [holesAt, Nat.add_assoc] using h
    | rest sep =>
      have hs : sep ≠ [] ∧ NoBrace sep := hp
      cases fuel with
      | zero => omega
      | succ fuel =>
        simp only [Piece.written, b_open, b_close] at hf ⊢
        have h := placeholdersFrom_hole pre t sep (written ps) ht hs.2 fuel
        have h2 := ih (pre ++ t ++ [0x7B] ++ sep ++ [0x7D]) [] fuel hps ⟨by simp, by simp⟩
          (by simp at hf; omega)
        have e : pre ++ t ++ [0x7B] ++ sep ++ [0x7D] ++ ([] ++ written ps) =
            pre ++ (t ++ (0x7B :: (sep ++ 0x7D :: written ps))) := by simp
        rw [e] at h2
        rw [h2] at h
        have e2 : (pre ++ t ++ [0x7B] ++ sep ++ [0x7D]).length + ([] : Bytes).length =
            pre.length + t.length + sep.length + 2 := by simp; omega
        rw [e2] at h
        simpa [holesAt] using h

theorem wf_ok {ps : List Piece} (h : Spec.WellFormed ps) : ∀ p ∈ ps, p.Ok := by
  induction ps with
  | nil => simp
  | cons p ps ih =>
    intro q hq
    rcases List.mem_cons.1 hq with e | hq
    · exact e ▸ (wf_tail h).1
    · exact ih (wf_tail h).2 q hq

theorem placeholders_written {ps : List Piece} (h : ∀ p ∈ ps, p.Ok) :
    placeholders (written ps) = holesAt 0 ps := by
  have := placeholdersFrom_written ps [] [] ((written ps).length + 1) h ⟨by simp, by simp⟩
    (by omega)
  simpa [placeholders] using this

theorem holesAt_text {ps : List Piece} (h : ∀ p ∈ ps, p.isHole = false) (n : Nat) :
    holesAt n ps = [] := by
  induction ps generalizing n with
  | nil => rfl
  | cons p ps ih =>
    have hp := h p List.mem_cons_self
    cases p with
    | text s => exact ih (fun q hq => h q (List.mem_cons_of_mem _ hq)) _
    | one => simp [Piece.isHole] at hp
    | rest sep => simp [Piece.isHole] at hp

theorem holesAt_pos {ps : List Piece} (n : Nat) :
    (holesAt n ps).length > 0 ↔ ps.any Piece.isHole = true := by
  induction ps generalizing n with
  | nil => simp [holesAt]
  | cons p ps ih =>
    cases p with
    | text s => simpa [holesAt, Piece.isHole] using ih _
    | one => simp [holesAt, Piece.isHole]
    | rest sep => simp [holesAt, Piece.isHole]

theorem filled_text {cfg : Config} {ps : List Piece} (h : ∀ p ∈ ps, p.isHole = false)
    (ts : List Token) : filled cfg ps ts = written ps := by
  induction ps with
  | nil => rfl
  | cons p ps ih =>
    have hp := h p List.mem_cons_self
    have ih := ih (fun q hq => h q (List.mem_cons_of_mem _ hq))
    cases p with
    | text s => simp [filled, ih, written_cons, Piece.written]
    | one => simp [Piece.isHole] at hp
    | rest sep => simp [Piece.isHole] at hp

/-! ## Filling them in -/

theorem strReplace_at (done mid rest by_ : Bytes) (pos : Int) (count : Nat)
    (hp : pos = done.length) (hc : count = mid.length) :
    strReplace (done ++ (mid ++ rest)) pos count by_ = .ok (done ++ (by_ ++ rest)) := by
  subst hp hc
  unfold strReplace
  rw [if_pos ⟨by omega, by simp only [List.length_append]; omega⟩]
  simp only [Int.toNat_natCast, List.take_left', List.append_assoc]
  rw [← List.append_assoc done mid rest,
    show done.length + mid.length = (done ++ mid).length by simp, List.drop_left]

theorem fmtGreedy_spec (cfg : Config) (sep : Bytes) (ts : List Token) :
    ∀ (done rest : Bytes) (pos : Int), pos = done.length →
    fmtGreedy cfg sep ts (done ++ rest) pos =
      .ok (done ++ ((ts.flatMap fun t => sep ++ t.str cfg) ++ rest)) := by
  induction ts with
  | nil => intro done rest pos _; rfl
  | cons t ts ih =>
    intro done rest pos hp
    rw [fmtGreedy, strInsert]
    have := strReplace_at done [] rest (sep ++ t.str cfg) pos 0 hp rfl
    rw [List.nil_append] at this
    simp only [this, Out.ok_bind]
    rw [← List.append_assoc done]
    rw [ih (done ++ (sep ++ t.str cfg)) rest _ (by subst hp; simp)]
    simp

theorem intercalate_cons (sep : Bytes) (x : Bytes) (xs : List Bytes) :
    sep.intercalate (x :: xs) = x ++ xs.flatMap (sep ++ ·) := by
  induction xs generalizing x with
  | nil => simp [List.intercalate]
  | cons y ys ih =>
    have := ih y
    simp only [List.intercalate, List.intersperse] at this ⊢
    simp only [List.flatten_cons, this]
    simp

theorem fmtLoop_spec (cfg : Config) (ps : List Piece) : ∀ (ts : List Token) (done : Bytes)
    (n : Nat) (off : Int), Spec.WellFormed ps → (n : Int) + off = done.length →
    fmtLoop cfg (holesAt n ps) ts (done ++ written ps) off = .ok (done ++ filled cfg ps ts) := by
  induction ps with
  | nil => intro ts done n off _ _; cases ts <;> simp [holesAt, fmtLoop, written, filled]
  | cons p ps ih =>
    intro ts done n off hwf hn
    have htl := (wf_tail hwf).2
    rw [written_cons]
    cases p with
    | text s =>
      simp only [holesAt, Piece.written, filled]
      rw [← List.append_assoc, ih ts (done ++ s) _ off htl (by simp; omega), List.append_assoc]
    | one =>
      simp only [holesAt, Piece.written]
      cases ts with
      | nil =>
        rw [fmtLoop]
        simp only [filled]
        rw [strReplace_at done (b "{}") (written ps) [] _ _ hn (by rw [b_pair]; rfl)]
        simp only [Out.ok_bind, List.nil_append]
        exact ih [] done _ _ htl (by omega)
      | cons t ts =>
        rw [fmtLoop]
        simp only [filled]
        rw [strReplace_at done (b "{}") (written ps) _ _ _ hn (by rw [b_pair]; rfl)]
        simp only [Out.ok_bind, List.isEmpty_nil, if_true]
        rw [← List.append_assoc, ih ts (done ++ t.str cfg) _ _ htl (by simp; omega),
          List.append_assoc]
    | rest sep =>
      have hno := hwf.2.2
      have hsep : sep ≠ [] := hwf.1.1
      simp only [holesAt, Piece.written]
      rw [holesAt_text hno]
      have hl : (b "{" ++ sep ++ b "}").length = sep.length + 2 := by
        rw [b_open, b_close]; simp
      cases ts with
      | nil =>
        rw [fmtLoop]
        simp only [filled]
        rw [strReplace_at done (b "{" ++ sep ++ b "}") (written ps) [] _ _ hn hl.symm]
        simp [fmtLoop, filled_text hno, List.intercalate]
      | cons t ts =>
        rw [fmtLoop]
        simp only [filled]
        rw [strReplace_at done (b "{" ++ sep ++ b "}") (written ps) _ _ _ hn hl.symm]
        have he : sep.isEmpty = false := by cases sep <;> simp_all
        simp only [Out.ok_bind, he, Bool.false_eq_true, if_false]
        rw [← List.append_assoc, fmtGreedy_spec cfg sep ts (done ++ t.str cfg) (written ps) _
          (by simp; omega)]
        simp only [Out.ok_bind, fmtLoop]
        rw [filled_text hno, List.map_cons, intercalate_cons]
        simp [List.flatMap_map]

theorem written_append (ps qs : List Piece) : written (ps ++ qs) = written ps ++ written qs := by
  simp [written]

theorem wf_text_append {ps qs : List Piece} (h : Spec.WellFormed ps)
    (ht : ∀ p ∈ ps, p.isHole = false) (hq : Spec.WellFormed qs) : Spec.WellFormed (ps ++ qs) := by
  induction ps with
  | nil => exact hq
  | cons p ps ih =>
    have hp := ht p List.mem_cons_self
    have := ih (wf_tail h).2 (fun q hq => ht q (List.mem_cons_of_mem _ hq))
    cases p with
    | text s => exact ⟨h.1, this⟩
    | one => simp [Piece.isHole] at hp
    | rest sep => simp [Piece.isHole] at hp

theorem filled_append_text {cfg : Config} {ps : List Piece} (ht : ∀ p ∈ ps, p.isHole = false)
    (qs : List Piece) (ts : List Token) :
    filled cfg (ps ++ qs) ts = written ps ++ filled cfg qs ts := by
  induction ps with
  | nil => rfl
  | cons p ps ih =>
    have hp := ht p List.mem_cons_self
    have := ih (fun q hq => ht q (List.mem_cons_of_mem _ hq))
    cases p with
    | text s => simp [filled, written_cons, Piece.written, this]
    | one => simp [Piece.isHole] at hp
    | rest sep => simp [Piece.isHole] at hp

namespace Props

/-- C55: for every well-formed message and every list of tokens, whatever bytes the tokens consist
of, the error text has every placeholder replaced by the next token, the last greedy placeholder by
all remaining tokens joined with the text in its braces, and tokens of a message without placeholder
appended after `": "`. -/
theorem C55_format (cfg : Config) (ps : List Piece) (h : Spec.WellFormed ps) (ts : List Token) :
    format cfg (written ps) ts = .ok (errorText cfg ps ts) := by
  unfold format errorText
  rw [placeholders_written (wf_ok h)]
  by_cases hh : ps.any Piece.isHole = true
  · rw [if_pos ((holesAt_pos 0).2 hh), if_pos hh]
    have := fmtLoop_spec cfg ps ts [] 0 0 h (by simp)
    rw [fmt, placeholders_written (wf_ok h)]
    simpa using this
  · have hno : ∀ p ∈ ps, p.isHole = false := by
      simpa using hh
    rw [if_neg (fun hc => hh ((holesAt_pos 0).1 hc)), if_neg hh]
    cases ts with
    | nil => rfl
    | cons t ts =>
      simp only [List.isEmpty_cons, Bool.not_false, if_true, List.cons_ne_nil, if_false, fmt]
      have hw : written ps ++ b ": {, }" = written (ps ++ [.text (b ": "), .rest (b ", ")]) := by
        rw [written_append]
        congr 1
      have hwf : Spec.WellFormed (ps ++ [.text (b ": "), .rest (b ", ")]) :=
        wf_text_append h hno ⟨by unfold Piece.Ok NoBrace; decide +kernel,
          ⟨by unfold Piece.Ok NoBrace; decide +kernel, trivial, by simp⟩⟩
      rw [hw, placeholders_written (wf_ok hwf)]
      have := fmtLoop_spec cfg _ (t :: ts) [] 0 0 hwf (by simp)
      simp only [List.nil_append] at this
      rw [this, filled_append_text hno]
      simp [filled]

/-- C55: well-formed messages pass the compile-time check of the formatter. -/
theorem C55_compiles (ps : List Piece) (h : Spec.WellFormed ps) :
    placeholderCheck (written ps) = true := by
  unfold placeholderCheck
  rw [placeholders_written (wf_ok h)]
  have key : ∀ (ps : List Piece) (n : Nat), Spec.WellFormed ps →
      (holesAt n ps).countP Placeholder.isGreedy = 0 ∨
      ((holesAt n ps).countP Placeholder.isGreedy = 1 ∧
        ((holesAt n ps).getLast?.map Placeholder.isGreedy).getD false = true) := by
    intro ps
    induction ps with
    | nil => intro n _; simp [holesAt]
    | cons p ps ih =>
      intro n h
      cases p with
      | text s => exact ih _ (wf_tail h).2
      | one =>
        rcases ih (n + 2) (wf_tail h).2 with h0 | ⟨h1, h2⟩
        · left; simp [holesAt, Placeholder.isGreedy] at h0 ⊢; simpa [Placeholder.isGreedy] using h0
        · right
          refine ⟨by simpa [holesAt, Placeholder.isGreedy] using h1, ?_⟩
          cases hl : holesAt (n + 2) ps with
          | nil => rw [hl] at h1; simp at h1
          | cons x xs => rw [hl] at h2; simpa [holesAt, hl, List.getLast?_cons_cons] using h2
      | rest sep =>
        right
        have hs : sep ≠ [] := h.1.1
        have : 0 < sep.length := by cases sep <;> simp_all
        rw [holesAt, holesAt_text h.2.2]
        simp [Placeholder.isGreedy, this]
  rcases key ps 0 h with h0 | ⟨h1, h2⟩
  · simp only [h0]; split <;> simp
  · simp only [h1, h2]; split <;> simp

theorem wf_of_check : ∀ (ps : List Piece) (n : Nat), (∀ p ∈ ps, p.Ok) →
    (holesAt n ps).countP Placeholder.isGreedy ≤ 1 →
    ((holesAt n ps).countP Placeholder.isGreedy = 1 →
      ((holesAt n ps).getLast?.map Placeholder.isGreedy).getD false = true) → Spec.WellFormed ps
  | [], _, _, _, _ => trivial
  | .text s :: ps, n, hok, h1, h2 =>
    ⟨hok _ List.mem_cons_self,
      wf_of_check ps (n + s.length) (fun p hp => hok p (List.mem_cons_of_mem _ hp)) h1 h2⟩
  | .one :: ps, n, hok, h1, h2 => by
    have hg : Placeholder.isGreedy ⟨n, []⟩ = false := rfl
    simp only [holesAt, List.countP_cons_of_neg (by rw [hg]; simp : ¬ Placeholder.isGreedy ⟨n, []⟩ = true)] at h1 h2
    refine ⟨trivial, wf_of_check ps (n + 2) (fun p hp => hok p (List.mem_cons_of_mem _ hp)) h1 ?_⟩
    intro hc
    have := h2 hc
    cases hl : holesAt (n + 2) ps with
    | nil => rw [hl] at hc; simp at hc
    | cons x xs => rw [hl, List.getLast?_cons_cons] at this; exact this
  | .rest sep :: ps, n, hok, h1, h2 => by
    have hsep := hok _ List.mem_cons_self
    have hpos : 0 < sep.length := by
      have := hsep.1
      cases sep <;> simp_all
    have hg : Placeholder.isGreedy ⟨n, sep⟩ = true := by simp [Placeholder.isGreedy, hpos]
    simp only [holesAt, List.countP_cons_of_pos hg] at h1 h2
    have h0 : (holesAt (n + sep.length + 2) ps).countP Placeholder.isGreedy = 0 := by omega
    have hnone : holesAt (n + sep.length + 2) ps = [] := by
      cases hl : holesAt (n + sep.length + 2) ps with
      | nil => rfl
      | cons x xs =>
        have hlast := h2 (by rw [h0])
        rw [hl, List.getLast?_cons_cons] at hlast
        rw [hl, List.countP_eq_zero] at h0
        cases hx : (x :: xs).getLast? with
        | none => simp at hx
        | some y =>
          rw [hx] at hlast
          exact absurd hlast (h0 y (List.mem_of_getLast? hx))
    refine ⟨hsep, wf_of_check ps (n + sep.length + 2)
      (fun p hp => hok p (List.mem_cons_of_mem _ hp)) (by omega) (fun h => by omega), ?_⟩
    intro p hp
    refine Bool.eq_false_iff.2 fun hh => ?_
    have := (holesAt_pos (ps := ps) (n + sep.length + 2)).2 (List.any_eq_true.2 ⟨p, hp, hh⟩)
    rw [hnone] at this
    simp at this

/-- C55: a message in which braces are only used for placeholders compiles exactly if it is
well-formed: at most one placeholder takes all remaining tokens, and no other one follows it. -/
theorem C55_rejected (ps : List Piece) (hok : ∀ p ∈ ps, p.Ok) :
    placeholderCheck (written ps) = true ↔ Spec.WellFormed ps := by
  refine ⟨fun h => ?_, C55_compiles ps⟩
  unfold placeholderCheck at h
  rw [placeholders_written hok] at h
  simp only at h
  split at h
  · simp only [Bool.and_eq_true, decide_eq_true_eq, Bool.or_eq_true, bne_iff_ne] at h
    exact wf_of_check ps 0 hok h.1 fun h1 => h.2.resolve_left fun hn => hn h1
  · rename_i hl
    have hle := List.countP_le_length (p := Placeholder.isGreedy) (l := holesAt 0 ps)
    refine wf_of_check ps 0 hok (by omega) fun h1 => ?_
    cases hh : holesAt 0 ps with
    | nil => rw [hh] at h1; simp at h1
    | cons x xs =>
      cases xs with
      | nil =>
        rw [hh] at h1
        simp only [List.getLast?_singleton, Option.map_some, Option.getD_some]
        by_cases hx : x.isGreedy = true
        · exact hx
        · rw [List.countP_cons_of_neg hx] at h1; simp at h1
      | cons y ys => rw [hh] at hl; simp at hl

/-- Two placeholders that take all tokens, and one that is followed by another one, do not compile. -/
example : placeholderCheck (b "{, } and { }") = false ∧ placeholderCheck (b "{, } and {}") = false ∧
    placeholderCheck (b "{} and {, }") = true := by decide +kernel

/-- C55: outside well-formed messages the text goes wrong. After a stray closing brace the first
token is lost and the brace reappears behind the message; after a stray opening brace the rest of the
message is taken for the text between the tokens. -/
theorem C55_stray_brace :
    format Config.default (b "bad } here") [⟨.none, b "x"⟩, ⟨.none, b "y"⟩] =
        .ok (b "bad } here:}y") ∧
      format Config.default (b "bad { here") [⟨.none, b "x"⟩, ⟨.none, b "y"⟩] =
        .ok (b "bad x here: {, y") := by
  decide +kernel

/-- The library's own message with placeholders is an instance. -/
example : Spec.WellFormed [.text (b "Unknown argument: "), .one, .text (b ". Did you mean "),
    .rest (b " "), .text (b "?")] ∧
    written [.text (b "Unknown argument: "), .one, .text (b ". Did you mean "), .rest (b " "),
      .text (b "?")] = b "Unknown argument: {}. Did you mean { }?" ∧
    errorText Config.default [.text (b "Unknown argument: "), .one, .text (b ". Did you mean "),
      .rest (b " "), .text (b "?")] [⟨.none, b "{}"⟩, ⟨.none, b "push"⟩, ⟨.long, b "force"⟩] =
      b "Unknown argument: {}. Did you mean push --force?" := by
  unfold Spec.WellFormed
  simp only [Spec.WellFormed, Piece.Ok, NoBrace]
  decide +kernel

end Props

/-! ## Translations -/

namespace Spec

/-- The first entry of a table for an error code. -/
def FirstFor (t : Translations) (code : Nat) (msg : Bytes) : Prop :=
  ∃ pre post, t = pre ++ (code, msg) :: post ∧ ∀ e ∈ pre, e.1 ≠ code

/-- A table says nothing about an error code. -/
def NoneFor (t : Translations) (code : Nat) : Prop := ∀ e ∈ t, e.1 ≠ code

/-- The documented English message of each error of the library. -/
def english : ErrorCode → List Piece
  | .unknown_argument => [.text (b "Unknown argument")]
  | .unhandled_arguments => [.text (b "Unhandled arguments")]
  | .argument_has_already_been_set => [.text (b "Argument has already been set")]
  | .failed_to_parse => [.text (b "Failed to parse")]
  | .no_arguments_passed => [.text (b "No arguments passed")]
  | .minimum_value_not_reached => [.text (b "Minimum value not reached")]
  | .maximum_value_exceeded => [.text (b "Maximum value exceeded")]
  | .minimum_count_not_reached => [.text (b "Minimum count not reached")]
  | .maximum_count_exceeded => [.text (b "Maximum count exceeded")]
  | .unknown_argument_with_suggestion =>
    [.text (b "Unknown argument: "), .one, .text (b ". Did you mean "), .rest (b " "),
      .text (b "?")]
  | .mode_requires_arguments => [.text (b "Mode requires arguments")]
  | .missing_required_argument => [.text (b "Missing required argument")]
  | .too_few_values_for_alias => [.text (b "Too few values for alias")]
  | .dependent_argument_missing =>
    [.text (b "Dependent argument missing (needs to be before the requiring token on the "),
      .text (b "command line)")]
  | .one_of_selected_type_mismatch =>
    [.text (b "Only one argument from a \"One Of\" can be used at once")]
  | .missing_value_separator => [.text (b "Expected a value separator")]

end Spec

theorem translateLoop_first {cfg : Config} {code : Nat} {msg : Bytes} {ts : List Token}
    {t : Translations} (h : FirstFor t code msg) (rest : Translations) :
    translateLoop cfg code ts (t ++ rest) = some (format cfg msg ts) := by
  obtain ⟨pre, post, e, hpre⟩ := h
  subst e
  induction pre with
  | nil => simp [translateLoop]
  | cons p pre ih =>
    have hp := hpre p List.mem_cons_self
    obtain ⟨c, m⟩ := p
    simp only [List.cons_append, translateLoop]
    rw [if_neg hp]
    exact ih fun e he => hpre e (List.mem_cons_of_mem _ he)

theorem translateLoop_none {cfg : Config} {code : Nat} {ts : List Token} {t : Translations}
    (h : NoneFor t code) (rest : Translations) :
    translateLoop cfg code ts (t ++ rest) = translateLoop cfg code ts rest := by
  induction t with
  | nil => rfl
  | cons p t ih =>
    have hp := h p List.mem_cons_self
    obtain ⟨c, m⟩ := p
    simp only [List.cons_append, translateLoop]
    rw [if_neg hp]
    exact ih fun e he => h e (List.mem_cons_of_mem _ he)

theorem tokensStr_eq (cfg : Config) (ts : List Token) :
    tokensStr cfg ts = (b ", ").intercalate (ts.map (Token.str cfg)) := by
  induction ts with
  | nil => rfl
  | cons t ts ih =>
    cases ts with
    | nil => simp [tokensStr, List.intercalate]
    | cons u us =>
      rw [tokensStr, ih, List.map_cons, intercalate_cons, List.map_cons, intercalate_cons]
      · simp
      · simp

theorem english_wf (ec : ErrorCode) : Spec.WellFormed (english ec) := by
  cases ec <;> simp only [english, Spec.WellFormed, Piece.Ok, NoBrace] <;> decide +kernel

theorem english_default (ec : ErrorCode) :
    FirstFor defaultTranslations ec.num (written (english ec)) := by
  have : ∃ i, defaultTranslations[i]? = some (ec.num, written (english ec)) ∧
      ∀ e ∈ defaultTranslations.take i, e.1 ≠ ec.num := by
    cases ec
    case unknown_argument => exact ⟨0, by decide +kernel⟩
    case unhandled_arguments => exact ⟨1, by decide +kernel⟩
    case argument_has_already_been_set => exact ⟨2, by decide +kernel⟩
    case failed_to_parse => exact ⟨3, by decide +kernel⟩
    case no_arguments_passed => exact ⟨4, by decide +kernel⟩
    case minimum_value_not_reached => exact ⟨5, by decide +kernel⟩
    case maximum_value_exceeded => exact ⟨6, by decide +kernel⟩
    case minimum_count_not_reached => exact ⟨7, by decide +kernel⟩
    case maximum_count_exceeded => exact ⟨8, by decide +kernel⟩
    case unknown_argument_with_suggestion => exact ⟨9, by decide +kernel⟩
    case mode_requires_arguments => exact ⟨10, by decide +kernel⟩
    case missing_required_argument => exact ⟨11, by decide +kernel⟩
    case too_few_values_for_alias => exact ⟨12, by decide +kernel⟩
    case dependent_argument_missing => exact ⟨13, by decide +kernel⟩
    case one_of_selected_type_mismatch => exact ⟨14, by decide +kernel⟩
    case missing_value_separator => exact ⟨15, by decide +kernel⟩
  obtain ⟨i, hi, hpre⟩ := this
  obtain ⟨hlt, he⟩ := List.getElem?_eq_some_iff.1 hi
  refine ⟨defaultTranslations.take i, defaultTranslations.drop (i + 1), ?_, hpre⟩
  rw [← he, List.getElem_cons_drop, List.take_append_drop]

namespace Props

/-- C56: a custom translation of the code is used, whatever the fallback table says. -/
theorem C56_custom (cfg : Config) (custom fallback : Translations) (code : Nat) (ps : List Piece)
    (hps : Spec.WellFormed ps) (h : FirstFor custom code (written ps)) (ts : List Token) :
    translate cfg custom fallback code ts = .ok (errorText cfg ps ts) := by
  rw [translate, translateLoop_first h, C55_format cfg ps hps]

/-- C56: without a custom translation the fallback's is used. -/
theorem C56_fallback (cfg : Config) (custom fallback : Translations) (code : Nat)
    (ps : List Piece) (hps : Spec.WellFormed ps) (hc : NoneFor custom code)
    (h : FirstFor fallback code (written ps)) (ts : List Token) :
    translate cfg custom fallback code ts = .ok (errorText cfg ps ts) := by
  have := translateLoop_first (cfg := cfg) (ts := ts) h []
  rw [List.append_nil] at this
  rw [translate, translateLoop_none hc, this, C55_format cfg ps hps]

/-- C56: a code in neither table is reported by its number, followed by the tokens. -/
theorem C56_untranslated (cfg : Config) (custom fallback : Translations) (code : Nat)
    (hc : NoneFor custom code) (hf : NoneFor fallback code) (ts : List Token) :
    translate cfg custom fallback code ts =
      .ok (b "Untranslated error code (" ++ b (toString code) ++ b ")" ++
        (if ts = [] then [] else b ": " ++ (b ", ").intercalate (ts.map (Token.str cfg)))) := by
  have := translateLoop_none (cfg := cfg) (ts := ts) hf []
  rw [List.append_nil] at this
  rw [translate, translateLoop_none hc, this]
  simp only [translateLoop, plainMessage, natToBytes, tokensStr_eq]
  cases ts <;> simp

/-- C56: with the default fallback every error of the library that the user has not translated gets
its documented English message with the tokens filled in; none is left untranslated. -/
theorem C56_default (cfg : Config) (custom : Translations) (ec : ErrorCode)
    (hc : NoneFor custom ec.num) (ts : List Token) :
    translate cfg custom defaultTranslations ec.num ts = .ok (errorText cfg (english ec) ts) :=
  C56_fallback cfg custom _ _ _ (english_wf ec) hc (english_default ec) ts

/-- C56: different errors have different codes. -/
theorem C56_codes (x y : ErrorCode) (h : x.num = y.num) : x = y := by
  cases x <;> cases y <;> first | rfl | exact absurd h (by decide)

/-- A table with a custom message for one error and one for a code of the user's own. -/
def french : Translations :=
  [(0, b "Argument inconnu"), (1000, b "Trop de {/}"), (0, b "jamais")]

example : FirstFor french 0 (b "Argument inconnu") ∧ NoneFor french 1 ∧
    translate Config.default french defaultTranslations 0 [⟨.long, b "foo"⟩] =
      .ok (b "Argument inconnu: --foo") ∧
    translate Config.default french defaultTranslations 1 [⟨.long, b "a"⟩, ⟨.none, b "b"⟩] =
      .ok (b "Unhandled arguments: --a, b") ∧
    translate Config.default french defaultTranslations 1000 [⟨.long, b "a"⟩, ⟨.none, b "b"⟩] =
      .ok (b "Trop de --a/b") ∧
    translate Config.default french defaultTranslations 2000 [⟨.none, b "b"⟩] =
      .ok (b "Untranslated error code (2000): b") := by
  refine ⟨⟨[], _, rfl, by simp⟩, ?_⟩
  unfold NoneFor
  decide +kernel

end Props

end ArgRouter
