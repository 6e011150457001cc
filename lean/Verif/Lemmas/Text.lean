import Verif.Utf8.Text
import Verif.Lemmas.Utf8
import Verif.Lemmas.Range

/-! # Lemmas about stepping through text -/

namespace ArgRouter.Utf8

open ArgRouter.Spec

theorem cpSize_encChar_plain {c : Char} (rest : Bytes) (h : leadDForEF c = false) :
    cpSize (encChar c ++ rest) = (encChar c).length := by
  rw [cpSize_encChar, h]; simp

theorem cpDeref_encChar {c : Char} (rest : Bytes) (h : leadDForEF c = false) :
    cpDeref (encChar c ++ rest) = encChar c := by
  rw [cpDeref, cpSize_encChar_plain rest h, List.take_left]

theorem cpNext_encChar {c : Char} (rest : Bytes) (h : leadDForEF c = false) :
    cpNext (encChar c ++ rest) = .ok rest := by
  rw [cpNext, cpSize_encChar_plain rest h, List.drop_left]
  simp

theorem decode_encChar' {c : Char} (h : leadDForEF c = false) :
    decode (encChar c) = some c.toNat := by
  simpa using decode_encChar c [] h

theorem enc_cons_ne_nil (c : Char) (rest : Bytes) : ∃ x r, encChar c ++ rest = x :: r := by
  have := encChar_ne_nil c
  match h : encChar c with
  | [] => exact absurd h this
  | x :: r => exact ⟨x, r ++ rest, rfl⟩

/-- Recursion step of a loop over code points at an encoded character. -/
theorem cpListAux_cons {fuel : Nat} {c : Char} {rest : Bytes} (h : leadDForEF c = false) :
    cpListAux (fuel + 1) (encChar c ++ rest) = (do
      let r ← cpListAux fuel rest
      return encChar c :: r) := by
  obtain ⟨x, r, e⟩ := enc_cons_ne_nil c rest
  have h1 := cpNext_encChar rest h
  have h2 := cpDeref_encChar rest h
  rw [e] at h1 h2 ⊢
  simp only [cpListAux, h1, h2, Out.ok_bind]

theorem length_enc_le (cs : List Char) : cs.length ≤ (enc cs).length := by
  induction cs with
  | nil => simp
  | cons c cs ih =>
    have : 0 < (encChar c).length := List.length_pos_iff.2 (encChar_ne_nil c)
    simp only [enc_cons, List.length_append, List.length_cons]; omega

theorem cpListAux_enc {cs : List Char} (h : Plain cs) :
    ∀ fuel, cs.length ≤ fuel → cpListAux fuel (enc cs) = .ok (cs.map encChar) := by
  induction cs with
  | nil => intro fuel _; cases fuel <;> rfl
  | cons c cs ih =>
    intro fuel hf
    obtain ⟨hc, hcs⟩ := h.cons
    cases fuel with
    | zero => simp at hf
    | succ n =>
      rw [enc_cons, cpListAux_cons hc, ih hcs n (by simpa using hf)]
      rfl

theorem containsWhitespaceAux_enc {cs : List Char} (h : Plain cs) :
    ∀ fuel, cs.length ≤ fuel → containsWhitespaceAux fuel (enc cs)
      = .ok (cs.any (fun c => isWhitespace (encChar c))) := by
  induction cs with
  | nil => intro fuel _; cases fuel <;> rfl
  | cons c cs ih =>
    intro fuel hf
    obtain ⟨hc, hcs⟩ := h.cons
    cases fuel with
    | zero => simp at hf
    | succ n =>
      obtain ⟨x, r, e⟩ := enc_cons_ne_nil c (enc cs)
      have h1 := cpNext_encChar (enc cs) hc
      have h2 := cpDeref_encChar (enc cs) hc
      rw [enc_cons]
      rw [e] at h1 h2 ⊢
      simp only [containsWhitespaceAux, h1, h2, Out.ok_bind, List.any_cons]
      cases hw : isWhitespace (encChar c) with
      | true => simp
      | false => simpa using ih hcs n (by simpa using hf)

theorem terminalWidthAux_enc {cs : List Char} (h : Plain cs) :
    ∀ fuel w, cs.length ≤ fuel → terminalWidthAux fuel w (enc cs)
      = .ok (w + (cs.map (fun c => cpWidth (encChar c))).sum) := by
  induction cs with
  | nil => intro fuel w _; cases fuel <;> rfl
  | cons c cs ih =>
    intro fuel w hf
    obtain ⟨hc, hcs⟩ := h.cons
    cases fuel with
    | zero => simp at hf
    | succ n =>
      obtain ⟨x, r, e⟩ := enc_cons_ne_nil c (enc cs)
      have h1 := cpNext_encChar (enc cs) hc
      have h2 := cpDeref_encChar (enc cs) hc
      rw [enc_cons]
      rw [e] at h1 h2 ⊢
      simp only [terminalWidthAux, h1, h2, Out.ok_bind, List.map_cons, List.sum_cons]
      rw [ih hcs n _ (by simpa using hf)]
      congr 1; omega

theorem cpCount_append (s t : Bytes) : cpCount (s ++ t) = cpCount s + cpCount t := by
  have aux : ∀ (s : Bytes) n, s.foldl (fun result c => result +
      if (c &&& 0xC0) != 0x80 then 1 else 0) n = n + cpCount s := by
    intro s
    induction s with
    | nil => intro n; rfl
    | cons x s ih =>
      intro n
      unfold cpCount
      simp only [List.foldl_cons]
      rw [ih, ih (0 + _)]
      omega
  conv => lhs; unfold cpCount
  rw [List.foldl_append, aux, aux]
  omega

theorem cpCount_encChar (c : Char) : cpCount (encChar c) = 1 := by
  rcases encChar_cases c with ⟨h, e⟩ | ⟨h, h', e⟩ | ⟨h, h', e⟩ | ⟨h, h', e⟩ <;> rw [e] <;>
    simp only [cpCount, List.foldl_cons, List.foldl_nil, andC0_ne] <;>
    repeat rw [toNat_ofNat (by omega)]
  all_goals
    simp only [Bool.not_eq_true', decide_eq_false_iff_not, not_and]
    repeat' split
  all_goals omega

end ArgRouter.Utf8
