import Verif.Utf8.CodePoint
import Verif.Spec.Utf8

/-! # Lemmas about UTF-8 encodings -/

namespace ArgRouter.Utf8

open ArgRouter.Spec

theorem forall_uint8 {p : UInt8 → Prop} (h : ∀ n : Fin 256, p (UInt8.ofNat n)) : ∀ x, p x := by
  intro x
  have := h ⟨x.toNat, x.toNat_lt⟩
  simpa using this

theorem and80_eq : ∀ x : UInt8, (x &&& 0x80 == 0) = decide (x.toNat < 128) :=
  forall_uint8 (by decide +kernel)

theorem andC0_ne : ∀ x : UInt8, ((x &&& 0xC0) != 0x80) = !decide (128 ≤ x.toNat ∧ x.toNat < 192) :=
  forall_uint8 (by decide +kernel)

theorem and3F : ∀ x : UInt8, x.toNat &&& 0x3F = x.toNat % 64 := by
  intro x; exact Nat.and_two_pow_sub_one_eq_mod _ 6

theorem cpSize_cons (x : UInt8) (r : Bytes) :
    cpSize (x :: r) = if x.toNat < 128 then 1 else if x.toNat < 0xDF then 2
      else if x.toNat < 0xEF then 3 else 4 := by
  simp only [cpSize, and80_eq, UInt8.lt_iff_toNat_lt, decide_eq_true_eq]
  rfl

theorem cpSize_pos (x : UInt8) (r : Bytes) : 0 < cpSize (x :: r) := by
  rw [cpSize_cons]; repeat' split
  all_goals omega

theorem cpSize_append (x : UInt8) (r t : Bytes) : cpSize (x :: r ++ t) = cpSize (x :: r) := by
  simp [cpSize]

theorem decodeTail_cons (acc : Nat) (c : UInt8) (cs : Bytes) :
    decodeTail acc (c :: cs) = decodeTail (acc * 64 + c.toNat % 64) cs := by
  have h : c.toNat &&& 0x3F < 2 ^ 6 := by rw [and3F]; omega
  rw [decodeTail, ← Nat.shiftLeft_add_eq_or_of_lt h, and3F, Nat.shiftLeft_eq]

theorem decodeTail_nil (acc : Nat) : decodeTail acc [] = acc := rfl

theorem char_range (c : Char) : c.toNat < 0x110000 := by
  have := c.valid
  simp only [UInt32.isValidChar, Nat.isValidChar] at this
  show c.val.toNat < _
  omega

/-- The four forms of an encoding, with byte values as naturals. -/
theorem encChar_cases (c : Char) :
    (c.toNat < 0x80 ∧ encChar c = [UInt8.ofNat c.toNat]) ∨
    (0x80 ≤ c.toNat ∧ c.toNat < 0x800 ∧
      encChar c = [UInt8.ofNat (c.toNat / 64 + 0xC0), UInt8.ofNat (c.toNat % 64 + 0x80)]) ∨
    (0x800 ≤ c.toNat ∧ c.toNat < 0x10000 ∧
      encChar c = [UInt8.ofNat (c.toNat / 4096 + 0xE0), UInt8.ofNat (c.toNat / 64 % 64 + 0x80),
        UInt8.ofNat (c.toNat % 64 + 0x80)]) ∨
    (0x10000 ≤ c.toNat ∧ c.toNat < 0x110000 ∧
      encChar c = [UInt8.ofNat (c.toNat / 262144 + 0xF0), UInt8.ofNat (c.toNat / 4096 % 64 + 0x80),
        UInt8.ofNat (c.toNat / 64 % 64 + 0x80), UInt8.ofNat (c.toNat % 64 + 0x80)]) := by
  have hr := char_range c
  have hv : c.val.toNat = c.toNat := rfl
  unfold encChar String.utf8EncodeChar
  simp only [hv]
  by_cases h1 : c.toNat ≤ 0x7f
  · left; refine ⟨by omega, ?_⟩; rw [if_pos h1]
  · right
    rw [if_neg h1]
    by_cases h2 : c.toNat ≤ 0x7ff
    · left; refine ⟨by omega, by omega, ?_⟩
      rw [if_pos h2, Nat.mod_eq_of_lt (by omega : c.toNat / 64 < 0x20)]
    · right
      rw [if_neg h2]
      by_cases h3 : c.toNat ≤ 0xffff
      · left; refine ⟨by omega, by omega, ?_⟩
        rw [if_pos h3, Nat.mod_eq_of_lt (by omega : c.toNat / 4096 < 0x10)]
      · right; refine ⟨by omega, by omega, ?_⟩
        rw [if_neg h3, Nat.mod_eq_of_lt (by omega : c.toNat / 262144 < 0x08)]

theorem toNat_ofNat {n : Nat} (h : n < 256) : (UInt8.ofNat n).toNat = n := by
  simp [Nat.mod_eq_of_lt h]

theorem encChar_ne_nil (c : Char) : encChar c ≠ [] := by
  rcases encChar_cases c with h | h | h | h <;> simp [h]

/-- The measured size of an encoded scalar value, exactly. -/
theorem cpSize_encChar (c : Char) (rest : Bytes) :
    cpSize (encChar c ++ rest) = (encChar c).length + if leadDForEF c then 1 else 0 := by
  unfold leadDForEF
  rcases encChar_cases c with ⟨h, e⟩ | ⟨h, h', e⟩ | ⟨h, h', e⟩ | ⟨h, h', e⟩ <;> rw [e] <;>
    simp only [List.cons_append, cpSize_cons, List.length_cons, List.length_nil, Bool.or_eq_true,
      Bool.and_eq_true, decide_eq_true_eq] <;> rw [toNat_ofNat (by omega)] <;>
    repeat' split
  all_goals omega

theorem decode_cons {x : UInt8} {r : Bytes} {n : Nat} (h : cpSize (x :: r) = n) :
    decode (x :: r) = if n = 1 then some x.toNat else if r.length + 1 < n then none
      else some (decodeTail (x.toNat &&& (0x1F >>> (n - 2))) (r.take (n - 1))) := by
  subst h
  simp [decode]

theorem decode_encChar (c : Char) (rest : Bytes) (h : leadDForEF c = false) :
    decode (encChar c ++ rest) = some c.toNat := by
  have hs := cpSize_encChar c rest
  rw [h, if_neg (by decide), Nat.add_zero] at hs
  rcases encChar_cases c with ⟨h, e⟩ | ⟨h, h', e⟩ | ⟨h, h', e⟩ | ⟨h, h', e⟩ <;> rw [e] at hs ⊢ <;>
    simp only [List.cons_append, List.nil_append] at hs ⊢ <;> rw [decode_cons hs]
  · simp [toNat_ofNat (show c.toNat < 256 by omega)]
  · simp only [List.length_cons, List.length_nil, Nat.reduceAdd, Nat.reduceSub]
    rw [if_neg (by decide), if_neg (by simp), show (31 >>> 0 : Nat) = 2 ^ 5 - 1 from rfl,
      Nat.and_two_pow_sub_one_eq_mod]
    simp only [List.take_succ_cons, List.take_zero, decodeTail_cons, decodeTail_nil]
    repeat rw [toNat_ofNat (by omega)]
    simp; omega
  · simp only [List.length_cons, List.length_nil, Nat.reduceAdd, Nat.reduceSub]
    rw [if_neg (by decide), if_neg (by simp), show (31 >>> 1 : Nat) = 2 ^ 4 - 1 from rfl,
      Nat.and_two_pow_sub_one_eq_mod]
    simp only [List.take_succ_cons, List.take_zero, decodeTail_cons, decodeTail_nil]
    repeat rw [toNat_ofNat (by omega)]
    simp; omega
  · simp only [List.length_cons, List.length_nil, Nat.reduceAdd, Nat.reduceSub]
    rw [if_neg (by decide), if_neg (by simp), show (31 >>> 2 : Nat) = 2 ^ 3 - 1 from rfl,
      Nat.and_two_pow_sub_one_eq_mod]
    simp only [List.take_succ_cons, List.take_zero, decodeTail_cons, decodeTail_nil]
    repeat rw [toNat_ofNat (by omega)]
    simp; omega

end ArgRouter.Utf8
