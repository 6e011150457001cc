import Verif.Util.Number
import Verif.Parse.Mode

/-!
# C85: numbers

What an argument of an integral type makes of its text.
-/

namespace ArgRouter

namespace Spec

/-- `s` is the number `v` in decimal notation; leading zeros are allowed. -/
inductive Digits : Bytes → Nat → Prop
  | one {c : UInt8} (h : 48 ≤ c.toNat ∧ c.toNat ≤ 57) : Digits [c] (c.toNat - 48)
  | more {s : Bytes} {v : Nat} {c : UInt8} (hs : Digits s v) (h : 48 ≤ c.toNat ∧ c.toNat ≤ 57) :
      Digits (s ++ [c]) (10 * v + (c.toNat - 48))

/-- `s` is the integer `v` in decimal notation, possibly with a sign. -/
inductive Number : Bytes → Int → Prop
  | plain {s : Bytes} {v : Nat} (h : Digits s v) : Number s v
  | plus {s : Bytes} {v : Nat} (h : Digits s v) : Number (b "+" ++ s) v
  | minus {s : Bytes} {v : Nat} (h : Digits s v) : Number (b "-" ++ s) (-v)

/-- The values of an integral type. -/
def IntType.Holds (t : IntType) (v : Int) : Prop :=
  if t.signed then -(2 ^ (t.bits - 1)) ≤ v ∧ v < 2 ^ (t.bits - 1) else 0 ≤ v ∧ v < 2 ^ t.bits

end Spec

open Spec

namespace Props

/-- The value of digits written backwards. -/
def backwards : Bytes → Option Nat
  | [] => some 0
  | c :: cs => do
    let d ← digitOf c
    let v ← backwards cs
    return d + 10 * v

theorem lcastLoop_eq (bits : Nat) (hb : 4 ≤ bits) : ∀ (rest : Bytes) (value mult k : Nat) (ovf : Bool),
    value < 2 ^ bits → (ovf = false → mult = 10 ^ k ∧ 10 ^ k < 2 ^ bits) →
    (ovf = true → 2 ^ bits ≤ 10 ^ k) →
    lcastLoop bits rest value mult ovf =
      match backwards rest with
      | none => none
      | some v => if value + 10 ^ (k + 1) * v < 2 ^ bits then some (value + 10 ^ (k + 1) * v) else none
  | [], value, mult, k, ovf, hv, _, _ => by simp [lcastLoop, backwards, hv]
  | c :: cs, value, mult, k, ovf, hv, h1, h2 => by
    have hpos : 0 < 2 ^ bits := Nat.two_pow_pos bits
    rw [lcastLoop, backwards]
    cases hd : digitOf c with
    | none => rfl
    | some d =>
      have hd9 : d ≤ 9 := by
        unfold digitOf at hd; split at hd
        · simp only [Option.some.injEq] at hd; omega
        · cases hd
      simp only [Option.bind_eq_bind, Option.bind_some]
      generalize ho : (ovf || decide ((2 ^ bits - 1) / 10 < mult)) = ovf'
      generalize hm : mult * 10 % 2 ^ bits = mult'
      have hpow : (10 : Nat) ^ (k + 1) = 10 * 10 ^ k := by rw [Nat.pow_succ, Nat.mul_comm]
      have h1' : ovf' = false → mult' = 10 ^ (k + 1) ∧ 10 ^ (k + 1) < 2 ^ bits := by
        intro h
        subst h
        simp only [Bool.or_eq_false_iff, decide_eq_false_iff_not] at ho
        obtain ⟨rfl, h⟩ := ho
        obtain ⟨rfl, hk⟩ := h1 rfl
        have : 10 ^ (k + 1) < 2 ^ bits := by rw [hpow]; omega
        refine ⟨?_, this⟩
        rw [← hm, Nat.mul_comm, ← hpow, Nat.mod_eq_of_lt this]
      have h2' : ovf' = true → 2 ^ bits ≤ 10 ^ (k + 1) := by
        intro h
        subst h
        simp only [Bool.or_eq_true, decide_eq_true_eq] at ho
        rw [hpow]
        cases ovf with
        | true => have := h2 rfl; omega
        | false =>
          obtain ⟨rfl, hk⟩ := h1 rfl
          rcases ho with ho | ho
          · cases ho
          · omega
      clear ho hm h1 h2
      have key : ∀ w : Nat, value + 10 ^ (k + 1) * (d + 10 * w) =
          (value + 10 ^ (k + 1) * d) + 10 ^ (k + 1 + 1) * w := by
        intro w
        rw [Nat.pow_succ (n := 10) (m := k + 1), Nat.mul_add, Nat.mul_assoc, Nat.add_assoc]
      by_cases hd0 : d = 0
      · subst hd0
        simp only [ne_eq, not_true_eq_false, decide_false, Bool.false_and, Bool.false_eq_true, if_false,
          Nat.mul_zero, Nat.zero_mod, Nat.add_zero]
        rw [lcastLoop_eq bits hb cs value mult' (k + 1) ovf' hv h1' h2']
        cases backwards cs with
        | none => rfl
        | some w =>
          simp only [Option.bind_some]
          have := key w
          simp only [Nat.mul_zero, Nat.add_zero] at this
          show _ = if value + 10 ^ (k + 1) * (0 + 10 * w) < 2 ^ bits then _ else _
          rw [this]
      · cases ovf' with
        | true =>
          have hbig := h2' rfl
          simp only [ne_eq, hd0, not_false_eq_true, decide_true, Bool.true_or, Bool.and_self, if_true]
          cases backwards cs with
          | none => rfl
          | some w =>
            show none = if value + 10 ^ (k + 1) * (d + 10 * w) < 2 ^ bits then _ else _
            rw [if_neg]
            have : 10 ^ (k + 1) * 1 ≤ 10 ^ (k + 1) * (d + 10 * w) :=
              Nat.mul_le_mul_left _ (by omega)
            omega
        | false =>
          obtain ⟨rfl, hk⟩ := h1' rfl
          by_cases hfit : value + 10 ^ (k + 1) * d < 2 ^ bits
          · have hs : 10 ^ (k + 1) * d % 2 ^ bits = 10 ^ (k + 1) * d := Nat.mod_eq_of_lt (by omega)
            have hdiv : ¬ (2 ^ bits - 1) / d < 10 ^ (k + 1) := by
              rw [Nat.not_lt, Nat.le_div_iff_mul_le (by omega)]
              omega
            rw [if_neg (by
              simp only [ne_eq, hd0, not_false_eq_true, decide_true, Bool.false_or, Bool.true_and,
                Bool.or_eq_true, decide_eq_true_eq, hs, hdiv, false_or]
              omega), hs, lcastLoop_eq bits hb cs _ _ (k + 1) false hfit h1' h2']
            cases backwards cs with
            | none => rfl
            | some w =>
              simp only [Option.bind_some]
              show _ = if value + 10 ^ (k + 1) * (d + 10 * w) < 2 ^ bits then _ else _
              rw [key w]
          · rw [if_pos]
            · cases backwards cs with
              | none => rfl
              | some w =>
                show none = if value + 10 ^ (k + 1) * (d + 10 * w) < 2 ^ bits then _ else _
                rw [if_neg]
                rw [key w]
                omega
            · simp only [ne_eq, hd0, not_false_eq_true, decide_true, Bool.false_or, Bool.true_and,
                Bool.or_eq_true, decide_eq_true_eq]
              by_cases hdiv : (2 ^ bits - 1) / d < 10 ^ (k + 1)
              · exact .inl hdiv
              · right
                rw [Nat.not_lt, Nat.le_div_iff_mul_le (by omega)] at hdiv
                rw [Nat.mod_eq_of_lt (by omega)]
                omega

theorem backwards_decimal : ∀ {s : Bytes} {v : Nat}, s ≠ [] → (backwards s = some v ↔ Digits s.reverse v)
  | [], _, h => absurd rfl h
  | [c], v, _ => by
    simp only [backwards, List.reverse_cons, List.reverse_nil, List.nil_append, Option.bind_eq_bind,
      Option.bind_some, Nat.mul_zero, Nat.add_zero]
    constructor
    · intro h
      unfold digitOf at h
      split at h
      · rename_i hc
        simp only [Option.bind_some, Option.pure_def, Option.some.injEq] at h
        subst h
        exact .one hc
      · simp at h
    · intro h
      generalize hs : [c] = s at h
      cases h with
      | one hc =>
        cases hs
        simp [digitOf, hc]
      | @more s v c' h1 h2 =>
        have : s = [] := by
          cases s with
          | nil => rfl
          | cons x xs => simp at hs
        subst this
        generalize he : ([] : Bytes) = e at h1
        cases h1 <;> simp at he
  | c :: x :: xs, v, _ => by
    have ih := fun w => backwards_decimal (s := x :: xs) (v := w) (by simp)
    rw [backwards, List.reverse_cons]
    constructor
    · intro h
      simp only [Option.bind_eq_bind, Option.bind_eq_some_iff, Option.pure_def, Option.some.injEq] at h
      obtain ⟨d, hd, w, hw, rfl⟩ := h
      unfold digitOf at hd
      split at hd
      · rename_i hc
        simp only [Option.some.injEq] at hd
        subst hd
        have := Digits.more ((ih w).1 hw) hc
        rwa [Nat.add_comm] at this
      · cases hd
    · intro h
      generalize hs : (x :: xs).reverse ++ [c] = s at h
      cases h with
      | one hc =>
        have := congrArg List.length hs
        simp at this
      | @more s v c' h1 h2 =>
        obtain ⟨rfl, h⟩ := List.append_inj' hs rfl
        simp only [List.cons.injEq, and_true] at h
        subst h
        have hw := (ih v).2 h1
        simp [hw, digitOf, h2, Nat.add_comm]

/-- The digits are read as the number they are, if the type can hold it. -/
theorem lcastUnsigned_iff (bits : Nat) (hb : 4 ≤ bits) (s : Bytes) (v : Nat) :
    lcastUnsigned bits s = some v ↔ Digits s v ∧ v < 2 ^ bits := by
  unfold lcastUnsigned
  cases hr : s.reverse with
  | nil =>
    have : s = [] := by simpa using hr
    subst this
    simp only [reduceCtorEq, false_iff, not_and]
    intro h
    generalize he : ([] : Bytes) = e at h
    cases h <;> simp at he
  | cons c cs =>
    have hs : s = (c :: cs).reverse := by rw [← hr, List.reverse_reverse]
    rw [hs, ← backwards_decimal (by simp), backwards]
    cases hd : digitOf c with
    | none => simp [hd]
    | some d =>
      have hd9 : d ≤ 9 := by
        unfold digitOf at hd; split at hd
        · simp only [Option.some.injEq] at hd; omega
        · cases hd
      have h16 : 2 ^ 4 ≤ 2 ^ bits := Nat.pow_le_pow_right (by omega) hb
      simp only [hd]
      rw [lcastLoop_eq bits hb cs d 1 0 false (by omega) (fun _ => ⟨rfl, by omega⟩) (fun h => nomatch h)]
      cases backwards cs with
      | none => simp
      | some w =>
        simp only [Nat.zero_add, Nat.pow_one, Option.bind_eq_bind, Option.bind_some, Option.pure_def,
          Option.some.injEq]
        constructor
        · intro h
          split at h
          · simp only [Option.some.injEq] at h; subst h; exact ⟨rfl, by assumption⟩
          · cases h
        · rintro ⟨rfl, h⟩
          rw [if_pos h]

theorem decimal_cons {s : Bytes} {v : Nat} (h : Digits s v) :
    ∃ c cs, s = c :: cs ∧ 48 ≤ c.toNat ∧ c.toNat ≤ 57 := by
  induction h with
  | @one c h => exact ⟨c, [], rfl, h⟩
  | @more s v c _ _ ih =>
    obtain ⟨x, xs, rfl, hx⟩ := ih
    exact ⟨x, xs ++ [c], rfl, hx⟩

theorem splitSign_cases (s : Bytes) :
    (∃ r, s = b "-" ++ r ∧ splitSign s = (true, r)) ∨ (∃ r, s = b "+" ++ r ∧ splitSign s = (false, r)) ∨
      ((∀ r, s ≠ b "-" ++ r) ∧ (∀ r, s ≠ b "+" ++ r) ∧ splitSign s = (false, s)) := by
  have hm : b "-" = [45] := by decide +kernel
  have hp : b "+" = [43] := by decide +kernel
  rw [hm, hp]
  unfold splitSign
  split
  · exact .inl ⟨_, rfl, rfl⟩
  · exact .inr (.inl ⟨_, rfl, rfl⟩)
  · rename_i h1 h2
    exact .inr (.inr ⟨fun r hr => h1 r hr, fun r hr => h2 r hr, rfl⟩)

theorem minus_ne_decimal {r s : Bytes} {v : Nat} (hs : Digits s v) : s ≠ b "-" ++ r := by
  obtain ⟨c, cs, rfl, hc⟩ := decimal_cons hs
  have hm : b "-" = [45] := by decide +kernel
  rw [hm]
  rintro h
  cases h
  revert hc; decide

theorem plus_ne_decimal {r s : Bytes} {v : Nat} (hs : Digits s v) : s ≠ b "+" ++ r := by
  obtain ⟨c, cs, rfl, hc⟩ := decimal_cons hs
  have hm : b "+" = [43] := by decide +kernel
  rw [hm]
  rintro h
  cases h
  revert hc; decide

theorem sign_ne {r r' : Bytes} : b "-" ++ r ≠ b "+" ++ r' := by
  have hm : b "-" = [45] := by decide +kernel
  have hp : b "+" = [43] := by decide +kernel
  rw [hm, hp]
  intro h; cases h

/-- A text is a number with a minus sign, or without. -/
theorem signed_iff (s : Bytes) (v : Int) : Number s v ↔
    ((splitSign s).1 = true ∧ ∃ n : Nat, Digits (splitSign s).2 n ∧ v = -n) ∨
    ((splitSign s).1 = false ∧ ∃ n : Nat, Digits (splitSign s).2 n ∧ v = n) := by
  rcases splitSign_cases s with ⟨r, hs, h⟩ | ⟨r, hs, h⟩ | ⟨h1, h2, h⟩ <;> rw [h]
  · constructor
    · intro h
      cases h with
      | plain h => exact absurd hs (minus_ne_decimal h)
      | plus h => exact absurd hs.symm sign_ne
      | minus hd =>
        cases List.append_cancel_left hs
        exact .inl ⟨rfl, _, hd, rfl⟩
    · rintro (⟨_, n, hn, rfl⟩ | ⟨h, _⟩)
      · rw [hs]; exact .minus hn
      · cases h
  · constructor
    · intro h
      cases h with
      | plain h => exact absurd hs (plus_ne_decimal h)
      | plus hd =>
        cases List.append_cancel_left hs
        exact .inr ⟨rfl, _, hd, rfl⟩
      | minus h => exact absurd hs sign_ne
    · rintro (⟨h, _⟩ | ⟨_, n, hn, rfl⟩)
      · cases h
      · rw [hs]; exact .plus hn
  · constructor
    · intro h
      cases h with
      | plain h => exact .inr ⟨rfl, _, h, rfl⟩
      | plus h => exact absurd rfl (h2 _)
      | minus h => exact absurd rfl (h1 _)
    · rintro (⟨h, _⟩ | ⟨_, n, hn, rfl⟩)
      · cases h
      · exact .plain hn

theorem lexSigned_iff (bits : Nat) (hb : 4 ≤ bits) (s : Bytes) (v : Int) :
    lexSigned bits s = some v ↔ Number s v ∧ IntType.Holds ⟨bits, true⟩ v := by
  have hpow : 2 ^ bits = 2 * 2 ^ (bits - 1) := by
    rw [← Nat.pow_succ', Nat.succ_eq_add_one, Nat.sub_add_cancel (by omega)]
  have hcast : ((2 : Int) ^ (bits - 1)) = ((2 ^ (bits - 1) : Nat) : Int) := by norm_cast
  have hpos : 0 < 2 ^ (bits - 1) := Nat.two_pow_pos _
  unfold lexSigned IntType.Holds
  simp only [if_true]
  rw [signed_iff, hcast]
  generalize hp : 2 ^ (bits - 1) = p at *
  generalize splitSign s = x
  obtain ⟨m, ds⟩ := x
  have hu := lcastUnsigned_iff bits hb ds
  simp only
  cases hl : lcastUnsigned bits ds with
  | none =>
    simp only [reduceCtorEq, false_iff, not_and]
    rintro (⟨_, n, hn, rfl⟩ | ⟨_, n, hn, rfl⟩) h
    · have := (hu n).2 ⟨hn, by omega⟩
      rw [hl] at this; cases this
    · intro h'
      have := (hu n).2 ⟨hn, by omega⟩
      rw [hl] at this; cases this
  | some w =>
    obtain ⟨hw, hwb⟩ := (hu w).1 hl
    have huniq : ∀ n, Digits ds n → n < 2 ^ bits → n = w := by
      intro n hn hb
      have := (hu n).2 ⟨hn, hb⟩
      rw [hl] at this; cases this; rfl
    cases m with
    | true =>
      simp only [if_true, true_and, Bool.true_eq_false, false_and, or_false]
      constructor
      · intro h
        split at h
        · simp only [Option.some.injEq] at h
          exact ⟨⟨w, hw, h.symm⟩, by omega, by omega⟩
        · cases h
      · rintro ⟨⟨n, hn, rfl⟩, h1, h2⟩
        cases huniq n hn (by omega)
        rw [if_pos (by omega)]
    | false =>
      simp only [Bool.false_eq_true, if_false, true_and, false_and, false_or]
      constructor
      · intro h
        split at h
        · simp only [Option.some.injEq] at h
          exact ⟨⟨w, hw, h.symm⟩, by omega, by omega⟩
        · cases h
      · rintro ⟨⟨n, hn, rfl⟩, h1, h2⟩
        cases huniq n hn (by omega)
        rw [if_pos (by omega)]

/-! ## C85 -/

/-- C85 for the signed types (of more than eight bits): the text is accepted exactly when it is a
number in decimal notation that the type can hold, and the value is that number. Every other text is
reported as the text that could not be parsed. -/
theorem C85_signed_partial (bits : Nat) (hb : 8 < bits) (s : Bytes) :
    (∀ v, parseInt ⟨bits, true⟩ s = .ok v ↔ Number s v ∧ IntType.Holds ⟨bits, true⟩ v) ∧
    ((∀ v, ¬ (Number s v ∧ IntType.Holds ⟨bits, true⟩ v)) →
      parseInt ⟨bits, true⟩ s = .throw ⟨.failed_to_parse, [⟨.none, s⟩]⟩) := by
  have h := lexSigned_iff bits (by omega) s
  unfold parseInt lexInt
  rw [if_neg (by simp only; omega)]
  simp only [if_true]
  cases hl : lexSigned bits s with
  | none =>
    rw [hl] at h
    refine ⟨fun v => ⟨fun hv => (nomatch hv), fun hv => nomatch ((h v).2 hv)⟩, fun _ => rfl⟩
  | some w =>
    rw [hl] at h
    refine ⟨fun v => ?_, fun hv => absurd ((h w).1 rfl) (hv w)⟩
    rw [← h v]
    simp

/-- C85 for the unsigned types (of more than eight bits): the same for text that does not begin with
a minus sign. -/
theorem C85_unsigned_partial (bits : Nat) (hb : 8 < bits) (s : Bytes) (hminus : ∀ r, s ≠ b "-" ++ r) :
    (∀ v, parseInt ⟨bits, false⟩ s = .ok v ↔ Number s v ∧ IntType.Holds ⟨bits, false⟩ v) ∧
    ((∀ v, ¬ (Number s v ∧ IntType.Holds ⟨bits, false⟩ v)) →
      parseInt ⟨bits, false⟩ s = .throw ⟨.failed_to_parse, [⟨.none, s⟩]⟩) := by
  have hcast : ((2 : Int) ^ bits) = ((2 ^ bits : Nat) : Int) := by norm_cast
  have h : ∀ v, lexUnsigned bits s = some v ↔ Number s v ∧ IntType.Holds ⟨bits, false⟩ v := by
    intro v
    have hno : (splitSign s).1 = false := by
      rcases splitSign_cases s with ⟨r, hs, h⟩ | ⟨r, hs, h⟩ | ⟨h1, h2, h⟩
      · exact absurd hs (hminus r)
      · rw [h]
      · rw [h]
    unfold lexUnsigned IntType.Holds
    simp only [Bool.false_eq_true, if_false]
    rw [signed_iff, hcast]
    generalize splitSign s = x at *
    obtain ⟨m, ds⟩ := x
    simp only at hno
    subst hno
    have hu := lcastUnsigned_iff bits (by omega) ds
    simp only [Bool.false_eq_true, if_false, true_and, false_and, false_or, Option.map_eq_some_iff]
    constructor
    · rintro ⟨n, hn, rfl⟩
      obtain ⟨h1, h2⟩ := (hu n).1 hn
      exact ⟨⟨n, h1, rfl⟩, by omega, by omega⟩
    · rintro ⟨⟨n, hn, rfl⟩, _, h2⟩
      exact ⟨n, (hu n).2 ⟨hn, by omega⟩, rfl⟩
  unfold parseInt lexInt
  rw [if_neg (by simp only; omega)]
  simp only [Bool.false_eq_true, if_false]
  cases hl : lexUnsigned bits s with
  | none =>
    rw [hl] at h
    refine ⟨fun v => ⟨fun hv => (nomatch hv), fun hv => nomatch ((h v).2 hv)⟩, fun _ => rfl⟩
  | some w =>
    rw [hl] at h
    refine ⟨fun v => ?_, fun hv => absurd ((h w).1 rfl) (hv w)⟩
    rw [← h v]
    simp

/-- C85 is false. An unsigned type accepts negative numbers and turns them around: `-1` becomes the
largest value. An argument of type `uint8_t` or `int8_t` takes a character, not a number: `5` is 53, and
`12` is refused. -/
theorem C85_false : parseInt ⟨32, false⟩ (b "-1") = .ok 4294967295 ∧
    parseInt ⟨8, false⟩ (b "5") = .ok 53 ∧ parseInt ⟨8, true⟩ (b "5") = .ok 53 ∧
    parseInt ⟨8, false⟩ (b "12") = .throw ⟨.failed_to_parse, [⟨.none, b "12"⟩]⟩ := by decide +kernel

/-- What an unsigned type makes of a number with a minus sign: it is refused only if it is not above
`-2^bits`, and otherwise becomes the value of the type that is equal to it modulo `2^bits`. -/
theorem C85_wraps (bits : Nat) (hb : 8 < bits) (r : Bytes) :
    (∀ v, parseInt ⟨bits, false⟩ (b "-" ++ r) = .ok v ↔ ∃ w, Number (b "-" ++ r) w ∧
      -((2 : Int) ^ bits) < w ∧ IntType.Holds ⟨bits, false⟩ v ∧ (2 : Int) ^ bits ∣ v - w) ∧
    ((∀ w, Number (b "-" ++ r) w → w ≤ -((2 : Int) ^ bits)) →
      parseInt ⟨bits, false⟩ (b "-" ++ r) = .throw ⟨.failed_to_parse, [⟨.none, b "-" ++ r⟩]⟩) := by
  have hcast : ((2 : Int) ^ bits) = ((2 ^ bits : Nat) : Int) := by norm_cast
  have hpos : 0 < 2 ^ bits := Nat.two_pow_pos _
  have hsp : splitSign (b "-" ++ r) = (true, r) := rfl
  have hnum : ∀ w, Number (b "-" ++ r) w ↔ ∃ n, Digits r n ∧ w = -(n : Int) := by
    intro w
    rw [signed_iff, hsp]
    simp
  have hu := lcastUnsigned_iff bits (by omega) r
  unfold parseInt lexInt lexUnsigned
  rw [if_neg (by simp only; omega)]
  simp only [Bool.false_eq_true, if_false, hsp, if_true, hnum]
  unfold IntType.Holds
  simp only [Bool.false_eq_true, if_false]
  rw [hcast]
  generalize hm : 2 ^ bits = m at *
  cases hl : lcastUnsigned bits r with
  | none =>
    refine ⟨fun v => ⟨fun hv => (nomatch hv), ?_⟩, fun _ => rfl⟩
    rintro ⟨w, ⟨n, hn, rfl⟩, h, -⟩
    rw [(hu n).2 ⟨hn, by omega⟩] at hl
    cases hl
  | some n =>
    obtain ⟨hn, hlt⟩ := (hu n).1 hl
    refine ⟨fun v => ?_, fun h => absurd (h _ ⟨n, hn, rfl⟩) (by omega)⟩
    simp only [Option.map_some, Out.ok.injEq]
    have hmod : (((m - n) % m : Nat) : Int) = (-(n : Int)) % m := by
      rw [Int.natCast_emod, Int.ofNat_sub (by omega), Int.sub_eq_add_neg, Int.add_emod,
        Int.emod_self, Int.zero_add, Int.emod_emod]
    constructor
    · rintro rfl
      refine ⟨_, ⟨n, hn, rfl⟩, by omega, ⟨by omega, ?_⟩, ?_⟩
      · exact_mod_cast Nat.mod_lt _ hpos
      · rw [hmod]
        rw [← Int.dvd_neg, Int.neg_sub]
        exact Int.dvd_self_sub_emod
    · rintro ⟨w, ⟨n', hn', rfl⟩, h1, ⟨h2, h3⟩, h4⟩
      have hnn : n' = n := by
        have := (hu n').2 ⟨hn', by omega⟩
        rw [hl] at this
        cases this
        rfl
      subst hnn
      have h5 : -(n' : Int) % m = v % m := Int.emod_eq_emod_iff_emod_sub_eq_zero.2
        (Int.emod_eq_zero_of_dvd (by rw [← Int.dvd_neg, Int.neg_sub]; exact h4))
      rw [hmod, h5, Int.emod_eq_of_lt h2 h3]

/-- A number with a minus sign for an unsigned type. -/
example : Number (b "-" ++ b "1") (-1) ∧ parseInt ⟨32, false⟩ (b "-" ++ b "1") = .ok 4294967295 := by
  have h : Number (b "-" ++ b "1") (-1) := by
    rw [signed_iff]
    exact .inl ⟨rfl, 1, ((lcastUnsigned_iff 32 (by decide) (b "1") 1).1 (by decide +kernel)).1, rfl⟩
  exact ⟨h, ((C85_wraps 32 (by decide) (b "1")).1 _).2 ⟨-1, h, by decide,
    ⟨by decide, by decide⟩, by decide⟩⟩

/-- What holds of the types of one byte: the text must be one byte, and the value is the one of the type
that the byte is the representation of. -/
theorem C85_byte_partial (signed : Bool) (s : Bytes) :
    (∀ v, parseInt ⟨8, signed⟩ s = .ok v ↔
      ∃ c : UInt8, s = [c] ∧ IntType.Holds ⟨8, signed⟩ v ∧ v % 256 = c.toNat) ∧
    ((∀ c, s ≠ [c]) → parseInt ⟨8, signed⟩ s = .throw ⟨.failed_to_parse, [⟨.none, s⟩]⟩) := by
  unfold parseInt lexInt IntType.Holds
  simp only [if_true]
  match s with
  | [] => simp [lexChar]
  | _ :: _ :: _ => simp [lexChar]
  | [c] =>
    have hc : c.toNat < 256 := c.toNat_lt
    refine ⟨fun v => ?_, fun h => absurd rfl (h c)⟩
    simp only [lexChar, Out.ok.injEq, List.cons.injEq, and_true]
    constructor
    · rintro rfl
      refine ⟨c, rfl, ?_⟩
      cases signed <;> simp <;> (try split) <;> omega
    · rintro ⟨d, rfl, h1, h2⟩
      cases signed <;> simp at h1 ⊢ <;> (try split) <;> omega

example : parseInt ⟨8, true⟩ [0xE9] = .ok (-23) ∧ parseInt ⟨8, false⟩ [0xE9] = .ok 233 := by
  decide +kernel

example : parseInt ⟨32, true⟩ (b "-2147483648") = .ok (-2147483648) ∧
    parseInt ⟨32, true⟩ (b "2147483648") = .throw ⟨.failed_to_parse, [⟨.none, b "2147483648"⟩]⟩ ∧
    parseInt ⟨64, false⟩ (b "+18446744073709551615") = .ok 18446744073709551615 ∧
    parseInt ⟨64, false⟩ (b "18446744073709551616") =
      .throw ⟨.failed_to_parse, [⟨.none, b "18446744073709551616"⟩]⟩ ∧
    parseInt ⟨16, true⟩ (b "0000000000000000000000012") = .ok 12 ∧
    parseInt ⟨32, true⟩ (b "1 ") = .throw ⟨.failed_to_parse, [⟨.none, b "1 "⟩]⟩ ∧
    parseInt ⟨32, true⟩ [] = .throw ⟨.failed_to_parse, [⟨.none, []⟩]⟩ := by decide +kernel

/-- The parsers of the library neither crash nor hang, whatever the text. -/
theorem C85_behaves (t : IntType) (s : Bytes) :
    (∃ v, parseInt t s = .ok v) ∨ parseInt t s = .throw ⟨.failed_to_parse, [⟨.none, s⟩]⟩ := by
  unfold parseInt
  cases lexInt t s with
  | none => exact .inr rfl
  | some v => exact .inl ⟨v, rfl⟩

theorem parseToken_plain {n : Node} (h : ∀ f, .customParser f ∉ n.policies) (s : Bytes) :
    parseToken n s = n.vt.parse s := by
  unfold parseToken
  split
  · rename_i f hf
    obtain ⟨p, hp, hq⟩ := List.exists_of_findSome?_eq_some hf
    cases p <;> simp at hq
    exact absurd hp (h _)
  · rfl

/-- What the value of an argument is that has no parser of its own: for an integral type, `bool` or
text, that of its token, or the zero of the type if there is no token; for a container, the values of all
tokens in their order. -/
theorem C85_values {n : Node} (h : ∀ f, .customParser f ∉ n.policies) :
    (∀ t, n.vt = intType t → parseValue n [] = .ok (.one (.int 0)) ∧
      ∀ k v, parseValue n [k] = .ok v ↔ ∃ x, parseInt t k.name = .ok x ∧ v = .one (.int x)) ∧
    (n.vt = boolValue → parseValue n [] = .ok (.one (.bool false)) ∧
      ∀ k v, parseValue n [k] = .ok v ↔ ∃ x, parseBool k.name = .ok x ∧ v = .one (.bool x)) ∧
    (n.vt = textType → parseValue n [] = .ok (.one (.str [])) ∧
      ∀ k v, parseValue n [k] = .ok v ↔ ∃ x, parseText k.name = .ok x ∧ v = .one (.str x)) ∧
    (∀ t, n.vt = listOf t → parseValue n [] = .ok (.many []) ∧
      ∀ k ks v, parseValue n (k :: ks) = .ok v ↔
        ∃ x xs, t.parse k.name = .ok x ∧ parseValue n ks = .ok (.many xs) ∧ v = .many (x :: xs)) := by
  refine ⟨fun t ht => ⟨?_, fun k v => ?_⟩, fun ht => ⟨?_, fun k v => ?_⟩, fun ht => ⟨?_, fun k v => ?_⟩,
    fun t ht => ⟨?_, fun k ks v => ?_⟩⟩
  · simp [parseValue, ht, intType]
  · simp only [parseValue, ht, intType, parseToken_plain h]
    cases parseInt t k.name <;> simp [eq_comm]
  · simp [parseValue, ht, boolValue]
  · simp only [parseValue, ht, boolValue, parseToken_plain h]
    cases parseBool k.name <;> simp [eq_comm]
  · simp [parseValue, ht, textType]
  · simp only [parseValue, ht, textType, parseToken_plain h]
    cases parseText k.name <;> simp [eq_comm]
  · simp [parseValue, ht, listOf, parseTokens]
  · simp only [parseValue, ht, listOf, parseTokens, parseToken_plain h]
    cases t.parse k.name <;> cases parseTokens n ks <;> simp [eq_comm]

/-- A list of three numbers. -/
example : parseValue (.mk .multiArg 1 1 (listOf (intType ⟨32, true⟩)) [] []) [⟨.none, b "1"⟩, ⟨.none, b "-20"⟩,
    ⟨.none, b "3"⟩] = .ok (.many [.int 1, .int (-20), .int 3]) := by decide +kernel

end Props
end ArgRouter
