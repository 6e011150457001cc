import Verif.Util.Decimal

/-!
# C49, C50: integers as text

Help labels contain value ranges and counts such as `<1-42>` or `[2,5]`, built from integers at
compile time.
-/

namespace ArgRouter.Spec

/-- The number a list of decimal digits denotes. -/
def digitsValue (ds : List Nat) : Nat := ds.foldl (fun acc d => acc * 10 + d) 0

/-- `ds` is the decimal notation of `n`: digits that denote `n`, without leading zeros. -/
def IsDecimal (ds : List Nat) (n : Nat) : Prop :=
  ds ≠ [] ∧ (∀ d ∈ ds, d < 10) ∧ digitsValue ds = n ∧ (ds.head? = some 0 → ds.length = 1)

/-- The text of a list of digits: `'0' + d` for each. -/
def digitChars (ds : List Nat) : Bytes := ds.map fun d => UInt8.ofNat (48 + d)

/-- Decimal text of an integer from the digits of its absolute value. -/
def signed (v : Int) (ds : List Nat) : Bytes := (if v < 0 then b "-" else []) ++ digitChars ds

end ArgRouter.Spec

namespace ArgRouter.Props
open ArgRouter Spec

theorem numDigitsLoop_spec (fuel value i : Nat) (hf : value ≤ fuel) (h0 : value ≠ 0) :
    ∃ k, numDigitsLoop fuel value i = i + k ∧ 10 ^ k ≤ value ∧ value < 10 ^ (k + 1) := by
  induction fuel generalizing value i with
  | zero => omega
  | succ fuel ih =>
    rw [numDigitsLoop]
    by_cases hz : value / 10 = 0
    · rw [if_pos hz]; exact ⟨0, rfl, by simp; omega, by simp; omega⟩
    · rw [if_neg hz]
      obtain ⟨k, h1, h2, h3⟩ := ih (value / 10) (i + 1) (by omega) hz
      refine ⟨k + 1, by omega, ?_, ?_⟩
      · rw [Nat.pow_succ]; omega
      · rw [Nat.pow_succ]; omega

theorem numDigits_zero : numDigits 0 = 1 := rfl

/-- C50. The digit count of an integer is the length of its decimal notation without sign: `d`
digits exactly when the absolute value lies in `[10^(d-1), 10^d)`, and one digit for zero. -/
theorem C50_digit_count (v : Int) (d : Nat) :
    numDigits v = d ↔ (v = 0 ∧ d = 1) ∨ (1 ≤ d ∧ 10 ^ (d - 1) ≤ v.natAbs ∧ v.natAbs < 10 ^ d) := by
  by_cases h0 : v = 0
  · subst h0
    rw [numDigits_zero]
    constructor
    · intro h; exact .inl ⟨rfl, h.symm⟩
    · rintro (⟨-, h⟩ | ⟨h, h2, -⟩)
      · exact h.symm
      · exfalso
        have : 0 < 10 ^ (d - 1) := Nat.pow_pos (by decide)
        simp at h2
  · obtain ⟨k, h1, h2, h3⟩ := numDigitsLoop_spec v.natAbs v.natAbs 1 (Nat.le_refl _) (by omega)
    have hn : numDigits v = 1 + k := h1
    constructor
    · intro h
      refine .inr ⟨by omega, ?_, ?_⟩
      · rwa [show d - 1 = k by omega]
      · rwa [show d = k + 1 by omega]
    · rintro (⟨h, -⟩ | ⟨h, h4, h5⟩)
      · exact absurd h h0
      · rw [hn]
        have a1 : k < d := (Nat.pow_lt_pow_iff_right (by decide : 1 < 10)).1 (Nat.lt_of_le_of_lt h2 h5)
        have a2 : d - 1 < k + 1 :=
          (Nat.pow_lt_pow_iff_right (by decide : 1 < 10)).1 (Nat.lt_of_le_of_lt h4 h3)
        omega

example : numDigits (-34534) = 5 := by decide +kernel

theorem foldl_value (ds : List Nat) (a : Nat) :
    ds.foldl (fun acc d => acc * 10 + d) a = a * 10 ^ ds.length + digitsValue ds := by
  induction ds generalizing a with
  | nil => simp [digitsValue]
  | cons d ds ih =>
    simp only [digitsValue, List.foldl_cons, List.length_cons]
    rw [ih, ih (0 * 10 + d), Nat.pow_succ, Nat.zero_mul, Nat.zero_add, Nat.add_mul, Nat.mul_assoc,
      Nat.mul_comm 10, Nat.add_assoc]

theorem digitsValue_cons (d : Nat) (ds : List Nat) :
    digitsValue (d :: ds) = d * 10 ^ ds.length + digitsValue ds := by
  rw [digitsValue, List.foldl_cons, foldl_value]; simp

theorem digitsValue_lt (ds : List Nat) (h : ∀ d ∈ ds, d < 10) : digitsValue ds < 10 ^ ds.length := by
  induction ds with
  | nil => simp [digitsValue]
  | cons d ds ih =>
    rw [digitsValue_cons, List.length_cons, Nat.pow_succ]
    have h1 := ih fun x hx => h x (List.mem_cons_of_mem _ hx)
    have h2 := h d List.mem_cons_self
    have h3 : d * 10 ^ ds.length ≤ 9 * 10 ^ ds.length := Nat.mul_le_mul_right _ (by omega)
    omega

/-- The number of digits of decimal notation. -/
theorem numDigits_decimal {ds : List Nat} {n : Nat} (h : IsDecimal ds n) :
    numDigits n = ds.length := by
  obtain ⟨h1, h2, h3, h4⟩ := h
  rw [C50_digit_count]
  cases ds with
  | nil => exact absurd rfl h1
  | cons d ds =>
    by_cases hd : d = 0
    · subst hd
      have hl := h4 rfl
      have : ds = [] := by cases ds with
        | nil => rfl
        | cons _ _ => simp at hl
      subst this
      simp [digitsValue] at h3
      exact .inl ⟨by omega, rfl⟩
    · refine .inr ⟨by simp, ?_, ?_⟩
      · simp only [Int.natAbs_natCast, List.length_cons, Nat.add_sub_cancel]
        rw [← h3, digitsValue_cons]
        have : 1 * 10 ^ ds.length ≤ d * 10 ^ ds.length := Nat.mul_le_mul_right _ (by omega)
        omega
      · simp only [Int.natAbs_natCast]
        rw [← h3]
        exact digitsValue_lt _ h2

theorem ctPow_eq (a e : Nat) : ctPow a e = a ^ e := by
  induction e with
  | zero => rfl
  | succ e ih => rw [ctPow, ih, Nat.pow_succ, Nat.mul_comm]

/-- Drops leading zeros, keeping the last digit. -/
def stripZeros : List Nat → List Nat
  | [] => []
  | [d] => [d]
  | d :: e :: ds => if d = 0 then stripZeros (e :: ds) else d :: e :: ds

theorem stripZeros_decimal (ds : List Nat) (h1 : ds ≠ []) (h2 : ∀ d ∈ ds, d < 10) :
    IsDecimal (stripZeros ds) (digitsValue ds) := by
  induction ds with
  | nil => exact absurd rfl h1
  | cons d ds ih =>
    cases ds with
    | nil => exact ⟨by simp [stripZeros], by simpa [stripZeros] using h2, rfl, by simp [stripZeros]⟩
    | cons e ds =>
      rw [stripZeros]
      split
      · rename_i hd
        subst hd
        have := ih (by simp) fun x hx => h2 x (List.mem_cons_of_mem _ hx)
        rw [digitsValue_cons]
        simpa using this
      · rename_i hd
        exact ⟨by simp, h2, rfl, by intro h; simp at h; exact absurd h hd⟩

theorem stripZeros_length (ds : List Nat) : (stripZeros ds).length ≤ ds.length := by
  induction ds with
  | nil => simp [stripZeros]
  | cons d ds ih =>
    cases ds with
    | nil => simp [stripZeros]
    | cons e ds =>
      rw [stripZeros]
      split
      · simp only [List.length_cons] at ih ⊢; omega
      · simp

/-- The digits without those zeros that are followed by another digit. -/
def keptDigits : List Nat → List Nat
  | [] => []
  | [d] => [d]
  | d :: e :: ds => if d = 0 then keptDigits (e :: ds) else d :: keptDigits (e :: ds)

theorem keptDigits_strip (ds : List Nat) : keptDigits (stripZeros ds) = keptDigits ds := by
  induction ds with
  | nil => rfl
  | cons d ds ih =>
    cases ds with
    | nil => rfl
    | cons e ds =>
      rw [stripZeros]
      split
      · rename_i hd
        rw [ih, keptDigits, if_pos hd]
      · rfl

theorem ctsBuild_eq (fuel : Nat) (str : Bytes) (ds : List Nat) (n : Nat) (h : IsDecimal ds n)
    (hf : ds.length ≤ fuel) : ctsBuild fuel str n = str ++ digitChars (keptDigits ds) := by
  induction fuel generalizing str ds n with
  | zero =>
    have := h.1
    cases ds <;> simp_all
  | succ fuel ih =>
    obtain ⟨h1, h2, h3, h4⟩ := h
    rw [ctsBuild]
    rw [numDigits_decimal ⟨h1, h2, h3, h4⟩, ctPow_eq]
    cases ds with
    | nil => exact absurd rfl h1
    | cons d ds =>
      simp only [List.length_cons, Nat.add_sub_cancel]
      have h2' : ∀ x ∈ ds, x < 10 := fun x hx => h2 x (List.mem_cons_of_mem _ hx)
      have hlt := digitsValue_lt ds h2'
      have hdiv : n / 10 ^ ds.length = d := by
        rw [← h3, digitsValue_cons, Nat.mul_comm, Nat.mul_add_div (Nat.pow_pos (by decide)),
          Nat.div_eq_of_lt hlt, Nat.add_zero]
      have hmod : n % 10 ^ ds.length = digitsValue ds := by
        rw [← h3, digitsValue_cons, Nat.mul_comm, Nat.mul_add_mod, Nat.mod_eq_of_lt hlt]
      rw [hdiv, hmod]
      cases ds with
      | nil => simp [keptDigits, digitChars]
      | cons e ds =>
        have hd : d ≠ 0 := by
          intro h; subst h; simpa using h4 rfl
        rw [if_pos (by simp)]
        rw [ih _ (stripZeros (e :: ds)) _ (stripZeros_decimal _ (by simp) h2')
          (by have := stripZeros_length (e :: ds); simp only [List.length_cons] at this hf; omega)]
        rw [keptDigits_strip, keptDigits, if_neg hd]
        simp [digitChars]

/-- C49, exactly what the code does: the text is the sign and the decimal digits, except that every
zero that is followed by another digit is missing. -/
theorem C49_exact (v : Int) (ds : List Nat) (h : IsDecimal ds v.natAbs) :
    ctsOfInt v = signed v (keptDigits ds) := by
  unfold ctsOfInt
  have hn : numDigits v = ds.length := by
    rw [← numDigits_decimal h]; simp [numDigits]
  dsimp only
  rw [hn, ctsBuild_eq _ _ _ _ h (Nat.le_refl _)]
  unfold signed
  split <;> simp [b] <;> rfl

theorem keptDigits_eq_self (ds : List Nat) (h : ∀ d ∈ ds.dropLast, d ≠ 0) : keptDigits ds = ds := by
  induction ds with
  | nil => rfl
  | cons d ds ih =>
    cases ds with
    | nil => rfl
    | cons e ds =>
      rw [keptDigits, if_neg (h d (by simp [List.dropLast])),
        ih fun x hx => h x (by simp only [List.dropLast] at hx ⊢; exact List.mem_cons_of_mem _ hx)]

theorem keptDigits_length (ds : List Nat) : (keptDigits ds).length ≤ ds.length := by
  induction ds with
  | nil => simp [keptDigits]
  | cons d ds ih =>
    cases ds with
    | nil => simp [keptDigits]
    | cons e ds =>
      rw [keptDigits]
      split <;> simp only [List.length_cons] at ih ⊢ <;> omega

theorem keptDigits_self_iff (ds : List Nat) :
    keptDigits ds = ds ↔ ∀ d ∈ ds.dropLast, d ≠ 0 := by
  refine ⟨fun h => ?_, keptDigits_eq_self ds⟩
  induction ds with
  | nil => simp
  | cons d ds ih =>
    cases ds with
    | nil => simp
    | cons e ds =>
      rw [keptDigits] at h
      split at h
      · have := keptDigits_length (e :: ds)
        rw [h] at this
        simp at this
        omega
      · rename_i hd
        have h2 := ih (List.cons_inj_right d |>.1 h)
        intro x hx
        simp only [List.dropLast, List.mem_cons] at hx
        rcases hx with rfl | hx
        · exact hd
        · exact h2 x hx

theorem digitChars_inj {ds es : List Nat} (h1 : ∀ d ∈ ds, d < 10) (h2 : ∀ d ∈ es, d < 10)
    (h : digitChars ds = digitChars es) : ds = es := by
  induction ds generalizing es with
  | nil => cases es with
    | nil => rfl
    | cons _ _ => simp [digitChars] at h
  | cons d ds ih =>
    cases es with
    | nil => simp [digitChars] at h
    | cons e es =>
      simp only [digitChars, List.map_cons, List.cons.injEq] at h
      have hd := h1 d List.mem_cons_self
      have he := h2 e List.mem_cons_self
      have : d = e := by
        have := congrArg UInt8.toNat h.1
        simp only [UInt8.toNat_ofNat'] at this
        omega
      subst this
      rw [ih (fun x hx => h1 x (List.mem_cons_of_mem _ hx))
        (fun x hx => h2 x (List.mem_cons_of_mem _ hx)) h.2]

theorem keptDigits_mem {ds : List Nat} {d : Nat} (h : d ∈ keptDigits ds) : d ∈ ds := by
  induction ds with
  | nil => exact h
  | cons x ds ih =>
    cases ds with
    | nil => exact h
    | cons e ds =>
      rw [keptDigits] at h
      split at h
      · exact List.mem_cons_of_mem _ (ih h)
      · rcases List.mem_cons.1 h with rfl | h
        · exact List.mem_cons_self
        · exact List.mem_cons_of_mem _ (ih h)

/-- C49, the true part: the text is the decimal notation of the integer precisely when none of the
digits before the last one is a zero. -/
theorem C49_decimal_partial (v : Int) (ds : List Nat) (h : IsDecimal ds v.natAbs) :
    ctsOfInt v = signed v ds ↔ ∀ d ∈ ds.dropLast, d ≠ 0 := by
  rw [C49_exact v ds h, ← keptDigits_self_iff]
  constructor
  · intro hs
    unfold signed at hs
    have := List.append_cancel_left hs
    exact digitChars_inj (fun d hd => h.2.1 d (keptDigits_mem hd)) h.2.1 this
  · intro hs; rw [hs]

example : IsDecimal [2, 3, 4, 5, 3, 2, 4] (2345324 : Int).natAbs := by
  refine ⟨by simp, by decide, rfl, by simp⟩

/-- Every integer has decimal notation, so the two theorems above cover all integers. -/
theorem decimal_exists (n : Nat) : ∃ ds, IsDecimal ds n := by
  induction n using Nat.strongRecOn with
  | ind n ih =>
    by_cases h : n < 10
    · exact ⟨[n], by simp, by simpa using h, by simp [digitsValue], by simp⟩
    · obtain ⟨ds, h1, h2, h3, h4⟩ := ih (n / 10) (by omega)
      refine ⟨ds ++ [n % 10], by simp, ?_, ?_, ?_⟩
      · intro d hd
        rcases List.mem_append.1 hd with hd | hd
        · exact h2 d hd
        · rw [List.mem_singleton.1 hd]; omega
      · unfold digitsValue at h3 ⊢
        rw [List.foldl_append, h3, List.foldl_cons, List.foldl_nil]; omega
      · intro h0
        exfalso
        cases ds with
        | nil => exact h1 rfl
        | cons d ds =>
          simp only [List.cons_append, List.head?_cons, Option.some.injEq] at h0
          subst h0
          have hl := h4 rfl
          have : ds = [] := by cases ds with
            | nil => rfl
            | cons _ _ => simp at hl
          subst this
          simp [digitsValue] at h3
          omega

/-- C49 is false: a bound of 105 is shown as `15`, and 100 as `10`. -/
theorem C49_false :
    ctsOfInt 105 = b "15" ∧ ctsOfInt 100 = b "10" ∧ ctsOfInt (-2048) = b "-248" := by
  decide +kernel

end ArgRouter.Props
