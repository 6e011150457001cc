import Verif.Parse.Bounds
import Verif.Props.Number
import Verif.Props.CompiledValues

/-!
# C107: bounds of another type than the argument's

A bound is a number in the declaration and has the type it was written with, which need not be the type of
the argument.
-/

namespace ArgRouter

namespace Spec

/-- The number is within the bounds, as numbers. -/
def Between (lo hi : Option Int) (v : Int) : Prop :=
  (∀ x, lo = some x → x ≤ v) ∧ ∀ x, hi = some x → v ≤ x

/-- The type holds every number of the other. -/
def IntType.Contains (t u : IntType) : Prop := ∀ v, IntType.Holds u v → IntType.Holds t v

/-- The integral types of C++: `char` to `long long`, with and without sign. -/
def IntType.Standard (t : IntType) : Prop := t.bits = 8 ∨ t.bits = 16 ∨ t.bits = 32 ∨ t.bits = 64

/-- One of the two types, or `int`, holds the numbers of both. -/
def Comparable (t u : IntType) : Prop :=
  ∃ c, (c = t ∨ c = u ∨ c = IntType.int) ∧ IntType.Contains c t ∧ IntType.Contains c u

/-- What a policy with these bounds has to do with a number: accept it if it is within bounds, otherwise
report which of them it is beyond. -/
def Judges (p : Policy) (n : Node) (lo hi : Option Int) (v : Int) : Prop :=
  ∀ s, (Between lo hi v → runValidation n (.one (.int v)) [p] s = (.ok (), s)) ∧
    ((∃ x, lo = some x ∧ v < x) → runValidation n (.one (.int v)) [p] s =
      (.throw ⟨.minimum_value_not_reached, [n.tokenType]⟩, s)) ∧
    ((∀ x, lo = some x → x ≤ v) → (∃ x, hi = some x ∧ x < v) → runValidation n (.one (.int v)) [p] s =
      (.throw ⟨.maximum_value_exceeded, [n.tokenType]⟩, s))

/-- The number keeps the bounds of the node as numbers, as far as C107 goes: those written with a type that
holds the number, and those known at compile time whose type can be compared with the type of the
argument. -/
def KeepsBounds (n : Node) (v : Int) : Prop :=
  (∀ bound lo hi, runTimeBounds bound lo hi ∈ n.policies → 0 < bound.bits →
    (∀ x, lo = some x → IntType.Holds bound x) → (∀ x, hi = some x → IntType.Holds bound x) →
    IntType.Holds bound v → Between lo hi v) ∧
  ∀ arg bound lo hi, compileTimeBounds arg bound lo hi ∈ n.policies →
    IntType.Standard arg → IntType.Standard bound → Comparable arg bound →
    (∀ x, lo = some x → IntType.Holds bound x) → (∀ x, hi = some x → IntType.Holds bound x) →
    IntType.Holds arg v → Between lo hi v

end Spec

open Spec

namespace Props

/-! ## Conversions -/

theorem two_pow_half {bits : Nat} (h : 0 < bits) : (2 : Int) ^ bits = 2 * 2 ^ (bits - 1) := by
  obtain ⟨k, rfl⟩ : ∃ k, bits = k + 1 := ⟨bits - 1, by omega⟩
  rw [Nat.add_sub_cancel, Int.pow_succ, Int.mul_comm]

theorem two_pow_pos (k : Nat) : 0 < (2 : Int) ^ k := Int.pow_pos (by decide)

theorem convert_holds {t : IntType} (ht : 0 < t.bits) (v : Int) : IntType.Holds t (t.convert v) := by
  have h1 := two_pow_half ht
  have h2 := two_pow_pos (t.bits - 1)
  unfold IntType.Holds IntType.convert
  split
  · have := Int.emod_nonneg (v + 2 ^ (t.bits - 1)) (b := 2 ^ t.bits) (by omega)
    have := Int.emod_lt_of_pos (v + 2 ^ (t.bits - 1)) (b := 2 ^ t.bits) (by omega)
    omega
  · exact ⟨Int.emod_nonneg _ (by omega), Int.emod_lt_of_pos _ (by omega)⟩

theorem convert_eq {t : IntType} (ht : 0 < t.bits) {v : Int} (h : IntType.Holds t v) :
    t.convert v = v := by
  have h1 := two_pow_half ht
  unfold IntType.Holds at h
  unfold IntType.convert
  split
  · rename_i hs
    rw [if_pos hs] at h
    rw [Int.emod_eq_of_lt (by omega) (by omega)]
    omega
  · rename_i hs
    rw [if_neg hs] at h
    exact Int.emod_eq_of_lt h.1 h.2

/-- Which types hold the numbers of which. -/
theorem contains_iff {t u : IntType} (ht : 0 < t.bits) (hu : 0 < u.bits) : IntType.Contains t u ↔
    (t.signed = u.signed ∧ u.bits ≤ t.bits) ∨ (t.signed = true ∧ u.signed = false ∧ u.bits < t.bits) := by
  have mono : ∀ {a c : Nat}, a ≤ c → (2 : Int) ^ a ≤ 2 ^ c := fun {a c} h => by
    have := Nat.pow_le_pow_right (n := 2) (by decide) h
    exact_mod_cast this
  have strict : ∀ {a c : Nat}, a < c → (2 : Int) ^ a < 2 ^ c := fun {a c} h => by
    have := Nat.pow_lt_pow_right (a := 2) (by decide) h
    exact_mod_cast this
  obtain ⟨tb, ts⟩ := t
  obtain ⟨ub, us⟩ := u
  simp only at ht hu
  have p1 := two_pow_pos (tb - 1)
  have p2 := two_pow_pos (ub - 1)
  have p3 := two_pow_half ht
  have p4 := two_pow_half hu
  unfold IntType.Contains IntType.Holds
  cases ts <;> cases us <;> simp only [if_true, Bool.false_eq_true, Bool.true_eq_false, if_false,
    false_and, true_and, or_false, false_or]
  · constructor
    · intro h
      refine Decidable.byContradiction fun hn => ?_
      have := h ((2 : Int) ^ ub - 1) ⟨by omega, by omega⟩
      have := strict (a := tb) (c := ub) (by omega)
      omega
    · intro h v hv
      have := mono h
      omega
  · constructor
    · intro h
      have := h (-1) ⟨by omega, by omega⟩
      omega
    · intro h; cases h
  · constructor
    · intro h
      refine Decidable.byContradiction fun hn => ?_
      have := h ((2 : Int) ^ ub - 1) ⟨by omega, by omega⟩
      have := mono (a := tb - 1 + 1) (c := ub) (by omega)
      have := mono (a := tb - 1) (c := ub - 1) (by omega)
      omega
    · intro h v hv
      have := mono (a := ub) (c := tb - 1) (by omega)
      omega
  · constructor
    · intro h
      refine Decidable.byContradiction fun hn => ?_
      have := h (-(2 : Int) ^ (ub - 1)) ⟨by omega, by omega⟩
      have := strict (a := tb - 1) (c := ub - 1) (by omega)
      omega
    · intro h v hv
      have := mono (a := ub - 1) (c := tb - 1) (by omega)
      omega

/-- The common type of two comparable types holds the numbers of both. -/
theorem common_contains {t u : IntType} (ht : IntType.Standard t) (hu : IntType.Standard u)
    (h : Comparable t u) :
    IntType.Contains (IntType.common t u) t ∧ IntType.Contains (IntType.common t u) u := by
  obtain ⟨tb, ts⟩ := t
  obtain ⟨ub, us⟩ := u
  obtain ⟨c, hc, h1, h2⟩ := h
  rcases ht with h | h | h | h <;> rcases hu with h' | h' | h' | h' <;> simp only at h h' <;>
    subst h <;> subst h' <;> cases ts <;> cases us <;> rcases hc with rfl | rfl | rfl <;>
    rw [contains_iff (by decide) (by decide)] at h1 h2 <;>
    first
    | (exfalso; revert h1; decide)
    | (exfalso; revert h2; decide)
    | exact ⟨(contains_iff (by decide) (by decide)).2 (by decide),
        (contains_iff (by decide) (by decide)).2 (by decide)⟩

/-! ## What the policies do -/

theorem validation_bounds (n : Node) (t : IntType) (lo hi : Option Int) (v : Int) (s : St) :
    runValidation n (.one (.int v)) [.minMaxValue (boundOf lo) (boundOf hi) (lessAs t)] s =
      if ∃ x, lo = some x ∧ t.convert v < t.convert x then
        (.throw ⟨.minimum_value_not_reached, [n.tokenType]⟩, s)
      else if ∃ x, hi = some x ∧ t.convert x < t.convert v then
        (.throw ⟨.maximum_value_exceeded, [n.tokenType]⟩, s)
      else (.ok (), s) := by
  have e1 : ((boundOf lo).map (lessAs t (.one (.int v)))).getD false = true ↔
      ∃ x, lo = some x ∧ t.convert v < t.convert x := by
    cases lo <;> simp [boundOf, lessAs]
  have e2 : ((boundOf hi).map (lessAs t · (.one (.int v)))).getD false = true ↔
      ∃ x, hi = some x ∧ t.convert x < t.convert v := by
    cases hi <;> simp [boundOf, lessAs]
  unfold runValidation
  by_cases h1 : ∃ x, lo = some x ∧ t.convert v < t.convert x
  · rw [if_pos (e1.2 h1), if_pos h1]
    rfl
  · rw [if_neg (fun h => h1 (e1.1 h)), if_neg h1]
    by_cases h2 : ∃ x, hi = some x ∧ t.convert x < t.convert v
    · rw [if_pos (e2.2 h2), if_pos h2]
      rfl
    · rw [if_neg (fun h => h2 (e2.1 h)), if_neg h2]
      rfl

theorem judges_of {n : Node} {t : IntType} {lo hi : Option Int} {v : Int} (hv : t.convert v = v)
    (hlo : ∀ x, lo = some x → t.convert x = x) (hhi : ∀ x, hi = some x → t.convert x = x) :
    Judges (.minMaxValue (boundOf lo) (boundOf hi) (lessAs t)) n lo hi v := by
  intro s
  rw [validation_bounds, hv]
  refine ⟨fun h => ?_, fun ⟨x, hx, h⟩ => ?_, fun h ⟨x, hx, h'⟩ => ?_⟩
  · rw [if_neg, if_neg]
    · rintro ⟨x, hx, h'⟩
      rw [hhi x hx] at h'
      have := h.2 x hx
      omega
    · rintro ⟨x, hx, h'⟩
      rw [hlo x hx] at h'
      have := h.1 x hx
      omega
  · rw [if_pos ⟨x, hx, by rw [hlo x hx]; exact h⟩]
  · rw [if_neg, if_pos ⟨x, hx, by rw [hhi x hx]; exact h'⟩]
    rintro ⟨y, hy, h2⟩
    rw [hlo y hy] at h2
    have := h y hy
    omega

theorem between_of {n : Node} {t : IntType} {lo hi : Option Int} {v : Int} (hv : t.convert v = v)
    (hlo : ∀ x, lo = some x → t.convert x = x) (hhi : ∀ x, hi = some x → t.convert x = x)
    (hm : .minMaxValue (boundOf lo) (boundOf hi) (lessAs t) ∈ n.policies)
    (h : InBounds n (.one (.int v))) : Between lo hi v := by
  obtain ⟨h1, h2⟩ := h _ _ _ hm
  constructor
  · rintro x rfl
    have := h1 (.one (.int x)) rfl
    simp only [lessAs, decide_eq_false_iff_not, hv, hlo x rfl] at this
    omega
  · rintro x rfl
    have := h2 (.one (.int x)) rfl
    simp only [lessAs, decide_eq_false_iff_not, hv, hhi x rfl] at this
    omega

theorem standard_pos {t : IntType} (h : IntType.Standard t) : 0 < t.bits := by
  rcases h with h | h | h | h <;> omega

theorem common_pos {arg bound : IntType} (ha : IntType.Standard arg) (hb : IntType.Standard bound) :
    0 < (IntType.common arg bound).bits := by
  obtain ⟨tb, ts⟩ := arg
  obtain ⟨ub, us⟩ := bound
  rcases ha with h | h | h | h <;> rcases hb with h' | h' | h' | h' <;> simp only at h h' <;>
    subst h <;> subst h' <;> cases ts <;> cases us <;> decide

/-- C107 for `min_max_value<Min, Max>()`: a number is accepted exactly if it is within the bounds, if one
of the types of the argument and of the bounds, or `int`, holds the numbers of both. -/
theorem C107_compile_time_partial (n : Node) (arg bound : IntType) (ha : IntType.Standard arg)
    (hb : IntType.Standard bound) (hcmp : Comparable arg bound) (lo hi : Option Int)
    (hlo : ∀ x, lo = some x → IntType.Holds bound x) (hhi : ∀ x, hi = some x → IntType.Holds bound x)
    (v : Int) (hv : IntType.Holds arg v) :
    Judges (compileTimeBounds arg bound lo hi) n lo hi v := by
  obtain ⟨h1, h2⟩ := common_contains ha hb hcmp
  have hpos := common_pos ha hb
  exact judges_of (convert_eq hpos (h1 v hv)) (fun x hx => convert_eq hpos (h2 x (hlo x hx)))
    fun x hx => convert_eq hpos (h2 x (hhi x hx))

/-- C107 is false of all other types: a signed argument with an unsigned minimum accepts -1, and an
unsigned argument with a minimum of -1 refuses zero. So the condition of `C107_compile_time_partial` cannot
be left out for any two types. -/
theorem C107_compile_time_false (n : Node) (arg bound : IntType) (ha : IntType.Standard arg)
    (hb : IntType.Standard bound) (hcmp : ¬ Comparable arg bound) :
    ∃ lo v, IntType.Holds bound lo ∧ IntType.Holds arg v ∧
      boundsAssert (some lo) none = true ∧
      ¬ Judges (compileTimeBounds arg bound (some lo) none) n (some lo) none v := by
  obtain ⟨tb, ts⟩ := arg
  obtain ⟨ub, us⟩ := bound
  have key : ∀ {lo v : Int}, decide ((IntType.common ⟨tb, ts⟩ ⟨ub, us⟩).convert v <
      (IntType.common ⟨tb, ts⟩ ⟨ub, us⟩).convert lo) ≠ decide (v < lo) →
      ¬ Judges (compileTimeBounds ⟨tb, ts⟩ ⟨ub, us⟩ (some lo) none) n (some lo) none v := by
    intro lo v hne hj
    have hj := hj ⟨[], []⟩
    unfold compileTimeBounds at hj
    rw [validation_bounds] at hj
    simp only [Between, Option.some.injEq, exists_eq_left', forall_eq', reduceCtorEq, false_and,
      exists_false, if_false, false_implies, implies_true, and_true] at hj
    obtain ⟨h1, h2⟩ := hj
    by_cases hlt : v < lo
    · have := h2 hlt
      split at this
      · rename_i h; exact hne (by simp [h, hlt])
      · cases this
    · have := h1 (by omega)
      split at this
      · cases this
      · rename_i h; exact hne (by simp [h, hlt])
  have hno : ∀ c : IntType, 0 < c.bits → (c = ⟨tb, ts⟩ ∨ c = ⟨ub, us⟩ ∨ c = IntType.int) →
      ¬ (IntType.Contains c ⟨tb, ts⟩ ∧ IntType.Contains c ⟨ub, us⟩) :=
    fun c _ hc h => hcmp ⟨c, hc, h⟩
  cases ts <;> cases us
  · exfalso
    rcases Nat.le_total tb ub with h | h
    · refine hno ⟨ub, false⟩ (standard_pos hb) (.inr (.inl rfl)) ?_
      exact ⟨(contains_iff (standard_pos hb) (standard_pos ha)).2 (.inl ⟨rfl, h⟩),
        (contains_iff (standard_pos hb) (standard_pos hb)).2 (.inl ⟨rfl, Nat.le_refl _⟩)⟩
    · refine hno ⟨tb, false⟩ (standard_pos ha) (.inl rfl) ?_
      exact ⟨(contains_iff (standard_pos ha) (standard_pos ha)).2 (.inl ⟨rfl, Nat.le_refl _⟩),
        (contains_iff (standard_pos ha) (standard_pos hb)).2 (.inl ⟨rfl, h⟩)⟩
  · refine ⟨-1, 0, ?_, ?_, rfl, ?_⟩
    · unfold IntType.Holds
      have := two_pow_pos (ub - 1)
      simp only [if_true]
      omega
    · unfold IntType.Holds
      have := two_pow_pos tb
      simp only [Bool.false_eq_true, if_false]
      omega
    · apply key
      rcases ha with h | h | h | h <;> rcases hb with h' | h' | h' | h' <;> simp only at h h' <;>
        subst h <;> subst h' <;>
        first
        | decide
        | (exfalso
           first
           | (refine hno ⟨_, true⟩ (by decide) (.inr (.inl rfl)) ?_
              exact ⟨(contains_iff (by decide) (by decide)).2 (by decide),
                (contains_iff (by decide) (by decide)).2 (by decide)⟩)
           | (refine hno IntType.int (by decide) (.inr (.inr rfl)) ?_
              exact ⟨(contains_iff (by decide) (by decide)).2 (by decide),
                (contains_iff (by decide) (by decide)).2 (by decide)⟩))
  · refine ⟨1, -1, ?_, ?_, rfl, ?_⟩
    · unfold IntType.Holds
      have := two_pow_half (bits := ub) (standard_pos hb)
      have := two_pow_pos (ub - 1)
      simp only [Bool.false_eq_true, if_false]
      omega
    · unfold IntType.Holds
      have := two_pow_pos (tb - 1)
      simp only [if_true]
      omega
    · apply key
      rcases ha with h | h | h | h <;> rcases hb with h' | h' | h' | h' <;> simp only at h h' <;>
        subst h <;> subst h' <;>
        first
        | decide
        | (exfalso
           first
           | (refine hno ⟨_, true⟩ (by decide) (.inl rfl) ?_
              exact ⟨(contains_iff (by decide) (by decide)).2 (by decide),
                (contains_iff (by decide) (by decide)).2 (by decide)⟩)
           | (refine hno IntType.int (by decide) (.inr (.inr rfl)) ?_
              exact ⟨(contains_iff (by decide) (by decide)).2 (by decide),
                (contains_iff (by decide) (by decide)).2 (by decide)⟩))
  · exfalso
    rcases Nat.le_total tb ub with h | h
    · refine hno ⟨ub, true⟩ (standard_pos hb) (.inr (.inl rfl)) ?_
      exact ⟨(contains_iff (standard_pos hb) (standard_pos ha)).2 (.inl ⟨rfl, h⟩),
        (contains_iff (standard_pos hb) (standard_pos hb)).2 (.inl ⟨rfl, Nat.le_refl _⟩)⟩
    · refine hno ⟨tb, true⟩ (standard_pos ha) (.inl rfl) ?_
      exact ⟨(contains_iff (standard_pos ha) (standard_pos ha)).2 (.inl ⟨rfl, Nat.le_refl _⟩),
        (contains_iff (standard_pos ha) (standard_pos hb)).2 (.inl ⟨rfl, h⟩)⟩

/-- C107 for `min_max_value(min, max)`: a number that the type of the bounds holds is accepted exactly if it
is within the bounds. -/
theorem C107_run_time_partial (n : Node) (bound : IntType) (hb : 0 < bound.bits) (lo hi : Option Int)
    (hlo : ∀ x, lo = some x → IntType.Holds bound x) (hhi : ∀ x, hi = some x → IntType.Holds bound x)
    (v : Int) (hv : IntType.Holds bound v) : Judges (runTimeBounds bound lo hi) n lo hi v :=
  judges_of (convert_eq hb hv) (fun x hx => convert_eq hb (hlo x hx)) fun x hx => convert_eq hb (hhi x hx)

/-- C107 is false of every number that the type of the bounds does not hold: there are bounds that it is
not within, and that accept it. -/
theorem C107_run_time_false (n : Node) (bound : IntType) (hb : 0 < bound.bits) (v : Int)
    (hv : ¬ IntType.Holds bound v) :
    ∃ x, IntType.Holds bound x ∧ ¬ Between (some x) (some x) v ∧
      ∀ s, runValidation n (.one (.int v)) [runTimeBounds bound (some x) (some x)] s = (.ok (), s) := by
  refine ⟨bound.convert v, convert_holds hb v, ?_, fun s => ?_⟩
  · rintro ⟨h1, h2⟩
    have h1 := h1 _ rfl
    have h2 := h2 _ rfl
    have : bound.convert v = v := by omega
    exact hv (this ▸ convert_holds hb v)
  · unfold runTimeBounds
    rw [validation_bounds]
    simp only [Option.some.injEq, exists_eq_left']
    rw [convert_eq hb (convert_holds hb v), if_neg (by omega), if_neg (by omega)]

/-- C107: bounds known at compile time that compile leave a number of their type to be accepted. -/
theorem C107_some_number (bound : IntType) (lo hi : Option Int)
    (hlo : ∀ x, lo = some x → IntType.Holds bound x) (hhi : ∀ x, hi = some x → IntType.Holds bound x)
    (h : boundsAssert lo hi = true) : ∃ v, IntType.Holds bound v ∧ Between lo hi v := by
  unfold boundsAssert at h
  cases lo with
  | none =>
    cases hi with
    | none => cases h
    | some y =>
      refine ⟨y, hhi y rfl, nofun, ?_⟩
      rintro x hx
      cases hx
      exact Int.le_refl _
  | some x =>
    refine ⟨x, hlo x rfl, ?_, ?_⟩
    · rintro y hy
      cases hy
      exact Int.le_refl _
    · rintro y rfl
      simpa using h

/-- And those that do not compile leave none, or no bound. -/
theorem C107_no_number (lo hi : Option Int) (h : boundsAssert lo hi = false) :
    (lo = none ∧ hi = none) ∨ ∀ v, ¬ Between lo hi v := by
  unfold boundsAssert at h
  cases lo with
  | none =>
    cases hi with
    | none => exact .inl ⟨rfl, rfl⟩
    | some y => cases h
  | some x =>
    cases hi with
    | none => cases h
    | some y =>
      refine .inr ?_
      rintro v ⟨h1, h2⟩
      have h1 := h1 _ rfl
      have h2 := h2 _ rfl
      simp only [Option.isSome_some, Bool.or_self, Bool.true_and, decide_eq_false_iff_not] at h
      omega

example : boundsAssert (some 1) (some 4) = true ∧ boundsAssert (some 4) (some 1) = false ∧
    boundsAssert none none = false := by decide

/-! ## Defaults -/

/-- C107 for `default_value`: an argument that is not given has the number that was declared as its default,
if its type holds it. -/
theorem C107_default_partial (mode : Node) (uses : List Leaf) (s s' : St) (i : Nat) (c : Node)
    (args : List Value) (hhelp : ∀ l ∈ uses, l.node.kind ≠ .help)
    (h : parseMode mode uses s = (.ok (), s')) (hargs : RoutedWith mode s' args)
    (hc : mode.children[i]? = some c) (hn : c.hasNoResult = false)
    (hnot : NotGiven mode.children uses i) (arg : IntType) (ha : 0 < arg.bits) (x : Int)
    (hd : numberDefault arg x ∈ c.policies) (hone : (defaults c).length = 1)
    (hx : IntType.Holds arg x) : args[position mode.children i]? = some (.one (.int x)) := by
  have hm : Value.one (.int (arg.convert x)) ∈ defaults c := List.mem_filterMap.2 ⟨_, hd, rfl⟩
  obtain ⟨d, hd'⟩ := List.length_eq_one_iff.1 hone
  rw [hd', List.mem_singleton] at hm
  rw [(C22_fallback mode uses s s' i c args hhelp h hargs hc hn hnot).1 d hd', ← hm, convert_eq ha hx]

/-- C107 is false of a default that the type of the argument does not hold: the router gets another number,
the one of the type that is equal to it modulo `2^bits`. -/
theorem C107_default_false (mode : Node) (uses : List Leaf) (s s' : St) (i : Nat) (c : Node)
    (args : List Value) (hhelp : ∀ l ∈ uses, l.node.kind ≠ .help)
    (h : parseMode mode uses s = (.ok (), s')) (hargs : RoutedWith mode s' args)
    (hc : mode.children[i]? = some c) (hn : c.hasNoResult = false)
    (hnot : NotGiven mode.children uses i) (arg : IntType) (ha : 0 < arg.bits) (x : Int)
    (hd : numberDefault arg x ∈ c.policies) (hone : (defaults c).length = 1)
    (hx : ¬ IntType.Holds arg x) :
    ∃ y, args[position mode.children i]? = some (.one (.int y)) ∧ y ≠ x ∧ IntType.Holds arg y ∧
      (2 : Int) ^ arg.bits ∣ y - x := by
  have hm : Value.one (.int (arg.convert x)) ∈ defaults c := List.mem_filterMap.2 ⟨_, hd, rfl⟩
  obtain ⟨d, hd'⟩ := List.length_eq_one_iff.1 hone
  rw [hd', List.mem_singleton] at hm
  refine ⟨arg.convert x, ?_, fun he => hx (he ▸ convert_holds ha x), convert_holds ha x, ?_⟩
  · rw [(C22_fallback mode uses s s' i c args hhelp h hargs hc hn hnot).1 d hd', ← hm]
  · unfold IntType.convert
    split
    · have := Int.mul_ediv_add_emod (x + 2 ^ (arg.bits - 1)) (2 ^ arg.bits)
      refine ⟨-((x + 2 ^ (arg.bits - 1)) / 2 ^ arg.bits), ?_⟩
      rw [Int.mul_neg]
      omega
    · have := Int.mul_ediv_add_emod x (2 ^ arg.bits)
      refine ⟨-(x / 2 ^ arg.bits), ?_⟩
      rw [Int.mul_neg]
      omega

/-- `mode(arg<T>("level"_S, default_value{v}), router{...})`. -/
def defaultMode (t : IntType) (v : Int) : Node :=
  mkMode 92 92 [.router] [mkArg 91 91 (intType t) [.longName (b "level"), numberDefault t v]]

/-- Defaults that meet the hypotheses of `C107_default_partial` and of `C107_default_false`. -/
example : parseArgs .default (mkRoot 93 93 [defaultMode ⟨16, false⟩ 50]) [] .fresh =
      (.ok (), ⟨[], [⟨92, [.one (.int 50)]⟩]⟩) ∧
    compiles .default 100 defaultRules (mkRoot 93 93 [defaultMode ⟨16, false⟩ (-1)]) = true ∧
    parseArgs .default (mkRoot 93 93 [defaultMode ⟨16, false⟩ (-1)]) [] .fresh =
      (.ok (), ⟨[], [⟨92, [.one (.int 65535)]⟩]⟩) ∧
    (defaults (mkArg 91 91 (intType ⟨16, false⟩) [.longName (b "level"),
      numberDefault ⟨16, false⟩ (-1)])).length = 1 := by decide +kernel

/-! ## Programs -/

theorem inBounds_keeps {n : Node} {v : Int} (h : InBounds n (.one (.int v))) : KeepsBounds n v := by
  refine ⟨fun bound lo hi hm hb hlo hhi hv => ?_, fun arg bound lo hi hm ha hb hc hlo hhi hv => ?_⟩
  · exact between_of (convert_eq hb hv) (fun x hx => convert_eq hb (hlo x hx))
      (fun x hx => convert_eq hb (hhi x hx)) hm h
  · obtain ⟨h1, h2⟩ := common_contains ha hb hc
    have hpos := common_pos ha hb
    exact between_of (convert_eq hpos (h1 v hv)) (fun x hx => convert_eq hpos (h2 x (hlo x hx)))
      (fun x hx => convert_eq hpos (h2 x (hhi x hx))) hm h

/-- C107 of every program that compiles: a number that a router is called with keeps the bounds of the
argument it is for, as numbers. Missing: numbers that the type of the bounds does not hold
(`C107_program_false`), and groups (`C25_group_false`). -/
theorem C107_compiled_partial (cfg : Config) (root : Node) (argv : List Bytes) (s s' : St)
    (hc : ∃ depth, compiles cfg depth defaultRules root = true)
    (h : parseArgs cfg root argv s = (.ok (), s')) :
    ∃ (n : Node) (vals : List Value), n ∈ root.nodes ∧ s'.calls = s.calls ++ [⟨n.uid, vals⟩] ∧
      (n.kind ≠ .help → n.kind ≠ .mode → ∀ x, vals = [.one (.int x)] → KeepsBounds n x) ∧
      (n.kind = .mode → ∀ (i : Nat) (c : Node) (x : Int), n.children[i]? = some c →
        c.hasNoResult = false → vals[position n.children i]? = some (.one (.int x)) →
        c.children = [] → (∀ y, Selectable n y → y.hash = c.hash → y = c) → KeepsBounds c x) := by
  obtain ⟨n, vals, hn, hcalls, h⟩ := C25_compiled_partial cfg root argv s s' hc h
  refine ⟨n, vals, hn, hcalls, fun h1 h2 x hx => ?_, fun h1 i c x hi hres hv hch huniq => ?_⟩
  · rcases h with h | ⟨-, v, hv, hb, -⟩ | ⟨h, -⟩
    · exact absurd h h1
    · rw [hx] at hv
      cases hv
      exact inBounds_keeps hb
    · exact absurd h h2
  · rcases h with h | ⟨h, -⟩ | ⟨-, h⟩
    · rw [h1] at h; cases h
    · exact absurd h1 h
    · exact inBounds_keeps ((h i c _ hi hres hv).1 hch huniq).1

/-- `root(mode(arg<T>("level"_S, value_separator<'='>, bounds), router{...}))`. -/
def levelRoot (t : IntType) (bounds : Policy) : Node :=
  mkRoot 93 93 [mkMode 92 92 [.router]
    [mkArg 91 91 (intType t) [.longName (b "level"), .valueSeparator (b "="), .required, bounds]]]

/-- C107 is false of programs that compile. `arg<std::int64_t>` with `min_max_value(0, 100)` routes
4294967346, which is 50 as an `int`. `arg<int>` with `min_value<1u>()` routes -1, which is the largest
`unsigned`, and `arg<unsigned>` with `min_value<-1>()` refuses 5. -/
theorem C107_program_false :
    let wide := levelRoot ⟨64, true⟩ (runTimeBounds .int (some 0) (some 100))
    let signed := levelRoot .int (compileTimeBounds .int ⟨32, false⟩ (some 1) none)
    let unsigned := levelRoot ⟨32, false⟩ (compileTimeBounds ⟨32, false⟩ .int (some (-1)) none)
    (compiles .default 100 defaultRules wide = true ∧
      parseArgs .default wide [b "--level=4294967346"] .fresh =
        (.ok (), ⟨[], [⟨92, [.one (.int 4294967346)]⟩]⟩)) ∧
    (compiles .default 100 defaultRules signed = true ∧
      parseArgs .default signed [b "--level=-1"] .fresh = (.ok (), ⟨[], [⟨92, [.one (.int (-1))]⟩]⟩)) ∧
    (compiles .default 100 defaultRules unsigned = true ∧
      (parseArgs .default unsigned [b "--level=5"] .fresh).1 =
        .throw ⟨.minimum_value_not_reached, [⟨.long, b "level"⟩]⟩) := by
  decide +kernel

/-- A program that meets the hypotheses of `C107_compiled_partial`, and that refuses what is out of
bounds: `arg<std::int64_t>` with `min_max_value<0, 100>()`. -/
example :
    let root := levelRoot ⟨64, true⟩ (compileTimeBounds ⟨64, true⟩ .int (some 0) (some 100))
    compiles .default 100 defaultRules root = true ∧
    parseArgs .default root [b "--level=100"] .fresh = (.ok (), ⟨[], [⟨92, [.one (.int 100)]⟩]⟩) ∧
    (parseArgs .default root [b "--level=4294967346"] .fresh).1 =
      .throw ⟨.maximum_value_exceeded, [⟨.long, b "level"⟩]⟩ ∧
    (parseArgs .default root [b "--level=-1"] .fresh).1 =
      .throw ⟨.minimum_value_not_reached, [⟨.long, b "level"⟩]⟩ := by
  decide +kernel

/-- Types that meet the hypotheses of `C107_compile_time_partial` (`int64_t` and `int`, `uint16_t` and
`int`, `int8_t` and `uint16_t`, which are both held by `int`) and of `C107_compile_time_false` (`int` and
`unsigned`, `int8_t` and `unsigned`). -/
example : Comparable ⟨64, true⟩ .int ∧ Comparable ⟨16, false⟩ .int ∧ Comparable ⟨8, true⟩ ⟨16, false⟩ ∧
    ¬ Comparable .int ⟨32, false⟩ ∧ ¬ Comparable ⟨8, true⟩ ⟨32, false⟩ := by
  refine ⟨⟨⟨64, true⟩, .inl rfl, ?_⟩, ⟨.int, .inr (.inr rfl), ?_⟩, ⟨.int, .inr (.inr rfl), ?_⟩, ?_, ?_⟩
  · exact ⟨(contains_iff (by decide) (by decide)).2 (by decide),
      (contains_iff (by decide) (by decide)).2 (by decide)⟩
  · exact ⟨(contains_iff (by decide) (by decide)).2 (by decide),
      (contains_iff (by decide) (by decide)).2 (by decide)⟩
  · exact ⟨(contains_iff (by decide) (by decide)).2 (by decide),
      (contains_iff (by decide) (by decide)).2 (by decide)⟩
  all_goals
    rintro ⟨c, rfl | rfl | rfl, h1, h2⟩ <;>
      rw [contains_iff (by decide) (by decide)] at h1 h2 <;> revert h1 h2 <;> decide

end Props
end ArgRouter
