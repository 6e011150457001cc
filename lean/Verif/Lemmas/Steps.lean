import Verif.Lemmas.Range
import Verif.Spec.Characters

/-!
# Functions of a number that are constant between steps

To compare two of them for all numbers it is enough to look at the steps.
-/

namespace ArgRouter.Props

open ArgRouter.Utf8 ArgRouter.Spec

/-- The value at `n`: `v` before the first step, then that of the last step passed. -/
def stepVal {α : Type} (v : α) : List (Nat × α) → Nat → α
  | [], _ => v
  | (k, w) :: r, n => if n < k then v else stepVal w r n

/-- The steps of a function computed from two others. -/
def stepZip {α β γ : Type} (op : α → β → γ) :
    Nat → α → List (Nat × α) → β → List (Nat × β) → List (Nat × γ)
  | 0, _, _, _, _ => []
  | _ + 1, v, [], _, l2 => l2.map fun p => (p.1, op v p.2)
  | _ + 1, _, l1, w, [] => l1.map fun p => (p.1, op p.2 w)
  | f + 1, v, (a, v') :: l1, w, (k, w') :: l2 =>
    if a < k then (a, op v' w) :: stepZip op f v' l1 w ((k, w') :: l2)
    else if k < a then (k, op v w') :: stepZip op f v ((a, v') :: l1) w' l2
    else (a, op v' w') :: stepZip op f v' l1 w' l2

theorem stepVal_map {α β : Type} (g : α → β) (n : Nat) : ∀ (l : List (Nat × α)) (v : α),
    stepVal (g v) (l.map fun p => (p.1, g p.2)) n = g (stepVal v l n)
  | [], v => rfl
  | (k, w) :: r, v => by
    simp only [List.map_cons, stepVal]
    split
    · rfl
    · exact stepVal_map g n r w

theorem stepVal_zip {α β γ : Type} (op : α → β → γ) (n : Nat) : ∀ (f : Nat) (v : α) (l1 : List (Nat × α))
    (w : β) (l2 : List (Nat × β)), l1.length + l2.length ≤ f →
    stepVal (op v w) (stepZip op f v l1 w l2) n = op (stepVal v l1 n) (stepVal w l2 n) := by
  intro f
  induction f with
  | zero =>
    intro v l1 w l2 h
    have h1 : l1 = [] := List.length_eq_zero_iff.1 (by omega)
    have h2 : l2 = [] := List.length_eq_zero_iff.1 (by omega)
    subst h1 h2
    rfl
  | succ f ih =>
    intro v l1 w l2 h
    cases l1 with
    | nil =>
      rw [stepZip]
      exact stepVal_map (op v) n l2 w
    | cons p l1 =>
      obtain ⟨a, v'⟩ := p
      cases l2 with
      | nil =>
        rw [stepZip]
        · exact stepVal_map (fun x => op x w) n ((a, v') :: l1) v
        · simp
      | cons q l2 =>
        obtain ⟨k, w'⟩ := q
        simp only [List.length_cons] at h
        rw [stepZip]
        by_cases h1 : a < k
        · rw [if_pos h1]
          simp only [stepVal]
          by_cases hn : n < a
          · rw [if_pos hn, if_pos hn, if_pos (by omega)]
          · rw [if_neg hn, if_neg hn, ih _ _ _ _ (by simp only [List.length_cons]; omega)]
            rfl
        · rw [if_neg h1]
          by_cases h2 : k < a
          · rw [if_pos h2]
            simp only [stepVal]
            by_cases hn : n < k
            · rw [if_pos hn, if_pos hn, if_pos (by omega)]
            · rw [if_neg hn, if_neg hn, ih _ _ _ _ (by simp only [List.length_cons]; omega)]
              rfl
          · rw [if_neg h2]
            have hk : k = a := by omega
            subst hk
            simp only [stepVal]
            by_cases hn : n < k
            · rw [if_pos hn, if_pos hn, if_pos hn]
            · rw [if_neg hn, if_neg hn, if_neg hn, ih _ _ _ _ (by omega)]

theorem stepVal_all (n : Nat) : ∀ (l : List (Nat × Bool)), l.all (·.2) = true → stepVal true l n = true
  | [], _ => rfl
  | (k, w) :: r, h => by
    simp only [List.all_cons, Bool.and_eq_true] at h
    obtain ⟨h1, h2⟩ := h
    subst h1
    simp only [stepVal]
    split
    · rfl
    · exact stepVal_all n r h2

/-- Without the steps that are taken back at once. -/
def stepClean {α : Type} : List (Nat × α) → List (Nat × α)
  | (k, w) :: (k', w') :: r =>
    if k = k' then stepClean ((k', w') :: r) else (k, w) :: stepClean ((k', w') :: r)
  | l => l

theorem stepVal_clean {α : Type} (n : Nat) : ∀ (l : List (Nat × α)) (v : α),
    stepVal v (stepClean l) n = stepVal v l n
  | [], _ => rfl
  | [_], _ => rfl
  | (k, w) :: (k', w') :: r, v => by
    rw [stepClean]
    split
    · rename_i h
      subst h
      rw [stepVal_clean n ((k, w') :: r) v]
      simp only [stepVal]
      split <;> rfl
    · show (if n < k then v else _) = if n < k then v else _
      rw [stepVal_clean n ((k', w') :: r) w]

/-- A function and its steps. -/
structure Step (α : Type) where
  start : α
  steps : List (Nat × α)

def Step.Of {α : Type} (s : Step α) (f : Nat → α) : Prop := ∀ n, stepVal s.start s.steps n = f n

def Step.zip {α β γ : Type} (op : α → β → γ) (s : Step α) (t : Step β) : Step γ :=
  ⟨op s.start t.start, stepZip op (s.steps.length + t.steps.length) s.start s.steps t.start t.steps⟩

theorem Step.Of.zip {α β γ : Type} {op : α → β → γ} {s : Step α} {t : Step β} {f : Nat → α} {g : Nat → β}
    (hs : s.Of f) (ht : t.Of g) : (Step.zip op s t).Of fun n => op (f n) (g n) := by
  intro n
  rw [Step.zip, stepVal_zip op n _ _ _ _ _ (Nat.le_refl _), hs n, ht n]

theorem Step.Of.all {s : Step Bool} {f : Nat → Bool} (hs : s.Of f)
    (h : (s.start && (stepClean s.steps).all (·.2)) = true) (n : Nat) : f n = true := by
  rw [Bool.and_eq_true] at h
  rw [← hs n, ← stepVal_clean, h.1]
  exact stepVal_all n _ h.2

/-- If there is a step at zero, there is nothing before it. -/
theorem Step.Of.all_from_zero {s : Step Bool} {f : Nat → Bool} (hs : s.Of f)
    (h0 : (stepClean s.steps).head?.map (·.1) = some 0) (h : (stepClean s.steps).all (·.2) = true) (n : Nat) :
    f n = true := by
  rw [← hs n, ← stepVal_clean]
  generalize stepClean s.steps = l at h0 h
  cases l with
  | nil => cases h0
  | cons p r =>
    obtain ⟨k, w⟩ := p
    simp only [List.head?_cons, Option.map_some, Option.some.injEq] at h0
    subst h0
    have := stepVal_all n _ h
    simp only [stepVal, Nat.not_lt_zero, if_false] at this ⊢
    exact this

/-- The steps of a table. -/
def tableSteps {α : Type} (g : Range → α) (d : α) : List Range → List (Nat × α)
  | [] => []
  | r :: t => (r.first, g r) :: (r.last + 1, d) :: tableSteps g d t

theorem tableSteps_mem {α : Type} (g : Range → α) (d : α) {r : Range} {n : Nat} (h1 : r.first ≤ n)
    (h2 : n ≤ r.last) : ∀ (t : List Range) (v : α), t.Pairwise (fun a b => a.last < b.first) →
    (∀ r ∈ t, r.first ≤ r.last) → r ∈ t → stepVal v (tableSteps g d t) n = g r
  | [], _, _, _, hr => nomatch hr
  | x :: t, v, hs, hw, hr => by
    simp only [tableSteps, stepVal]
    rw [List.pairwise_cons] at hs
    rcases List.mem_cons.1 hr with rfl | hr
    · rw [if_neg (by omega), if_pos (by omega)]
    · have := hs.1 r hr
      have := hw x (by simp)
      rw [if_neg (by omega), if_neg (by omega)]
      exact tableSteps_mem g d h1 h2 t d hs.2 (fun r h => hw r (by simp [h])) hr

theorem tableSteps_none {α : Type} (g : Range → α) (d : α) {n : Nat} : ∀ (t : List Range),
    (∀ r ∈ t, ¬ (r.first ≤ n ∧ n ≤ r.last)) → stepVal d (tableSteps g d t) n = d
  | [], _ => rfl
  | x :: t, h => by
    simp only [tableSteps, stepVal]
    have := h x (by simp)
    split
    · rfl
    · rw [if_neg (by omega)]
      exact tableSteps_none g d t fun r hr => h r (by simp [hr])

/-- Whether a number is in a table. -/
theorem tableSteps_exists {t : List Range} (hs : sortedB t = true) :
    Step.Of ⟨false, tableSteps (fun _ => true) false t⟩
      fun n => decide (∃ r ∈ t, r.first ≤ n ∧ n ≤ r.last) := by
  intro n
  by_cases h : ∃ r ∈ t, r.first ≤ n ∧ n ≤ r.last
  · obtain ⟨r, hr, h1, h2⟩ := h
    rw [tableSteps_mem _ _ h1 h2 t _ (sortedB_pairwise hs) (sortedB_wf hs) hr]
    exact (decide_eq_true ⟨r, hr, h1, h2⟩).symm
  · show _ = decide _
    rw [decide_eq_false h]
    exact tableSteps_none _ _ t fun r hr hc => h ⟨r, hr, hc⟩

/-- A pair as an entry of a table. -/
def asRange (p : Nat × Nat) : Range := ⟨p.1, p.2, 0⟩

/-- The steps of a list of ranges. -/
def rangeStep (l : List (Nat × Nat)) : Step Bool := ⟨false, tableSteps (fun _ => true) false (l.map asRange)⟩

theorem rangeStep_of {l : List (Nat × Nat)} (hs : sortedB (l.map asRange) = true) :
    (rangeStep l).Of (inRanges l) := by
  intro n
  rw [rangeStep, tableSteps_exists hs n]
  simp only [inRanges]
  rw [Bool.eq_iff_iff, decide_eq_true_iff, List.any_eq_true]
  constructor
  · rintro ⟨r, hr, h1, h2⟩
    obtain ⟨p, hp, rfl⟩ := List.mem_map.1 hr
    exact ⟨p, hp, by simpa [asRange] using And.intro h1 h2⟩
  · rintro ⟨p, hp, h⟩
    exact ⟨asRange p, List.mem_map.2 ⟨p, hp, rfl⟩, by simpa [asRange] using h⟩

/-- The steps of one number. -/
def pointStep (k : Nat) : Step Bool := ⟨false, [(k, true), (k + 1, false)]⟩

theorem pointStep_of (k : Nat) : (pointStep k).Of fun n => decide (n = k) := by
  intro n
  simp only [pointStep, stepVal]
  by_cases h : n < k
  · rw [if_pos h, decide_eq_false (by omega)]
  · rw [if_neg h]
    by_cases h' : n < k + 1
    · rw [if_pos h', decide_eq_true (by omega)]
    · rw [if_neg h', decide_eq_false (by omega)]

end ArgRouter.Props
