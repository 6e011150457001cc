import Verif.Util.Any

/-!
# C63: the type-erased result container owns its value exactly once
-/

namespace ArgRouter

namespace Spec

/-- Variables that are dead, empty or hold a number. -/
abbrev Boxes := Nat → Option (Option Nat)

/-- Set a variable. -/
def Boxes.set (s : Boxes) (i : Nat) (c : Option (Option Nat)) : Boxes :=
  fun j => if j = i then c else s j

/-- What the operations do to the values held. A moved-from container is empty; a copy of an empty
container is empty. -/
def boxOp (s : Boxes) : AnyOp → Option Boxes
  | .empty i => if s i = none then some (s.set i (some none)) else none
  | .make i v _ _ => if s i = none then some (s.set i (some (some v))) else none
  | .copy i j =>
    match s i, s j with
    | none, some c => some (s.set i (some c))
    | _, _ => none
  | .move i j =>
    match s i, s j with
    | none, some c => some ((s.set i (some c)).set j (some none))
    | _, _ => none
  | .assign i j =>
    match s i, s j with
    | some _, some c => some (s.set i (some c))
    | _, _ => none
  | .assignMove i j =>
    match s i, s j with
    | some _, some c => some ((s.set j (some none)).set i (some c))
    | _, _ => none
  | .destroy i => if s i = none then none else some (s.set i none)

/-- Run a program on the values. -/
def boxRun (s : Boxes) : List AnyOp → Option Boxes
  | [] => some s
  | op :: ops => match boxOp s op with
    | some s' => boxRun s' ops
    | none => none

/-- The operation copies an empty container. -/
def CopiesEmpty (s : Boxes) : AnyOp → Prop
  | .copy _ j => s j = some none
  | .assign _ j => s j = some none
  | _ => False

/-- No operation of the program copies an empty container. -/
def NoEmptyCopy (s : Boxes) : List AnyOp → Prop
  | [] => True
  | op :: ops => ¬CopiesEmpty s op ∧ ∀ s', boxOp s op = some s' → NoEmptyCopy s' ops

instance (s : Boxes) (op : AnyOp) : Decidable (CopiesEmpty s op) := by
  cases op <;> unfold CopiesEmpty <;> infer_instance

/-- Run a program on the values and tell which operations throw: copying an empty container throws and
does nothing else. -/
def boxPlay (s : Boxes) : List AnyOp → Option (Boxes × List Bool)
  | [] => some (s, [])
  | op :: ops => match boxOp s op with
    | some s' =>
      if CopiesEmpty s op then (boxPlay s ops).map fun r => (r.1, true :: r.2)
      else (boxPlay s' ops).map fun r => (r.1, false :: r.2)
    | none => none

/-- No operation of the program stores a small value that knows its own address. -/
def Relocatable (ops : List AnyOp) : Prop := ∀ i v, .make i v true true ∉ ops

/-- Value number `id` is held by some container. -/
def Held (st : AnyState) (id : Nat) : Prop := ∃ i s, st.objs i = some (some s) ∧ s.id = id

/-- Value number `id` is held by one container only. -/
def HeldOnce (st : AnyState) (id : Nat) : Prop :=
  ∃ i, (∃ s, st.objs i = some (some s) ∧ s.id = id) ∧
    ∀ j s, st.objs j = some (some s) → s.id = id → j = i

end Spec

namespace Props
open Spec

/-- Each constructed value is destroyed once and held by nobody, or not destroyed and held by
one. -/
structure Owned (st : AnyState) : Prop where
  nodup : st.destroyed.Nodup
  old : ∀ id ∈ st.destroyed, id < st.next
  live : ∀ i s, st.objs i = some (some s) → s.id < st.next ∧ s.id ∉ st.destroyed
  inj : ∀ i j s t, st.objs i = some (some s) → st.objs j = some (some t) → s.id = t.id → i = j
  all : ∀ id, id < st.next → id ∈ st.destroyed ∨ Held st id

/-- A new value is put into a variable that holds none. -/
theorem owned_new {st : AnyState} (h : Owned st) {i : Nat} (hi : ∀ s, st.objs i ≠ some (some s))
    {s : Stored} (hs : s.id = st.next) :
    Owned ({ st with next := st.next + 1 }.put i (some (some s))) where
  nodup := h.nodup
  old := fun id hid => Nat.lt_succ_of_lt (h.old id hid)
  live := by
    intro j t hj
    simp only [AnyState.put] at hj
    split at hj
    · cases hj
      refine ⟨by rw [hs]; exact Nat.lt_succ_self _, fun hd => ?_⟩
      exact absurd (h.old _ hd) (by rw [hs]; exact Nat.lt_irrefl _)
    · exact ⟨Nat.lt_succ_of_lt (h.live j t hj).1, (h.live j t hj).2⟩
  inj := by
    intro j k t u hj hk e
    simp only [AnyState.put] at hj hk
    split at hj <;> split at hk
    · rename_i h₁ h₂; rw [h₁, h₂]
    · cases hj
      have := (h.live _ _ hk).1
      rw [← e, hs] at this; exact absurd this (Nat.lt_irrefl _)
    · cases hk
      have := (h.live _ _ hj).1
      rw [e, hs] at this; exact absurd this (Nat.lt_irrefl _)
    · exact h.inj j k t u hj hk e
  all := by
    intro id hid
    rcases Nat.lt_succ_iff_lt_or_eq.1 hid with hlt | heq
    · rcases h.all id hlt with hd | ⟨j, t, hj, e⟩
      · exact .inl hd
      · refine .inr ⟨j, t, ?_, e⟩
        simp only [AnyState.put]
        rw [if_neg]
        · exact hj
        · rintro rfl; exact hi t hj
    · exact .inr ⟨i, s, by simp [AnyState.put], by rw [hs, heq]⟩

/-- A variable without a value becomes another kind of variable without a value. -/
theorem owned_none {st : AnyState} (h : Owned st) {i : Nat} (hi : ∀ s, st.objs i ≠ some (some s))
    {c : Option (Option Stored)} (hc : ∀ s, c ≠ some (some s)) : Owned (st.put i c) where
  nodup := h.nodup
  old := h.old
  live := by
    intro j t hj
    simp only [AnyState.put] at hj
    split at hj
    · exact absurd hj (hc t)
    · exact h.live j t hj
  inj := by
    intro j k t u hj hk e
    simp only [AnyState.put] at hj hk
    split at hj
    · exact absurd hj (hc t)
    · split at hk
      · exact absurd hk (hc u)
      · exact h.inj j k t u hj hk e
  all := by
    intro id hid
    rcases h.all id hid with hd | ⟨j, t, hj, e⟩
    · exact .inl hd
    · refine .inr ⟨j, t, ?_, e⟩
      simp only [AnyState.put]
      rw [if_neg]
      · exact hj
      · rintro rfl; exact hi t hj

/-- A value moves from `j` to `i`, which held none. -/
theorem owned_move {st : AnyState} (h : Owned st) {i j : Nat} (hij : i ≠ j)
    (hi : ∀ s, st.objs i ≠ some (some s)) {c : Option Stored} (hj : st.objs j = some c) :
    Owned ((st.put i (some c)).put j (some none)) where
  nodup := h.nodup
  old := h.old
  live := by
    intro k t hk
    simp only [AnyState.put] at hk
    split at hk
    · cases hk
    · split at hk
      · cases hk; exact h.live j t hj
      · exact h.live k t hk
  inj := by
    intro k l t u hk hl e
    simp only [AnyState.put] at hk hl
    split at hk
    · cases hk
    · split at hl
      · cases hl
      · rename_i hkj hlj
        split at hk <;> split at hl
        · rename_i h₁ h₂; rw [h₁, h₂]
        · cases hk
          exact absurd (h.inj l j u t hl hj e.symm) hlj
        · cases hl
          exact absurd (h.inj k j t u hk hj e) hkj
        · exact h.inj k l t u hk hl e
  all := by
    intro id hid
    rcases h.all id hid with hd | ⟨k, t, hk, e⟩
    · exact .inl hd
    · by_cases hkj : k = j
      · subst hkj
        rw [hj] at hk; cases hk
        exact .inr ⟨i, t, by simp [AnyState.put, hij], e⟩
      · refine .inr ⟨k, t, ?_, e⟩
        simp only [AnyState.put]
        rw [if_neg hkj, if_neg]
        · exact hk
        · rintro rfl; exact hi t hk

/-- The value held by `i` is destroyed. -/
theorem owned_drop {st : AnyState} (h : Owned st) {i : Nat} {c : Option Stored}
    (hi : st.objs i = some c) {d : Option (Option Stored)} (hd : ∀ s, d ≠ some (some s)) :
    Owned ((st.put i d).drop c) := by
  cases c with
  | none => exact owned_none h (by rw [hi]; intro s hs; cases hs) hd
  | some s =>
    obtain ⟨h₁, h₂⟩ := h.live i s hi
    refine ⟨?_, ?_, ?_, ?_, ?_⟩
    · exact List.nodup_cons.2 ⟨h₂, h.nodup⟩
    · intro id hid
      rcases List.mem_cons.1 hid with rfl | hid
      · exact h₁
      · exact h.old id hid
    · intro j t hj
      simp only [AnyState.drop, AnyState.put] at hj
      split at hj
      · exact absurd hj (hd t)
      · rename_i hne
        refine ⟨(h.live j t hj).1, fun hm => ?_⟩
        rcases List.mem_cons.1 hm with e | hm
        · exact hne (h.inj j i t s hj hi e)
        · exact (h.live j t hj).2 hm
    · intro j k t u hj hk e
      simp only [AnyState.drop, AnyState.put] at hj hk
      split at hj
      · exact absurd hj (hd t)
      · split at hk
        · exact absurd hk (hd u)
        · exact h.inj j k t u hj hk e
    · intro id hid
      rcases h.all id hid with hm | ⟨j, t, hj, e⟩
      · exact .inl (List.mem_cons_of_mem _ hm)
      · by_cases hji : j = i
        · subst hji
          rw [hi] at hj; cases hj
          exact .inl (by rw [← e]; exact List.mem_cons_self)
        · refine .inr ⟨j, t, ?_, e⟩
          simp only [AnyState.drop, AnyState.put]
          rw [if_neg hji]
          exact hj

theorem owned_congr {a c : AnyState} (h : Owned a) (h₁ : ∀ i, a.objs i = c.objs i)
    (h₂ : a.next = c.next) (h₃ : a.destroyed = c.destroyed) : Owned c := by
  have : a = c := by
    cases a; cases c
    simp only [AnyState.mk.injEq]
    exact ⟨funext h₁, h₂, h₃⟩
  rwa [← this]

theorem owned_step {st st' : AnyState} {e : Bool} (h : Owned st) (op : AnyOp)
    (hr : op.run st = some (st', e)) : Owned st' := by
  cases op with
  | empty i =>
    simp only [AnyOp.run] at hr
    cases hi : st.objs i with
    | some c => rw [hi] at hr; cases hr
    | none =>
      rw [hi] at hr; cases hr
      exact owned_none h (by simp [hi]) (by simp)
  | make i v small pinned =>
    simp only [AnyOp.run] at hr
    cases hi : st.objs i with
    | some c => rw [hi] at hr; cases hr
    | none =>
      rw [hi] at hr; cases hr
      exact owned_new h (by simp [hi]) rfl
  | copy i j =>
    simp only [AnyOp.run] at hr
    cases hi : st.objs i with
    | some c => rw [hi] at hr; cases hr
    | none =>
      cases hj : st.objs j with
      | none => rw [hi, hj] at hr; cases hr
      | some c =>
        rw [hi, hj] at hr
        cases c with
        | none => cases hr; exact h
        | some s => cases hr; exact owned_new h (by simp [hi]) rfl
  | move i j =>
    simp only [AnyOp.run] at hr
    cases hi : st.objs i with
    | some c => rw [hi] at hr; cases hr
    | none =>
      cases hj : st.objs j with
      | none => rw [hi, hj] at hr; cases hr
      | some c =>
        rw [hi, hj] at hr; cases hr
        exact owned_move h (by rintro rfl; rw [hi] at hj; cases hj) (by simp [hi]) hj
  | assign i j =>
    simp only [AnyOp.run] at hr
    cases hi : st.objs i with
    | none => rw [hi] at hr; cases hr
    | some old =>
      cases hj : st.objs j with
      | none => rw [hi, hj] at hr; cases hr
      | some c =>
        rw [hi, hj] at hr
        cases c with
        | none => cases hr; exact h
        | some s =>
          cases hr
          -- destroy the old value first, then store the new one
          have h₁ := owned_drop h hi (d := some none) (by simp)
          have h₂ := owned_new (i := i) h₁ (by cases old <;> simp [AnyState.drop, AnyState.put])
            (s := { s with id := st.next, home := .temp }) (by cases old <;> rfl)
          refine owned_congr h₂ (fun k => ?_) (by cases old <;> rfl) (by cases old <;> rfl)
          cases old <;> by_cases hk : k = i <;> simp [AnyState.drop, AnyState.put, hk]
  | assignMove i j =>
    simp only [AnyOp.run] at hr
    cases hi : st.objs i with
    | none => rw [hi] at hr; cases hr
    | some old =>
      cases hj : st.objs j with
      | none => rw [hi, hj] at hr; cases hr
      | some c =>
        rw [hi, hj] at hr
        by_cases hij : i = j
        · subst hij
          simp only [AnyState.put, if_true, AnyState.drop] at hr
          cases hr
          refine owned_congr h (fun k => ?_) rfl rfl
          by_cases hk : k = i <;> simp [hk, hj]
        · simp only [AnyState.put, if_neg hij, hi] at hr
          cases hr
          have h₁ := owned_drop h hi (d := some none) (by simp)
          have h₂ := owned_move (i := i) (j := j) (c := c) h₁ hij
            (by cases old <;> simp [AnyState.drop, AnyState.put])
            (by cases old <;> simp [AnyState.drop, AnyState.put, Ne.symm hij, hj])
          refine owned_congr h₂ (fun k => ?_) (by cases old <;> rfl) (by cases old <;> rfl)
          cases old <;> by_cases hk : k = i <;> by_cases hk' : k = j <;>
            simp_all [AnyState.drop, AnyState.put]
  | destroy i =>
    simp only [AnyOp.run] at hr
    cases hi : st.objs i with
    | none => rw [hi] at hr; cases hr
    | some c =>
      rw [hi] at hr; cases hr
      exact owned_drop h hi (by simp)

theorem owned_run (ops : List AnyOp) : ∀ (st st' : AnyState) (es : List Bool), Owned st →
    runAny st ops = some (st', es) → Owned st' := by
  induction ops with
  | nil => intro st st' es h hr; cases hr; exact h
  | cons op ops ih =>
    intro st st' es h hr
    unfold runAny at hr
    cases ho : op.run st with
    | none => rw [ho] at hr; cases hr
    | some r =>
      obtain ⟨st₁, e⟩ := r
      rw [ho] at hr
      cases hr' : runAny st₁ ops with
      | none => simp only [hr'] at hr; cases hr
      | some r' =>
        obtain ⟨st₂, es'⟩ := r'
        simp only [hr'] at hr
        cases hr
        exact ih _ _ _ (owned_step h op ho) hr'

theorem owned_init : Owned AnyState.init where
  nodup := .nil
  old := fun id h => (nomatch h)
  live := fun i s h => (nomatch h)
  inj := fun i j s t h => (nomatch h)
  all := fun id h => absurd h (Nat.not_lt_zero _)

/-- C63. After any program of constructions, copies, moves, assignments (also to itself) and
destructions of containers, with or without exceptions, every value constructed so far is either
destroyed, once, and held by no container, or not destroyed and held by exactly one container. -/
theorem C63_once (ops : List AnyOp) (st : AnyState) (es : List Bool)
    (h : runAny .init ops = some (st, es)) (id : Nat) (hid : id < st.next) :
    (st.destroyed.count id = 1 ∧ ¬Held st id) ∨ (st.destroyed.count id = 0 ∧ HeldOnce st id) := by
  have ho := owned_run ops _ _ _ owned_init h
  by_cases hm : id ∈ st.destroyed
  · refine .inl ⟨by rw [ho.nodup.count, if_pos hm], ?_⟩
    rintro ⟨i, s, hi, rfl⟩
    exact (ho.live i s hi).2 hm
  · refine .inr ⟨List.count_eq_zero.2 hm, ?_⟩
    rcases ho.all id hid with hd | ⟨i, s, hi, e⟩
    · exact absurd hd hm
    · exact ⟨i, ⟨s, hi, e⟩, fun j t hj et => ho.inj j i t s hj hi (et.trans e.symm)⟩

/-- C63. Once no container is alive, every value that was ever constructed has been destroyed
exactly once. -/
theorem C63_no_leak (ops : List AnyOp) (st : AnyState) (es : List Bool)
    (h : runAny .init ops = some (st, es)) (hd : ∀ i, st.objs i = none) (id : Nat) :
    st.destroyed.count id = if id < st.next then 1 else 0 := by
  have ho := owned_run ops _ _ _ owned_init h
  split
  · rename_i hid
    rcases C63_once ops st es h id hid with h₁ | ⟨-, i, ⟨s, hs, -⟩, -⟩
    · exact h₁.1
    · rw [hd i] at hs; cases hs
  · rename_i hid
    exact List.count_eq_zero.2 fun hm => hid (ho.old id hm)

/-- The containers hold the values `s`, none of which is a small one that knows its address. -/
def HoldsValues (st : AnyState) (s : Boxes) : Prop :=
  (∀ i, (st.objs i).map (·.map Stored.value) = s i) ∧
  ∀ i v, st.objs i = some (some v) → (v.small && v.pinned) = false

theorem holds_put {st : AnyState} {s : Boxes} (h : HoldsValues st s) (i : Nat)
    {c : Option (Option Stored)} (hc : ∀ v, c = some (some v) → (v.small && v.pinned) = false) :
    HoldsValues (st.put i c) (s.set i (c.map (·.map Stored.value))) := by
  refine ⟨fun j => ?_, fun j v hj => ?_⟩
  · simp only [AnyState.put, Boxes.set]
    split
    · rfl
    · exact h.1 j
  · simp only [AnyState.put] at hj
    split at hj
    · exact hc v hj
    · exact h.2 j v hj

theorem holds_congr {a c : AnyState} {s t : Boxes} (h : HoldsValues a s) (h₁ : a.objs = c.objs)
    (h₂ : s = t) : HoldsValues c t := by
  subst h₂
  exact ⟨fun i => by rw [← h₁]; exact h.1 i, fun i v hv => h.2 i v (by rw [h₁]; exact hv)⟩

theorem drop_objs (st : AnyState) (c : Option Stored) : (st.drop c).objs = st.objs := by
  cases c <;> rfl

theorem value_step {st : AnyState} {s s' : Boxes} (h : HoldsValues st s) (op : AnyOp)
    (hs : boxOp s op = some s') (hc : ¬CopiesEmpty s op)
    (hp : ∀ i v, op ≠ .make i v true true) :
    ∃ st', op.run st = some (st', false) ∧ HoldsValues st' s' := by
  have hn : ∀ i, s i = none → st.objs i = none := by
    intro i hi
    have := h.1 i
    rw [hi] at this
    cases ho : st.objs i with
    | none => rfl
    | some c => rw [ho] at this; cases this
  have hsm : ∀ i c, s i = some c → ∃ o, st.objs i = some o ∧ o.map Stored.value = c := by
    intro i c hi
    have := h.1 i
    rw [hi] at this
    cases ho : st.objs i with
    | none => rw [ho] at this; cases this
    | some o => rw [ho] at this; exact ⟨o, rfl, by simpa using this⟩
  cases op with
  | empty i =>
    simp only [boxOp] at hs
    split at hs
    · rename_i hi
      cases hs
      simp only [AnyOp.run, hn i hi]
      exact ⟨_, rfl, holds_put h i (c := some none) (by simp)⟩
    · cases hs
  | make i v small pinned =>
    simp only [boxOp] at hs
    split at hs
    · rename_i hi
      cases hs
      simp only [AnyOp.run, hn i hi]
      refine ⟨_, rfl, holds_congr (holds_put h i
        (c := some (some ⟨st.next, v, small, pinned, .var i⟩)) ?_) rfl rfl⟩
      rintro w hw
      cases hw
      cases small <;> cases pinned <;> first | rfl | exact absurd rfl (hp i v)
    · cases hs
  | copy i j =>
    simp only [boxOp] at hs
    split at hs
    · rename_i c hi hj
      cases hs
      obtain ⟨o, ho, hv⟩ := hsm j _ hj
      cases o with
      | none => rw [← hv] at hj; exact absurd hj hc
      | some w =>
        simp only [AnyOp.run, hn i hi, ho, AnyState.clone]
        refine ⟨_, rfl, holds_congr (holds_put h i
          (c := some (some { w with id := st.next, home := .temp })) ?_) rfl ?_⟩
        · rintro u hu; cases hu; exact h.2 j w ho
        · rw [← hv]; rfl
    · cases hs
  | move i j =>
    simp only [boxOp] at hs
    split at hs
    · rename_i c hi hj
      cases hs
      obtain ⟨o, ho, hv⟩ := hsm j _ hj
      simp only [AnyOp.run, hn i hi, ho]
      refine ⟨_, rfl, ?_⟩
      rw [← hv]
      exact holds_put (holds_put h i (c := some o) (by rintro v hv; cases hv; exact h.2 j v ho)) j
        (c := some none) (by simp)
    · cases hs
  | assign i j =>
    simp only [boxOp] at hs
    split at hs
    · rename_i d c hi hj
      cases hs
      obtain ⟨o, ho, hv⟩ := hsm j _ hj
      obtain ⟨old, ho', -⟩ := hsm i _ hi
      cases o with
      | none => rw [← hv] at hj; exact absurd hj hc
      | some w =>
        simp only [AnyOp.run, ho', ho, AnyState.clone]
        refine ⟨_, rfl, holds_congr (holds_put h i
          (c := some (some { w with id := st.next, home := .temp })) ?_) ?_ ?_⟩
        · rintro u hu; cases hu; exact h.2 j w ho
        · rw [drop_objs]; rfl
        · rw [← hv]; rfl
    · cases hs
  | assignMove i j =>
    simp only [boxOp] at hs
    split at hs
    · rename_i d c hi hj
      cases hs
      obtain ⟨o, ho, hv⟩ := hsm j _ hj
      obtain ⟨old, ho', -⟩ := hsm i _ hi
      have hex : ∃ old', (st.put j (some none)).objs i = some old' := by
        simp only [AnyState.put]
        split
        · exact ⟨_, rfl⟩
        · exact ⟨_, ho'⟩
      obtain ⟨old', hold⟩ := hex
      simp only [AnyOp.run, ho', ho, hold]
      refine ⟨_, rfl, holds_congr (holds_put (holds_put h j (c := some none) (by simp)) i
        (c := some o) ?_) (drop_objs _ _).symm ?_⟩
      · rintro u hu; cases hu; exact h.2 j u ho
      · rw [← hv]; rfl
    · cases hs
  | destroy i =>
    simp only [boxOp] at hs
    split at hs
    · cases hs
    · rename_i hi
      cases hs
      cases hi' : s i with
      | none => exact absurd hi' hi
      | some c =>
        obtain ⟨o, ho, -⟩ := hsm i _ hi'
        simp only [AnyOp.run, ho]
        exact ⟨_, rfl, holds_congr (holds_put h i (c := none) (by simp)) (drop_objs _ _).symm rfl⟩

theorem value_run (ops : List AnyOp) : ∀ (st : AnyState) (s s' : Boxes), HoldsValues st s →
    boxRun s ops = some s' → NoEmptyCopy s ops → Relocatable ops →
    ∃ st' es, runAny st ops = some (st', es) ∧ es.all (!·) = true ∧ HoldsValues st' s' := by
  induction ops with
  | nil => intro st s s' h hs _ _; cases hs; exact ⟨st, [], rfl, rfl, h⟩
  | cons op ops ih =>
    intro st s s' h hs hc hp
    unfold boxRun at hs
    cases ho : boxOp s op with
    | none => rw [ho] at hs; cases hs
    | some s₁ =>
      rw [ho] at hs
      obtain ⟨st₁, hr, h₁⟩ := value_step h op ho hc.1
        (by rintro i v rfl; exact hp i v List.mem_cons_self)
      obtain ⟨st', es, hr', he, h'⟩ := ih st₁ s₁ s' h₁ hs (hc.2 s₁ ho)
        (fun i v hm => hp i v (List.mem_cons_of_mem _ hm))
      refine ⟨st', false :: es, ?_, by simpa using he, h'⟩
      unfold runAny
      rw [hr]
      simp [hr']

/-- C63, what holds of the values: if the program copies no empty container and stores no small
value that knows its own address, nothing throws, reading gives the value last stored, and
`has_value` tells whether there is one. Missing: those two kinds of programs, see `C63_false`. -/
theorem C63_value_partial (ops : List AnyOp) (s : Boxes)
    (hs : boxRun (fun _ => none) ops = some s) (hc : NoEmptyCopy (fun _ => none) ops)
    (hp : Relocatable ops) :
    ∃ st es, runAny .init ops = some (st, es) ∧ es.all (!·) = true ∧
      ∀ i, (∀ v, s i = some (some v) → anyGet st i = .ok v ∧ anyHasValue st i = true) ∧
        (s i = some none → anyHasValue st i = false) := by
  obtain ⟨st, es, hr, he, h⟩ := value_run ops .init (fun _ => none) s
    ⟨fun _ => rfl, fun i v hv => (nomatch hv)⟩ hs hc hp
  refine ⟨st, es, hr, he, fun i => ⟨fun v hv => ?_, fun hv => ?_⟩⟩
  · have := h.1 i
    rw [hv] at this
    cases ho : st.objs i with
    | none => rw [ho] at this; cases this
    | some o =>
      cases o with
      | none => rw [ho] at this; cases this
      | some w =>
        rw [ho] at this
        have hw := h.2 i w ho
        simp only [Option.map_some, Option.some.injEq] at this
        unfold anyGet anyHasValue
        simp [ho, hw, this]
  · have := h.1 i
    rw [hv] at this
    unfold anyHasValue
    cases ho : st.objs i with
    | none => rfl
    | some o =>
      cases o with
      | none => rfl
      | some w => rw [ho] at this; cases this

/-- C63, exceptions: an operation throws exactly if it copies or copy-assigns an empty container, and
then it has no effect. -/
theorem C63_throws (st st' : AnyState) (op : AnyOp) (e : Bool) (h : op.run st = some (st', e)) :
    (e = true ↔ ∃ i j, (op = .copy i j ∨ op = .assign i j) ∧ anyHasValue st j = false) ∧
    (e = true → st' = st) := by
  cases op with
  | copy i j =>
    simp only [AnyOp.run] at h
    split at h
    · rename_i c hi hj
      cases c with
      | some x =>
        simp only [AnyState.clone, Option.some.injEq, Prod.mk.injEq] at h
        simp [← h.2, anyHasValue, hj]
      | none =>
        simp only [AnyState.clone, Option.some.injEq, Prod.mk.injEq] at h
        simp only [← h.2, ← h.1]
        exact ⟨⟨fun _ => ⟨i, j, by simp, by simp [anyHasValue, hj]⟩, fun _ => trivial⟩, fun _ => trivial⟩
    · cases h
  | assign i j =>
    simp only [AnyOp.run] at h
    split at h
    · rename_i old c hi hj
      cases c with
      | some x =>
        simp only [AnyState.clone, Option.some.injEq, Prod.mk.injEq] at h
        simp [← h.2, anyHasValue, hj]
      | none =>
        simp only [AnyState.clone, Option.some.injEq, Prod.mk.injEq] at h
        simp only [← h.2, ← h.1]
        exact ⟨⟨fun _ => ⟨i, j, by simp, by simp [anyHasValue, hj]⟩, fun _ => trivial⟩, fun _ => trivial⟩
    · cases h
  | _ =>
    have he : e = false := by
      simp only [AnyOp.run] at h
      repeat' split at h
      all_goals first | cases h; done | (injection h with h; injection h with _ h; exact h.symm)
    simp [he]

example : ((AnyOp.assign 1 0).run (AnyState.init.put 0 (some none) |>.put 1 (some none))).map (·.2) =
    some true := by decide +kernel

/-- The values that the containers hold. -/
def boxesOf (st : AnyState) : Boxes := fun i => (st.objs i).map fun c => c.map (·.value)

theorem boxesOf_put (st : AnyState) (i : Nat) (c : Option (Option Stored)) :
    boxesOf (st.put i c) = (boxesOf st).set i (c.map fun c => c.map (·.value)) := by
  funext j
  simp only [boxesOf, AnyState.put, Boxes.set]
  split <;> rfl

theorem boxesOf_drop (st : AnyState) (c : Option Stored) : boxesOf (st.drop c) = boxesOf st := by
  cases c <;> rfl

theorem boxesOf_next (st : AnyState) (n : Nat) : boxesOf { st with next := n } = boxesOf st := rfl

/-- What an operation does to the values. -/
theorem boxes_step (st : AnyState) (op : AnyOp) :
    (op.run st).map (fun r => (boxesOf r.1, r.2)) =
      (boxOp (boxesOf st) op).map fun s' =>
        if CopiesEmpty (boxesOf st) op then (boxesOf st, true) else (s', false) := by
  cases op with
  | empty i =>
    have hi : boxesOf st i = (st.objs i).map fun c => c.map (·.value) := rfl
    cases h : st.objs i <;> simp [AnyOp.run, boxOp, h, hi, CopiesEmpty, boxesOf_put]
  | make i v a b =>
    have hi : boxesOf st i = (st.objs i).map fun c => c.map (·.value) := rfl
    cases h : st.objs i <;> simp [AnyOp.run, boxOp, h, hi, CopiesEmpty, boxesOf_put, boxesOf_next]
  | copy i j =>
    have hi : boxesOf st i = (st.objs i).map fun c => c.map (·.value) := rfl
    have hj : boxesOf st j = (st.objs j).map fun c => c.map (·.value) := rfl
    rcases h : st.objs i with _ | c <;> rcases h' : st.objs j with _ | (_ | d) <;>
      simp [AnyOp.run, boxOp, h, hi, h', hj, CopiesEmpty, boxesOf_put, boxesOf_next, AnyState.clone]
  | move i j =>
    have hi : boxesOf st i = (st.objs i).map fun c => c.map (·.value) := rfl
    have hj : boxesOf st j = (st.objs j).map fun c => c.map (·.value) := rfl
    cases h : st.objs i <;> cases h' : st.objs j <;>
      simp [AnyOp.run, boxOp, h, hi, h', hj, CopiesEmpty, boxesOf_put]
  | assign i j =>
    have hi : boxesOf st i = (st.objs i).map fun c => c.map (·.value) := rfl
    have hj : boxesOf st j = (st.objs j).map fun c => c.map (·.value) := rfl
    rcases h : st.objs i with _ | c <;> rcases h' : st.objs j with _ | (_ | d) <;>
      simp [AnyOp.run, boxOp, h, hi, h', hj, CopiesEmpty, boxesOf_put, boxesOf_next, boxesOf_drop, AnyState.clone]
  | assignMove i j =>
    have hi : boxesOf st i = (st.objs i).map fun c => c.map (·.value) := rfl
    have hj : boxesOf st j = (st.objs j).map fun c => c.map (·.value) := rfl
    cases h : st.objs i <;> cases h' : st.objs j <;>
      simp [AnyOp.run, boxOp, h, hi, h', hj, CopiesEmpty]
    cases e : (st.put j (some none)).objs i with
    | none =>
      simp only [AnyState.put] at e
      split at e
      · cases e
      · rw [h] at e; cases e
    | some old => simp [boxesOf_put, boxesOf_drop]
  | destroy i =>
    have hi : boxesOf st i = (st.objs i).map fun c => c.map (·.value) := rfl
    cases h : st.objs i <;> simp [AnyOp.run, boxOp, h, hi, CopiesEmpty, boxesOf_put, boxesOf_drop]

/-- Every value held was stored by one of the operations. -/
def FromOps (ops : List AnyOp) (st : AnyState) : Prop :=
  ∀ i u, st.objs i = some (some u) → ∃ k, .make k u.value u.small u.pinned ∈ ops

theorem fromOps_put {ops : List AnyOp} {st : AnyState} (h : FromOps ops st) (i : Nat)
    {c : Option (Option Stored)} (hc : ∀ u, c = some (some u) → ∃ k, .make k u.value u.small u.pinned ∈ ops) :
    FromOps ops (st.put i c) := by
  intro j u hu
  simp only [AnyState.put] at hu
  split at hu
  · exact hc u hu
  · exact h j u hu

theorem fromOps_drop {ops : List AnyOp} {st : AnyState} (h : FromOps ops st) (c : Option Stored) :
    FromOps ops (st.drop c) := by
  intro i u hu
  rw [drop_objs] at hu
  exact h i u hu

theorem fromOps_step {ops : List AnyOp} {st st' : AnyState} {e : Bool} {op : AnyOp} (h : FromOps ops st)
    (hm : op ∈ ops) (hr : op.run st = some (st', e)) : FromOps ops st' := by
  have hn : ∀ n, FromOps ops { st with next := n } := fun n => h
  cases op with
  | empty i =>
    simp only [AnyOp.run] at hr
    split at hr <;> cases hr
    exact fromOps_put h i (by simp)
  | make i v a b =>
    simp only [AnyOp.run] at hr
    split at hr <;> cases hr
    exact fromOps_put (hn _) i (by rintro u hu; cases hu; exact ⟨i, hm⟩)
  | copy i j =>
    simp only [AnyOp.run] at hr
    split at hr
    · rename_i c hi hj
      cases c with
      | none => cases hr; exact h
      | some x => cases hr; exact fromOps_put (hn _) i (by rintro u hu; cases hu; exact h j x hj)
    · cases hr
  | move i j =>
    simp only [AnyOp.run] at hr
    split at hr
    · rename_i c hi hj
      cases hr
      exact fromOps_put (fromOps_put h i (by rintro u hu; cases hu; exact h j u hj)) j (by simp)
    · cases hr
  | assign i j =>
    simp only [AnyOp.run] at hr
    split at hr
    · rename_i c hi hj
      cases c with
      | none => cases hr; exact h
      | some x => cases hr; exact fromOps_drop (fromOps_put (hn _) i (by rintro u hu; cases hu; exact h j x hj)) _
    · cases hr
  | assignMove i j =>
    simp only [AnyOp.run] at hr
    split at hr
    · rename_i c hi hj
      split at hr <;> cases hr
      exact fromOps_drop (fromOps_put (fromOps_put h j (by simp)) i (by rintro u hu; cases hu; exact h j u hj)) _
    · cases hr
  | destroy i =>
    simp only [AnyOp.run] at hr
    split at hr <;> cases hr
    exact fromOps_drop (fromOps_put h i (by simp)) _

theorem boxes_run (all : List AnyOp) : ∀ (ops : List AnyOp) (st : AnyState), (∀ op ∈ ops, op ∈ all) → FromOps all st →
    (runAny st ops).map (fun r => (boxesOf r.1, r.2)) = boxPlay (boxesOf st) ops ∧
      ∀ st' es, runAny st ops = some (st', es) → FromOps all st' := by
  intro ops
  induction ops with
  | nil => intro st _ h; exact ⟨rfl, by rintro st' es hr; cases hr; exact h⟩
  | cons op ops ih =>
    intro st hm h
    have hs := boxes_step st op
    unfold runAny boxPlay
    cases hr : op.run st with
    | none =>
      rw [hr] at hs
      cases hb : boxOp (boxesOf st) op with
      | none => exact ⟨rfl, by rintro st' es hr; cases hr⟩
      | some s' => rw [hb] at hs; cases hs
    | some r =>
      obtain ⟨st₁, e⟩ := r
      rw [hr] at hs
      obtain ⟨i1, i2⟩ := ih st₁ (fun o ho => hm o (List.mem_cons_of_mem _ ho))
        (fromOps_step h (hm op List.mem_cons_self) hr)
      refine ⟨?_, ?_⟩
      · cases hb : boxOp (boxesOf st) op with
        | none => rw [hb] at hs; cases hs
        | some s' =>
          rw [hb] at hs
          simp only [Option.map_some, Option.some.injEq] at hs ⊢
          rw [Option.map_map]
          split at hs <;> rename_i hc <;> simp only [Prod.mk.injEq] at hs
          · rw [if_pos hc, ← hs.1, ← i1, Option.map_map, hs.2]; rfl
          · rw [if_neg hc, ← hs.1, ← i1, Option.map_map, hs.2]; rfl
      · intro st' es he
        simp only at he
        cases hq : runAny st₁ ops with
        | none => rw [hq] at he; cases he
        | some q => rw [hq] at he; cases he; exact i2 _ _ hq

/-- C63, exactly, for every program – also one that copies empty containers or stores values that know
their own address: the operations that throw are the copies of empty containers, `has_value` is right, and
reading never gives a wrong value. It is undefined only for a value that is small and knows its own
address. -/
theorem C63_exact (ops : List AnyOp) :
    (runAny .init ops = none ↔ boxPlay (fun _ => none) ops = none) ∧
    ∀ st es, runAny .init ops = some (st, es) → ∃ s, boxPlay (fun _ => none) ops = some (s, es) ∧
      ∀ i, (anyHasValue st i = true ↔ ∃ v, s i = some (some v)) ∧
        ∀ v, s i = some (some v) →
          anyGet st i = .ok v ∨ anyGet st i = .ub ∧ ∃ k, .make k v true true ∈ ops := by
  obtain ⟨h1, h2⟩ := boxes_run ops ops .init (fun _ h => h) (by intro i u h; cases h)
  have h0 : boxesOf AnyState.init = fun _ => none := rfl
  rw [h0] at h1
  refine ⟨by rw [← h1, Option.map_eq_none_iff], fun st es hr => ?_⟩
  have h3 := h2 st es hr
  rw [hr] at h1
  refine ⟨boxesOf st, h1.symm, fun i => ?_⟩
  unfold anyHasValue anyGet boxesOf
  cases ho : st.objs i with
  | none => simp
  | some c =>
    cases c with
    | none => simp
    | some u =>
      refine ⟨by simp, fun v hv => ?_⟩
      simp only [Option.map_some, Option.some.injEq] at hv
      subst hv
      dsimp only
      split
      · rename_i hc
        simp only [Bool.and_eq_true] at hc
        obtain ⟨k, hk⟩ := h3 i u ho
        rw [hc.1.1, hc.1.2] at hk
        exact .inr ⟨rfl, k, hk⟩
      · exact .inl rfl
/-- A program that copies an empty container and moves a small value that knows its own address: the copy
throws, the value is there but cannot be read, and the other one can. -/
example :
    let ops : List AnyOp := [.empty 0, .make 1 7 true true, .make 2 5 true true, .copy 3 0, .move 4 1]
    ((runAny .init ops).map fun r => (r.2, anyGet r.1 2, anyGet r.1 4, anyHasValue r.1 4)) =
      some ([false, false, false, true, false], .ok 5, .ub, true) ∧
    ((boxPlay (fun _ => none) ops).map fun r => (r.1 2, r.1 4)) = some (some (some 5), some (some 7)) := by
  decide +kernel

/-- C63 as stated is false: copying an empty container throws, and a copy of a small value that
knows its own address is a value whose address is wrong, because the container moves the bytes
instead of calling the move constructor. -/
theorem C63_false :
    ((runAny .init [.empty 0, .copy 1 0]).map (·.2) = some [false, true]) ∧
    ((runAny .init [.make 0 7 true true, .copy 1 0]).map fun r => (anyGet r.1 0, anyGet r.1 1)) =
      some (.ok 7, .ub) ∧
    ((runAny .init [.make 0 7 false true, .copy 1 0]).map fun r => anyGet r.1 1) =
      some (.ok 7) := by
  decide +kernel

/-- A program meeting the hypotheses of `C63_once` and `C63_no_leak`. -/
def anyProgram : List AnyOp :=
  [.make 0 5 true false, .copy 1 0, .move 2 0, .empty 3, .assign 3 2, .assignMove 2 2,
    .assignMove 3 1, .destroy 0, .destroy 1]

example : ((runAny .init anyProgram).map fun r =>
    (r.1.next, r.1.destroyed, r.2.all (!·), anyGet r.1 2, anyGet r.1 3)) =
      some (3, [2], true, .ok 5, .ok 5) ∧
    ((runAny .init (anyProgram ++ [.destroy 2, .destroy 3])).map fun r =>
      (r.1.destroyed, [0, 1, 2, 3].map r.1.objs)) =
      some ([1, 0, 2], [none, none, none, none]) := by
  decide +kernel

example : ((boxRun (fun _ => none) anyProgram).map fun s => [s 1, s 2, s 3]) =
      some [none, some (some 5), some (some 5)] := by
  decide +kernel

example : Relocatable anyProgram := by
  intro i v h
  simp [anyProgram] at h

example : NoEmptyCopy (fun _ => none) anyProgram := by
  simp [anyProgram, NoEmptyCopy, CopiesEmpty, boxOp, Boxes.set]

end Props
end ArgRouter
