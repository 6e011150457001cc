import Verif.Spec.Custom
import Verif.Parse.Mode
import Verif.Lemmas.Leaf

/-!
# C100 – policies written by users
-/

namespace ArgRouter.Props

open Spec

section Sorting

variable {α : Type}

theorem mpSort_perm (lt : α → α → Bool) (n : Nat) (l : List α) : (mpSort lt n l).Perm l := by
  induction n generalizing l with
  | zero => exact .refl _
  | succ n ih =>
    cases l with
    | nil => exact .refl _
    | cons x xs =>
      have h1 := ih (xs.filter fun y => lt y x)
      have h2 := ih (xs.filter fun y => !lt y x)
      have h3 := List.filter_append_perm (fun y => lt y x) xs
      exact List.perm_middle.trans (((h1.append h2).trans h3).cons x)

theorem mpSort_sorted (f : α → Nat) (n : Nat) (l : List α) (hn : l.length ≤ n) :
    (mpSort (fun a b => decide (f b < f a)) n l).Pairwise fun a b => f b ≤ f a := by
  induction n generalizing l with
  | zero =>
    have : l = [] := by cases l <;> simp_all
    subst this; exact .nil
  | succ n ih =>
    cases l with
    | nil => exact .nil
    | cons x xs =>
      simp only [List.length_cons] at hn
      have hl1 := List.length_filter_le (fun y => decide (f x < f y)) xs
      have hl2 := List.length_filter_le (fun y => !decide (f x < f y)) xs
      have h1 := ih (xs.filter fun y => decide (f x < f y)) (by omega)
      have h2 := ih (xs.filter fun y => !decide (f x < f y)) (by omega)
      simp only [mpSort]
      rw [List.pairwise_append, List.pairwise_cons]
      refine ⟨h1, ⟨?_, h2⟩, ?_⟩
      · intro b hb
        have := (mpSort_perm _ _ _).mem_iff.1 hb
        simp only [List.mem_filter, Bool.not_eq_true', decide_eq_false_iff_not] at this
        omega
      · intro a ha b hb
        have ha := (mpSort_perm _ _ _).mem_iff.1 ha
        simp only [List.mem_filter, decide_eq_true_eq] at ha
        rcases List.mem_cons.1 hb with rfl | hb
        · omega
        · have := (mpSort_perm _ _ _).mem_iff.1 hb
          simp only [List.mem_filter, Bool.not_eq_true', decide_eq_false_iff_not] at this
          omega

/-- The sort keeps the order of elements with the same key. -/
theorem mpSort_stable (f : α → Nat) (n : Nat) (l : List α) (k : Nat) :
    (mpSort (fun a b => decide (f b < f a)) n l).filter (fun a => decide (f a = k)) =
      l.filter fun a => decide (f a = k) := by
  induction n generalizing l with
  | zero => rfl
  | succ n ih =>
    cases l with
    | nil => rfl
    | cons x xs =>
      simp only [mpSort, List.filter_append, List.filter_cons, ih, List.filter_filter]
      by_cases hx : f x = k
      · have h1 : xs.filter (fun a => decide (f a = k) && decide (f x < f a)) = [] := by
          rw [List.filter_eq_nil_iff]; intro a _; simp; omega
        have h2 : xs.filter (fun a => decide (f a = k) && !decide (f x < f a)) =
            xs.filter fun a => decide (f a = k) := by
          apply List.filter_congr; intro a _
          by_cases ha : f a = k <;> simp [ha]; omega
        rw [h1, h2]
        simp [hx]
      · simp only [hx, decide_false, Bool.false_eq_true, if_false]
        by_cases hlt : f x < k
        · have h1 : xs.filter (fun a => decide (f a = k) && decide (f x < f a)) =
              xs.filter fun a => decide (f a = k) := by
            apply List.filter_congr; intro a _
            by_cases ha : f a = k <;> simp [ha]; omega
          have h2 : xs.filter (fun a => decide (f a = k) && !decide (f x < f a)) = [] := by
            rw [List.filter_eq_nil_iff]; intro a _; simp; omega
          rw [h1, h2, List.append_nil]
        · have h1 : xs.filter (fun a => decide (f a = k) && decide (f x < f a)) = [] := by
            rw [List.filter_eq_nil_iff]; intro a _; simp; omega
          have h2 : xs.filter (fun a => decide (f a = k) && !decide (f x < f a)) =
              xs.filter fun a => decide (f a = k) := by
            apply List.filter_congr; intro a _
            by_cases ha : f a = k <;> simp [ha]; omega
          rw [h1, h2, List.nil_append]

/-- A list sorted by a key is determined by its parts of equal key. -/
theorem sorted_unique (f : α → Nat) {l l' : List α} (h : l.Pairwise fun a b => f b ≤ f a)
    (h' : l'.Pairwise fun a b => f b ≤ f a)
    (hf : ∀ k, l.filter (fun a => decide (f a = k)) = l'.filter fun a => decide (f a = k)) :
    l = l' := by
  induction l generalizing l' with
  | nil =>
    cases l' with
    | nil => rfl
    | cons y ys => have := hf (f y); simp at this
  | cons x xs ih =>
    cases l' with
    | nil => have := hf (f x); simp at this
    | cons y ys =>
      rw [List.pairwise_cons] at h h'
      have mem : ∀ {a : α}, a ∈ x :: xs ↔ a ∈ y :: ys := by
        intro a
        constructor
        · intro ha
          have : a ∈ (x :: xs).filter fun b => decide (f b = f a) :=
            List.mem_filter.2 ⟨ha, by simp⟩
          rw [hf] at this
          exact (List.mem_filter.1 this).1
        · intro ha
          have : a ∈ (y :: ys).filter fun b => decide (f b = f a) :=
            List.mem_filter.2 ⟨ha, by simp⟩
          rw [← hf] at this
          exact (List.mem_filter.1 this).1
      have hxy : f x = f y := by
        have h1 : f x ≤ f y := by
          rcases List.mem_cons.1 (mem.1 List.mem_cons_self) with e | hm
          · rw [e]; exact Nat.le_refl _
          · exact h'.1 _ hm
        have h2 : f y ≤ f x := by
          rcases List.mem_cons.1 (mem.2 List.mem_cons_self) with e | hm
          · rw [e]; exact Nat.le_refl _
          · exact h.1 _ hm
        omega
      have e := hf (f x)
      simp only [List.filter_cons, decide_true, if_true, hxy] at e
      obtain ⟨rfl, _⟩ := List.cons.inj e
      congr 1
      refine ih h.2 h'.2 fun k => ?_
      have e := hf k
      simp only [List.filter_cons] at e
      split at e
      · exact (List.cons.inj e).2
      · exact e

end Sorting

variable {σ : Type}

theorem prio_eq (p : AnyPolicy σ) : p.prio = importance p := by
  unfold AnyPolicy.prio importance
  cases p.priority <;> rfl

theorem before_eq : (AnyPolicy.before : AnyPolicy σ → AnyPolicy σ → Bool) =
    fun a b => decide (importance b < importance a) := by
  funext a b; simp only [AnyPolicy.before, prio_eq]

theorem turns_filter (ps : List (AnyPolicy σ)) :
    Turns ps ((priorityOrdered ps).filter fun p => p.preParse.isSome) := by
  constructor
  · refine List.Pairwise.filter _ ?_
    rw [priorityOrdered, before_eq]
    exact mpSort_sorted importance _ _ (Nat.le_refl _)
  · intro k
    rw [List.filter_filter]
    have : (fun p : AnyPolicy σ => decide (importance p = k) && p.preParse.isSome) =
        fun p => p.preParse.isSome && decide (importance p = k) := by
      funext p; exact Bool.and_comm _ _
    rw [this, ← List.filter_filter, priorityOrdered, before_eq, mpSort_stable, List.filter_filter]
    apply List.filter_congr
    intro p _
    simp

theorem turns_unique {ps order order' : List (AnyPolicy σ)} (h : Turns ps order)
    (h' : Turns ps order') : order = order' :=
  sorted_unique importance h.sorted h'.sorted fun k => (h.ties k).trans (h'.ties k).symm

/-- C100 (there is exactly one order of turns): every node has one, whatever its policies. -/
theorem C100_one_order (ps : List (AnyPolicy σ)) :
    ∃ order, Turns ps order ∧ ∀ order', Turns ps order' → order' = order :=
  ⟨_, turns_filter ps, fun _ h => turns_unique h (turns_filter ps)⟩

theorem loop_filter (ps : List (AnyPolicy σ)) (m : PreResult) (s : σ) :
    preParseLoop ps m s = preParseLoop (ps.filter fun p => p.preParse.isSome) m s := by
  induction ps generalizing m s with
  | nil => rfl
  | cons p ps ih =>
    cases h : p.preParse with
    | none => simp [preParseLoop, h, ih]
    | some f =>
      simp only [preParseLoop, List.filter_cons, h, Option.isSome_some, if_true]
      simp only [ih]

theorem loop_final (ps : List (AnyPolicy σ)) {m : PreResult} (hm : Final m) (s : σ) :
    preParseLoop ps m s = .ok (m, s) := by
  induction ps with
  | nil => rfl
  | cons p ps ih => cases hm <;> simp only [preParseLoop] <;> split <;> exact ih

/-- The loop's way to put two answers together, tree_node.hpp:569-577. -/
def joined : Action → PreResult → PreResult
  | .skipNodeButUseSubTargets, .ok .validNode => .ok .skipNodeButUseSubTargets
  | _, m => m

theorem joined_final {act : Action} {r : PreResult} (hr : Final r) : joined act r = r := by
  cases hr <;> cases act <;> rfl

theorem joined_goes {act : Action} {r : PreResult} (ha : act ≠ .skipNode) (hr : ¬ Final r) :
    ∃ act', joined act r = .ok act' ∧ act' ≠ .skipNode := by
  rcases r with e | a
  · exact absurd (.error e) hr
  · cases a with
    | skipNode => exact absurd .notMine hr
    | validNode => cases act <;> first | exact absurd rfl ha | exact ⟨_, rfl, by simp⟩
    | skipNodeButUseSubTargets =>
      cases act <;> first | exact absurd rfl ha | exact ⟨_, rfl, by simp⟩

theorem goes_notFinal {act : Action} (ha : act ≠ .skipNode) : ¬ Final (.ok act) := by
  intro h; cases h; exact ha rfl

theorem verdict_joined {act : Action} {r : PreResult} {as : List PreResult} {m : PreResult}
    (ha : act ≠ .skipNode) (hr : ¬ Final r) :
    AmountsTo (joined act r :: as) m ↔ AmountsTo (.ok act :: r :: as) m := by
  rcases r with e | b
  · exact absurd (.error e) hr
  · have hb : b ≠ .skipNode := by rintro rfl; exact hr .notMine
    have n1 := goes_notFinal ha
    have n2 := goes_notFinal hb
    have hs : ¬ Final (.ok .skipNodeButUseSubTargets : PreResult) := goes_notFinal (by simp)
    have hv : ¬ Final (.ok .validNode : PreResult) := goes_notFinal (by simp)
    constructor
    · intro h
      cases h with
      | error h => exact .error (by cases act <;> cases b <;> simp_all [joined])
      | notMine h => exact .notMine (by cases act <;> cases b <;> simp_all [joined])
      | others h1 h2 =>
        refine .others ?_ ?_
        · intro x hx
          rcases List.mem_cons.1 hx with rfl | hx
          · exact n1
          · rcases List.mem_cons.1 hx with rfl | hx
            · exact n2
            · exact h1 x (List.mem_cons_of_mem _ hx)
        · cases act <;> cases b <;> simp_all [joined]
      | mine h =>
        refine .mine ?_
        cases act <;> cases b <;> simp_all [joined] <;> exact h
    · intro h
      cases h with
      | error h => exact .error (by cases act <;> cases b <;> simp_all [joined])
      | notMine h => exact .notMine (by cases act <;> cases b <;> simp_all [joined])
      | others h1 h2 =>
        refine .others ?_ ?_
        · intro x hx
          rcases List.mem_cons.1 hx with rfl | hx
          · obtain ⟨a', e, ha'⟩ := joined_goes ha hr
            rw [e]; exact goes_notFinal ha'
          · exact h1 x (List.mem_cons_of_mem _ (List.mem_cons_of_mem _ hx))
        · cases act <;> cases b <;> simp_all [joined]
      | mine h =>
        refine .mine ?_
        cases act <;> cases b <;> simp_all [joined] <;> exact h

theorem verdict_last {x r m : PreResult} (hx : ¬ Final x) (hr : Final r) (h : AmountsTo [x, r] m) :
    m = r := by
  cases h with
  | @error e h =>
    simp only [List.mem_cons, List.not_mem_nil, or_false] at h
    rcases h with rfl | rfl
    · exact absurd (.error _) hx
    · rfl
  | notMine h =>
    simp only [List.mem_cons, List.not_mem_nil, or_false] at h
    rcases h with rfl | rfl
    · exact absurd .notMine hx
    · rfl
  | others h _ => exact absurd hr (h r (by simp))
  | mine h =>
    have := h r (by simp)
    subst this
    exact absurd hr (goes_notFinal (by simp))

theorem loop_cons {p : AnyPolicy σ} {f : σ → Out (PreResult × σ)} (hf : p.preParse = some f)
    (ps : List (AnyPolicy σ)) {act : Action} (ha : act ≠ .skipNode) (s : σ) :
    preParseLoop (p :: ps) (.ok act) s =
      (f s >>= fun x => preParseLoop ps (joined act x.1) x.2) := by
  cases act with
  | skipNode => exact absurd rfl ha
  | validNode =>
    simp only [preParseLoop, hf]
    cases f s <;> rfl
  | skipNodeButUseSubTargets =>
    simp only [preParseLoop, hf]
    cases f s with
    | ok x =>
      obtain ⟨m, s'⟩ := x
      rcases m with e | a
      · rfl
      · cases a <;> rfl
    | _ => rfl

/-- What the loop does from an answer that is not final. -/
theorem loop_asked (L : List (AnyPolicy σ)) (hL : ∀ p ∈ L, p.preParse.isSome) {act : Action}
    (ha : act ≠ .skipNode) (s : σ) (m : PreResult) (s' : σ) :
    preParseLoop L (.ok act) s = .ok (m, s') ↔
      ∃ calls : List (PhaseCall σ), (∀ c ∈ calls, c.Made) ∧ Linked s calls s' ∧
        calls.map PhaseCall.policy <+: L ∧ (∀ c ∈ calls.dropLast, ¬ Final c.answer) ∧
        (calls.map PhaseCall.policy = L ∨ ∃ c ∈ calls, Final c.answer) ∧
        AmountsTo (.ok act :: calls.map PhaseCall.answer) m := by
  induction L generalizing act s with
  | nil =>
    simp only [preParseLoop, Out.ok.injEq, Prod.mk.injEq]
    constructor
    · rintro ⟨rfl, rfl⟩
      refine ⟨[], by simp, rfl, by simp, by simp, .inl rfl, ?_⟩
      cases act with
      | skipNode => exact absurd rfl ha
      | validNode => exact .mine (by simp)
      | skipNodeButUseSubTargets =>
        exact .others (by simp; exact goes_notFinal (by simp)) (by simp)
    · rintro ⟨calls, _, hl, hp, _, _, hv⟩
      have : calls = [] := by
        have := List.prefix_nil.1 hp
        simpa using this
      subst this
      refine ⟨?_, hl⟩
      cases hv <;> simp_all
  | cons p ps ih =>
    have hps : ∀ q ∈ ps, q.preParse.isSome := fun q hq => hL q (List.mem_cons_of_mem _ hq)
    obtain ⟨f, hf⟩ := Option.isSome_iff_exists.1 (hL p List.mem_cons_self)
    rw [loop_cons hf ps ha s]
    constructor
    · intro h
      cases hfs : f s with
      | ok x =>
        obtain ⟨r, s1⟩ := x
        rw [hfs] at h
        simp only [Out.ok_bind] at h
        by_cases hr : Final r
        · rw [joined_final hr, loop_final ps hr] at h
          cases h
          refine ⟨[⟨p, s, m, s'⟩], ?_, ⟨rfl, rfl⟩, ?_, by simp,
            .inr ⟨_, List.mem_singleton.2 rfl, hr⟩, ?_⟩
          · intro c hc
            cases List.mem_singleton.1 hc
            exact ⟨f, hf, hfs⟩
          · simp
          · cases hr with
            | error e => exact .error (by simp)
            | notMine => exact .notMine (by simp)
        · obtain ⟨act', hj, ha'⟩ := joined_goes ha hr
          rw [hj] at h
          obtain ⟨calls, h1, h2, h3, h4, h5, h6⟩ := (ih hps ha' s1).1 h
          rw [← hj, verdict_joined ha hr] at h6
          refine ⟨⟨p, s, r, s1⟩ :: calls, ?_, ⟨rfl, h2⟩, ?_, ?_, ?_, h6⟩
          · intro c hc
            rcases List.mem_cons.1 hc with rfl | hc
            · exact ⟨f, hf, hfs⟩
            · exact h1 c hc
          · simpa using h3
          · intro c hc
            cases calls with
            | nil => simp at hc
            | cons d ds =>
              simp only [List.dropLast_cons_cons] at hc
              rcases List.mem_cons.1 hc with rfl | hc
              · exact hr
              · exact h4 c hc
          · rcases h5 with h5 | ⟨c, hc, hfin⟩
            · exact .inl (by simp [h5])
            · exact .inr ⟨c, List.mem_cons_of_mem _ hc, hfin⟩
      | throw e => rw [hfs] at h; cases h
      | foreign => rw [hfs] at h; cases h
      | ub => rw [hfs] at h; cases h
      | diverge => rw [hfs] at h; cases h
    · rintro ⟨calls, h1, h2, h3, h4, h5, h6⟩
      cases calls with
      | nil => simp at h5
      | cons c cs =>
        simp only [List.map_cons, List.cons_prefix_cons] at h3
        obtain ⟨hpc, h3⟩ := h3
        obtain ⟨g, hg, hgs⟩ := h1 c List.mem_cons_self
        obtain ⟨hfound, h2⟩ := h2
        rw [hpc, hf] at hg
        cases hg
        rw [hfound] at hgs
        rw [hgs]
        simp only [Out.ok_bind]
        by_cases hr : Final c.answer
        · have hcs : cs = [] := by
            cases cs with
            | nil => rfl
            | cons d ds =>
              exact absurd hr (h4 c (by simp))
          subst hcs
          rw [joined_final hr, loop_final ps hr, show c.left = s' from h2]
          congr 2
          simp only [List.map_cons, List.map_nil] at h6
          exact (verdict_last (goes_notFinal ha) hr h6).symm
        · obtain ⟨act', hj, ha'⟩ := joined_goes ha hr
          rw [hj]
          refine (ih hps ha' c.left).2 ⟨cs, fun d hd => h1 d (List.mem_cons_of_mem _ hd), h2, h3, ?_, ?_, ?_⟩
          · intro d hd
            cases cs with
            | nil => simp at hd
            | cons e es => exact h4 d (by rw [List.dropLast_cons_cons]; exact List.mem_cons_of_mem _ hd)
          · rcases h5 with h5 | ⟨d, hd, hfin⟩
            · simp only [List.map_cons, List.cons.injEq] at h5
              exact .inl h5.2
            · rcases List.mem_cons.1 hd with rfl | hd
              · exact absurd hfin hr
              · exact .inr ⟨d, hd, hfin⟩
          · rw [← hj, verdict_joined ha hr]
            exact h6

theorem verdict_valid {as : List PreResult} {m : PreResult} :
    AmountsTo (.ok .validNode :: as) m ↔ AmountsTo as m := by
  have hv : ¬ Final (.ok .validNode : PreResult) := goes_notFinal (by simp)
  constructor
  · intro h
    cases h with
    | error h => exact .error (by simpa using h)
    | notMine h => exact .notMine (by simpa using h)
    | others h1 h2 =>
      exact .others (fun r hr => h1 r (List.mem_cons_of_mem _ hr)) (by simpa using h2)
    | mine h => exact .mine fun r hr => h r (List.mem_cons_of_mem _ hr)
  · intro h
    cases h with
    | error h => exact .error (List.mem_cons_of_mem _ h)
    | notMine h => exact .notMine (List.mem_cons_of_mem _ h)
    | others h1 h2 =>
      refine .others (fun r hr => ?_) (List.mem_cons_of_mem _ h2)
      rcases List.mem_cons.1 hr with rfl | hr
      · exact hv
      · exact h1 r hr
    | mine h =>
      refine .mine fun r hr => ?_
      rcases List.mem_cons.1 hr with rfl | hr
      · rfl
      · exact h r hr

/-- C100 (who is asked, in which order, and what it amounts to): for every list of policies, with
any priorities and phases, the phases of the node end with the verdict `m` and leave `s'` exactly
when the policies are asked in turn, each on what the one before left, up to the first final answer
or the end, and `m` is what their answers amount to. -/
theorem C100_asked_in_turn {ps order : List (AnyPolicy σ)} (ho : Turns ps order) (s : σ)
    (m : PreResult) (s' : σ) :
    preParsePhases ps s = .ok (m, s') ↔ ∃ calls, Asked order s calls m s' := by
  rw [turns_unique ho (turns_filter ps), preParsePhases, loop_filter,
    loop_asked _ (by simp) (by simp)]
  constructor
  · rintro ⟨calls, h1, h2, h3, h4, h5, h6⟩
    exact ⟨calls, h1, h2, h3, h4, h5, verdict_valid.1 h6⟩
  · rintro ⟨calls, h⟩
    exact ⟨calls, h.made, h.linked, h.inTurn, h.before, h.after, verdict_valid.2 h.verdict⟩

theorem loop_fails (L : List (AnyPolicy σ)) (hL : ∀ p ∈ L, p.preParse.isSome) {act : Action}
    (ha : act ≠ .skipNode) (s : σ) (o : Out (PreResult × σ)) (hok : ∀ x, o ≠ .ok x) :
    preParseLoop L (.ok act) s = o ↔
      ∃ (calls : List (PhaseCall σ)) (p : AnyPolicy σ) (rest : List (AnyPolicy σ)) (s' : σ)
        (f : σ → Out (PreResult × σ)),
        L = calls.map PhaseCall.policy ++ p :: rest ∧ (∀ c ∈ calls, c.Made) ∧
        Linked s calls s' ∧ (∀ c ∈ calls, ¬ Final c.answer) ∧ p.preParse = some f ∧ f s' = o := by
  induction L generalizing act s with
  | nil =>
    simp only [preParseLoop]
    constructor
    · rintro rfl; exact absurd rfl (hok _)
    · rintro ⟨calls, p, rest, s', f, h, _⟩
      exact absurd h.symm (by simp)
  | cons p ps ih =>
    have hps : ∀ q ∈ ps, q.preParse.isSome := fun q hq => hL q (List.mem_cons_of_mem _ hq)
    obtain ⟨f, hf⟩ := Option.isSome_iff_exists.1 (hL p List.mem_cons_self)
    rw [loop_cons hf ps ha s]
    constructor
    · intro h
      by_cases hfs : ∃ x, f s = .ok x
      · obtain ⟨⟨r, s1⟩, hfs⟩ := hfs
        rw [hfs] at h
        simp only [Out.ok_bind] at h
        by_cases hr : Final r
        · rw [joined_final hr, loop_final ps hr] at h
          exact absurd h.symm (hok _)
        · obtain ⟨act', hj, ha'⟩ := joined_goes ha hr
          rw [hj] at h
          obtain ⟨calls, q, rest, s', g, e, h1, h2, h3, h4⟩ := (ih hps ha' s1).1 h
          refine ⟨⟨p, s, r, s1⟩ :: calls, q, rest, s', g, by simp [e], ?_, ⟨rfl, h2⟩, ?_, h4⟩
          · intro c hc
            rcases List.mem_cons.1 hc with rfl | hc
            · exact ⟨f, hf, hfs⟩
            · exact h1 c hc
          · intro c hc
            rcases List.mem_cons.1 hc with rfl | hc
            · exact hr
            · exact h3 c hc
      · refine ⟨[], p, ps, s, f, by simp, by simp, rfl, by simp, hf, ?_⟩
        cases hx : f s with
        | ok x => exact absurd ⟨x, hx⟩ hfs
        | throw e => rw [hx] at h; exact h
        | foreign => rw [hx] at h; exact h
        | ub => rw [hx] at h; exact h
        | diverge => rw [hx] at h; exact h
    · rintro ⟨calls, q, rest, s', g, e, h1, h2, h3, hg, hgs⟩
      cases calls with
      | nil =>
        simp only [List.map_nil, List.nil_append, List.cons.injEq] at e
        obtain ⟨rfl, rfl⟩ := e
        rw [hf] at hg
        cases hg
        rw [show s = s' from h2, hgs]
        cases o with
        | ok x => exact absurd rfl (hok x)
        | _ => rfl
      | cons c cs =>
        simp only [List.map_cons, List.cons_append, List.cons.injEq] at e
        obtain ⟨f', hf', hfs⟩ := h1 c List.mem_cons_self
        rw [← e.1, hf] at hf'
        cases hf'
        rw [h2.1] at hfs
        rw [hfs]
        simp only [Out.ok_bind]
        have hr := h3 c List.mem_cons_self
        obtain ⟨act', hj, ha'⟩ := joined_goes ha hr
        rw [hj]
        exact (ih hps ha' c.left).2 ⟨cs, q, rest, s', g, e.2,
          fun d hd => h1 d (List.mem_cons_of_mem _ hd), h2.2,
          fun d hd => h3 d (List.mem_cons_of_mem _ hd), hg, hgs⟩

/-- C100 (a phase that does not return): whatever else happens (an exception of any kind, undefined
behaviour, a loop) happens exactly when the policy whose turn it is does it, all before it having
been asked and none of them having given a final answer. -/
theorem C100_fails_in_turn {ps order : List (AnyPolicy σ)} (ho : Turns ps order) (s : σ)
    (o : Out (PreResult × σ)) (hok : ∀ x, o ≠ .ok x) :
    preParsePhases ps s = o ↔
      ∃ (calls : List (PhaseCall σ)) (p : AnyPolicy σ) (rest : List (AnyPolicy σ)) (s' : σ)
        (f : σ → Out (PreResult × σ)),
        order = calls.map PhaseCall.policy ++ p :: rest ∧ (∀ c ∈ calls, c.Made) ∧
        Linked s calls s' ∧ (∀ c ∈ calls, ¬ Final c.answer) ∧ p.preParse = some f ∧ f s' = o := by
  rw [turns_unique ho (turns_filter ps), preParsePhases, loop_filter,
    loop_fails _ (by simp) (by simp) s o hok]

/-- C100 ("the user can specify the policies in any order, they will always be evaluated in the same
order"), the part that holds: if the policies with a pre-parse phase have different priorities.
Missing: policies with equal priorities (`C100_false`), among them all that have none. -/
theorem C100_any_order_partial {ps ps' : List (AnyPolicy σ)} (hp : ps.Perm ps')
    (hd : ((ps.filter fun p => p.preParse.isSome).map importance).Nodup) (s : σ) :
    preParsePhases ps s = preParsePhases ps' s := by
  have e : (priorityOrdered ps).filter (fun p => p.preParse.isSome) =
      (priorityOrdered ps').filter fun p => p.preParse.isSome := by
    refine turns_unique (ps := ps') ?_ (turns_filter ps')
    refine ⟨(turns_filter ps).sorted, fun k => ?_⟩
    rw [(turns_filter ps).ties k]
    have hp' := hp.filter fun p => decide (p.preParse.isSome ∧ importance p = k)
    have hlen : (ps.filter fun p => decide (p.preParse.isSome ∧ importance p = k)).length ≤ 1 := by
      have hd' : ∀ l : List (AnyPolicy σ), (l.map importance).Nodup →
          (l.filter fun p => decide (importance p = k)).length ≤ 1 := by
        intro l hl
        induction l with
        | nil => simp
        | cons x xs ih =>
          simp only [List.map_cons, List.nodup_cons, List.mem_map, not_exists, not_and] at hl
          rw [List.filter_cons]
          split
          · rename_i hx
            have hx : importance x = k := by simpa using hx
            have : xs.filter (fun p => decide (importance p = k)) = [] := by
              rw [List.filter_eq_nil_iff]
              intro y hy hyk
              exact hl.1 y hy (by simp at hyk; rw [hyk, hx])
            simp [this]
          · exact ih hl.2
      have := hd' _ hd
      rw [List.filter_filter] at this
      refine Nat.le_trans (Nat.le_of_eq ?_) this
      congr 1
      apply List.filter_congr
      intro p _
      simp [Bool.and_comm]
    generalize ps.filter (fun p => decide (p.preParse.isSome ∧ importance p = k)) = l at hp' hlen
    generalize ps'.filter (fun p => decide (p.preParse.isSome ∧ importance p = k)) = l' at hp'
    match l, hlen with
    | [], _ => exact hp'.nil_eq
    | [x], _ => exact List.singleton_perm.1 hp'
  rw [preParsePhases, loop_filter, e, ← loop_filter, ← preParsePhases]

/-- Two policies without a priority that report different errors. -/
def complaint (n : Nat) : AnyPolicy Unit :=
  ⟨none, some fun _ => .ok (.error ⟨.unknown_argument, List.replicate n ⟨.none, []⟩⟩, ()), none⟩

/-- C100 is false as documented: of two policies without a priority the one that is declared first
is evaluated first, so that the error depends on the order of declaration. -/
theorem C100_false : ¬ ∀ (ps ps' : List (AnyPolicy Unit)), ps.Perm ps' →
    preParsePhases ps () = preParsePhases ps' () := by
  intro h
  have := h [complaint 0, complaint 1] [complaint 1, complaint 0] (List.Perm.swap _ _ _)
  have h1 : preParsePhases [complaint 0, complaint 1] () =
      .ok (.error ⟨.unknown_argument, []⟩, ()) := rfl
  have h2 : preParsePhases [complaint 1, complaint 0] () =
      .ok (.error ⟨.unknown_argument, [⟨.none, []⟩]⟩, ()) := rfl
  rw [h1, h2] at this
  simp at this

theorem validation_ok (ps : List (AnyPolicy σ)) (v : Value) :
    validationPhases ps v = .ok () ↔ ∀ p ∈ ps, ∀ f, p.validate = some f → f v = .ok () := by
  induction ps with
  | nil => simp [validationPhases]
  | cons p ps ih =>
    cases h : p.validate with
    | none => simp [validationPhases, h, ih]
    | some f =>
      simp only [validationPhases, h, List.mem_cons, forall_eq_or_imp, Option.some.injEq,
        forall_eq', ← ih]
      cases hf : f v with
      | ok u => cases u; simp
      | _ => simp

/-- C100 (validation): a value passes exactly when every policy that validates lets it pass. -/
theorem C100_validation (ps : List (AnyPolicy σ)) (v : Value) :
    validationPhases ps v = .ok () ↔ ∀ p ∈ ps, ∀ f, p.validate = some f → f v = .ok () :=
  validation_ok ps v

/-- C100 (which objection is reported): the one of the first policy, in the order of declaration,
that does not let the value pass. -/
theorem C100_objection (ps : List (AnyPolicy σ)) (v : Value) (o : Out Unit) (ho : o ≠ .ok ()) :
    validationPhases ps v = o ↔ ∃ before p after f, ps = before ++ p :: after ∧
      p.validate = some f ∧ f v = o ∧
      ∀ q ∈ before, ∀ g, q.validate = some g → g v = .ok () := by
  induction ps with
  | nil =>
    simp only [validationPhases]
    constructor
    · rintro rfl; exact absurd rfl ho
    · rintro ⟨b, p, a, f, h, _⟩; exact absurd h.symm (by simp)
  | cons p ps ih =>
    constructor
    · intro h
      cases hp : p.validate with
      | none =>
        simp only [validationPhases, hp] at h
        obtain ⟨b, q, a, f, rfl, h1, h2, h3⟩ := ih.1 h
        refine ⟨p :: b, q, a, f, rfl, h1, h2, ?_⟩
        intro r hr g hg
        rcases List.mem_cons.1 hr with rfl | hr
        · rw [hp] at hg; cases hg
        · exact h3 r hr g hg
      | some f =>
        simp only [validationPhases, hp] at h
        by_cases hf : f v = .ok ()
        · rw [hf] at h
          obtain ⟨b, q, a, f', rfl, h1, h2, h3⟩ := ih.1 h
          refine ⟨p :: b, q, a, f', rfl, h1, h2, ?_⟩
          intro r hr g hg
          rcases List.mem_cons.1 hr with rfl | hr
          · rw [hp] at hg; cases hg; exact hf
          · exact h3 r hr g hg
        · refine ⟨[], p, ps, f, rfl, hp, ?_, by simp⟩
          cases hx : f v with
          | ok u => cases u; exact absurd hx hf
          | throw e => rw [hx] at h; exact h
          | foreign => rw [hx] at h; exact h
          | ub => rw [hx] at h; exact h
          | diverge => rw [hx] at h; exact h
    · rintro ⟨b, q, a, f, e, h1, h2, h3⟩
      cases b with
      | nil =>
        simp only [List.nil_append, List.cons.injEq] at e
        obtain ⟨rfl, rfl⟩ := e
        simp only [validationPhases, h1, h2]
        cases o with
        | ok u => cases u; exact absurd rfl ho
        | _ => rfl
      | cons c cs =>
        simp only [List.cons_append, List.cons.injEq] at e
        obtain ⟨rfl, e⟩ := e
        have hr := ih.2 ⟨cs, q, a, f, e, h1, h2,
          fun q hq => h3 q (List.mem_cons_of_mem _ hq)⟩
        cases hp : p.validate with
        | none => simpa only [validationPhases, hp] using hr
        | some g =>
          have := h3 p List.mem_cons_self g hp
          simp only [validationPhases, hp, this, Out.ok_bind]
          exact hr

/-- A policy with a priority whose validation phase objects to every value. -/
def objector (k : Nat) : AnyPolicy Unit :=
  ⟨some k, none, some fun _ => .throw ⟨.unknown_argument, List.replicate k ⟨.none, []⟩⟩⟩

/-- C100 is false of the validation phases even for policies with different priorities: they are
called in the order of declaration, so that the error depends on that. -/
theorem C100_validation_false : ¬ ∀ (ps ps' : List (AnyPolicy Unit)) (v : Value), ps.Perm ps' →
    (ps.map importance).Nodup → validationPhases ps v = validationPhases ps' v := by
  intro h
  have := h [objector 0, objector 1] [objector 1, objector 0] (.many []) (List.Perm.swap _ _ _)
    (by decide)
  have h1 : validationPhases [objector 0, objector 1] (.many []) =
      .throw ⟨.unknown_argument, []⟩ := rfl
  have h2 : validationPhases [objector 1, objector 0] (.many []) =
      .throw ⟨.unknown_argument, [⟨.none, []⟩]⟩ := rfl
  rw [h1, h2] at this
  simp at this

/-! ### The policies of the library -/

theorem sort_same {k : Nat} (l : List Policy) (h : ∀ p ∈ l, p.priority = k) :
    sortPolicies l = l := by
  induction l with
  | nil => rfl
  | cons p ps ih =>
    rw [sortPolicies, ih fun q hq => h q (List.mem_cons_of_mem _ hq)]
    refine insertPriority_head fun q hq => ?_
    rw [h q (List.mem_cons_of_mem _ hq), h p List.mem_cons_self]
    exact Nat.le_refl _

theorem priorityOrdered_library (g : Policy → AnyPolicy σ) (hg : ∀ p, importance (g p) = p.priority)
    (ps : List Policy) : priorityOrdered (ps.map g) = (sortPolicies ps).map g := by
  refine sorted_unique importance ?_ ?_ fun k => ?_
  · rw [priorityOrdered, before_eq]
    exact mpSort_sorted importance _ _ (Nat.le_refl _)
  · rw [List.pairwise_map]
    refine (sortPolicies_desc ps).imp ?_
    intro a b h
    rw [hg, hg]; exact h
  · rw [priorityOrdered, before_eq, mpSort_stable, List.filter_map, List.filter_map]
    congr 1
    have : ((fun p => decide (importance p = k)) ∘ g) = fun p : Policy => decide (p.priority = k) := by
      funext p; simp only [Function.comp, hg]
    rw [this, sortPolicies_filter]
    exact (sort_same (k := k) _ fun p hp => by simpa using (List.mem_filter.1 hp).2).symm

/-- The loop for the policies of the library is the loop for any policies. -/
theorem runPhases_library (cfg : Config) (owner : Node) (parents : List Node)
    (processed : Option Target) (ps : List Policy) (m : PreResult) (a : Adapter)
    (subs : List Leaf) :
    runPhases cfg owner parents processed ps m a subs =
      preParseLoop (ps.map (Policy.asAny cfg owner parents processed)) m (a, subs) := by
  induction ps generalizing m a subs with
  | nil => rfl
  | cons p ps ih =>
    simp only [runPhases, List.map_cons, preParseLoop, Policy.asAny]
    by_cases hp : p.hasPreParse
    · simp only [hp, if_true]
      rcases m with e | act
      · exact (loop_final _ (.error e) _).symm
      · cases act with
        | skipNode => exact (loop_final _ .notMine _).symm
        | validNode =>
          simp only []
          cases p.phase cfg owner parents processed a subs with
          | ok x => obtain ⟨m', a', subs'⟩ := x; exact ih _ _ _
          | _ => rfl
        | skipNodeButUseSubTargets =>
          simp only []
          cases p.phase cfg owner parents processed a subs with
          | ok x =>
            obtain ⟨m', a', subs'⟩ := x
            rcases m' with e | b
            · exact ih _ _ _
            · cases b <;> exact ih _ _ _
          | _ => rfl
    · simp only [hp, Bool.false_eq_true, if_false]
      exact ih _ _ _

/-- C100 (the policies of the library are policies like any other): what a node of the library does
is what a node with any policies does. -/
theorem C100_library (cfg : Config) (n : Node) (parents : List Node) (args : List Token)
    (processed : Option Target) (validator : Validator) :
    leafPreParse cfg n parents args processed validator =
      customPreParse cfg n (n.policies.map (Policy.asAny cfg n parents processed)) args
        validator := by
  have : runPhases cfg n parents processed (sortPolicies n.policies) (.ok .validNode) ⟨[], args⟩ [] =
      preParsePhases (n.policies.map (Policy.asAny cfg n parents processed)) (⟨[], args⟩, []) := by
    rw [runPhases_library, preParsePhases, priorityOrdered_library]
    intro p; rfl
  unfold leafPreParse customPreParse
  rw [this]
  rfl

/-- C100 (where a policy of one's own comes among those of the library): these policies of the library
have a pre-parse phase, with these priorities; and of two policies that take their turns, the one with
the higher priority comes first. -/
theorem C100_library_turns :
    (∀ (cfg : Config) (n : Node) (parents : List Node) (processed : Option Target) (p : Policy)
      (k : Nat), ((p.asAny cfg n parents processed).preParse.isSome ∧
        importance (p.asAny cfg n parents processed) = k) ↔ LibraryTurn p k) ∧
    ∀ (ps order : List (AnyPolicy σ)), Turns ps order → ∀ (i j : Nat) (p q : AnyPolicy σ),
      order[i]? = some p → order[j]? = some q → importance q < importance p → i < j := by
  refine ⟨fun cfg n parents processed p k => ?_, fun ps order h i j p q hp hq hlt => ?_⟩
  · constructor
    · rintro ⟨h1, rfl⟩
      cases p <;> simp [Policy.asAny, Policy.hasPreParse] at h1 <;> constructor
    · intro h
      cases h <;> simp [Policy.asAny, Policy.hasPreParse, importance, Policy.priority]
  · rcases Nat.lt_trichotomy i j with h' | rfl | h'
    · exact h'
    · rw [hp] at hq; cases hq; omega
    · obtain ⟨hj, rfl⟩ := List.getElem?_eq_some_iff.1 hq
      obtain ⟨hi, rfl⟩ := List.getElem?_eq_some_iff.1 hp
      have := List.pairwise_iff_getElem.1 h.sorted j i hj hi h'
      omega

/-- C100 (the same for the validation phases). -/
theorem C100_library_validation (cfg : Config) (n : Node) (parents : List Node)
    (processed : Option Target) (v : Value) (ps : List Policy) :
    runValidation n v ps =
      M.lift (validationPhases (ps.map (Policy.asAny cfg n parents processed)) v) := by
  induction ps with
  | nil => rfl
  | cons p ps ih =>
    cases p with
    | minMaxValue lo hi less =>
      simp only [runValidation, List.map_cons, validationPhases, Policy.asAny]
      split
      · rfl
      · split
        · rfl
        · exact ih
    | validation t f =>
      simp only [runValidation, List.map_cons, validationPhases, Policy.asAny]
      rw [ih]
      funext s
      simp only [M.bind_apply, M.lift_apply]
      cases f v <;> rfl
    | _ => exact ih

/-! ### What the node makes of the verdict -/

theorem label_iff (cfg : Config) (n : Node) {m : PreResult} (hm : m ≠ .ok .skipNode)
    (hm' : m ≠ .ok .skipNodeButUseSubTargets) (a : Adapter) :
    (OwnLabel cfg n a → ∃ a', checkLabel cfg n m a = some a' ∧
      Takes n a (if n.isNamed then a'.processed.tail else a'.processed) a'.unprocessed) ∧
    (¬ OwnLabel cfg n a → checkLabel cfg n m a = none) := by
  have hc : checkLabel cfg n m a = checkLabel cfg n (.ok .validNode) a := by
    rcases m with e | b
    · rfl
    · cases b with
      | skipNode => exact absurd rfl hm
      | validNode => rfl
      | skipNodeButUseSubTargets => exact absurd rfl hm'
  rw [hc]
  cases hn : n.isNamed with
  | false =>
    refine ⟨fun _ => ⟨a, by simp [checkLabel, hn], ?_⟩, fun h => absurd (fun h' => ?_) h⟩
    · obtain ⟨p, u⟩ := a
      simpa using Takes.unnamed (n := n) p u hn
    · rw [hn] at h'; cases h'
  | true =>
    have key : ∀ (t : Token) (rest us : List Token),
        (n.matchToken t = true ∧ t.pre ≠ .none ∨
          t.pre = .none ∧ n.matchToken (n.getToken cfg t.name) = true) ↔
        n.matchToken (if t.pre == .none then n.getToken cfg t.name else t) = true := by
      intro t _ _
      cases t.pre <;> simp
    obtain ⟨p, u⟩ := a
    have lab : OwnLabel cfg n ⟨p, u⟩ ↔ ∃ t rest, p ++ u = t :: rest ∧
        n.matchToken (if t.pre == .none then n.getToken cfg t.name else t) = true := by
      constructor
      · intro h
        obtain ⟨t, rest, e, h⟩ := h hn
        exact ⟨t, rest, e, (key t [] []).1 h⟩
      · rintro ⟨t, rest, e, h⟩ _
        exact ⟨t, rest, e, (key t [] []).2 h⟩
    rw [lab]
    cases p with
    | nil =>
      cases u with
      | nil =>
        refine ⟨?_, fun _ => by simp [checkLabel, hn]⟩
        rintro ⟨t, rest, e, _⟩
        simp at e
      | cons x us =>
        constructor
        · rintro ⟨t, rest, e, h⟩
          simp only [List.nil_append, List.cons.injEq] at e
          obtain ⟨rfl, rfl⟩ := e
          refine ⟨⟨[if x.pre == .none then n.getToken cfg x.name else x], us⟩, ?_, ?_⟩
          · simp only [checkLabel, hn, if_true]
            exact if_pos h
          · exact Takes.label x us hn
        · intro h
          simp only [checkLabel, hn, if_true]
          refine if_neg fun h' => h ⟨x, us, rfl, h'⟩
    | cons x xs =>
      constructor
      · rintro ⟨t, rest, e, h⟩
        simp only [List.cons_append, List.cons.injEq] at e
        obtain ⟨rfl, rfl⟩ := e
        refine ⟨⟨(if x.pre == .none then n.getToken cfg x.name else x) :: xs, u⟩, ?_, ?_⟩
        · simp only [checkLabel, hn, if_true]
          exact if_pos h
        · exact Takes.named x xs u hn
      · intro h
        simp only [checkLabel, hn, if_true]
        refine if_neg fun h' => h ⟨x, xs ++ u, rfl, h'⟩

/-- C100 (what the verdict means for the node), for any policies. `a` and `subs` are what the
policies left.
* "Not mine": the node takes nothing.
* An error: it is thrown if and only if the label is the node's (or the node has none) and the
  caller wants the node; otherwise the node takes nothing.
* "Mine": the same condition decides whether the node takes the tokens.
* "Use the sub-targets": there is no label to check. -/
theorem C100_node (cfg : Config) (n : Node) (ps : List (AnyPolicy (Adapter × List Leaf)))
    (args : List Token) (validator : Validator) (s : St) (m : PreResult) (a : Adapter)
    (subs : List Leaf) (h : preParsePhases ps (⟨[], args⟩, []) = .ok (m, a, subs)) (b : Bool)
    (s' : St) (hv : validator n s = (.ok b, s')) :
    match m with
    | .ok .skipNode => customPreParse cfg n ps args validator s = (.ok none, s)
    | .error e =>
      (OwnLabel cfg n a → b = true → customPreParse cfg n ps args validator s = (.throw e, s')) ∧
      (¬ OwnLabel cfg n a → customPreParse cfg n ps args validator s = (.ok none, s)) ∧
      (b = false → ∃ s'', customPreParse cfg n ps args validator s = (.ok none, s''))
    | .ok .validNode =>
      (OwnLabel cfg n a → b = true → ∃ vs rest, Takes n a vs rest ∧
        customPreParse cfg n ps args validator s = (.ok (some (⟨n, vs, subs⟩, rest)), s')) ∧
      (¬ OwnLabel cfg n a → customPreParse cfg n ps args validator s = (.ok none, s)) ∧
      (b = false → ∃ s'', customPreParse cfg n ps args validator s = (.ok none, s''))
    | .ok .skipNodeButUseSubTargets =>
      customPreParse cfg n ps args validator s =
        if b then
          (.ok (some (⟨n, a.processed.drop (if n.isNamed then 1 else 0), subs⟩, a.unprocessed)), s')
        else (.ok none, s') := by
  have hx : customPreParse cfg n ps args validator s =
      (match checkLabel cfg n m a with
      | none => pure none
      | some a => do
        if !(← validator n) then pure none
        else
          match m with
          | .error e => M.throw e
          | .ok _ =>
            let tokens := if n.isNamed then a.processed.tail else a.processed
            pure (some (⟨n, tokens, subs⟩, a.unprocessed)) : M _) s := by
    simp only [customPreParse, M.bind_apply, M.lift, h]
    rfl
  have hno : checkLabel cfg n m a = none → customPreParse cfg n ps args validator s = (.ok none, s) := by
    intro hc; rw [hx, hc]; rfl
  have hfalse : b = false → ∃ s'', customPreParse cfg n ps args validator s = (.ok none, s'') := by
    rintro rfl
    rw [hx]
    cases checkLabel cfg n m a with
    | none => exact ⟨s, rfl⟩
    | some a' =>
      refine ⟨s', ?_⟩
      simp only [M.bind_apply, hv]
      rfl
  rcases m with e | act
  · obtain ⟨h1, h2⟩ := label_iff cfg n (m := .error e) (by simp) (by simp) a
    refine ⟨fun hl hb => ?_, fun hl => hno (h2 hl), hfalse⟩
    obtain ⟨a', hc, _⟩ := h1 hl
    subst hb
    rw [hx, hc]
    simp only [M.bind_apply, hv]
    rfl
  · cases act with
    | skipNode => exact hno rfl
    | validNode =>
      obtain ⟨h1, h2⟩ := label_iff cfg n (m := .ok .validNode) (by simp) (by simp) a
      refine ⟨fun hl hb => ?_, fun hl => hno (h2 hl), hfalse⟩
      obtain ⟨a', hc, ht⟩ := h1 hl
      subst hb
      refine ⟨_, _, ht, ?_⟩
      rw [hx, hc]
      simp only [M.bind_apply, hv]
      rfl
    | skipNodeButUseSubTargets =>
      simp only []
      rw [hx]
      simp only [checkLabel, M.bind_apply, hv]
      cases b with
      | false => rfl
      | true =>
        cases n.isNamed <;> simp <;> rfl

/-! ### An instance

Three policies on a log of who was asked: one without a priority, declared first, one that takes the
tokens for somebody else, one that says that the tokens are the node's. -/

/-- Writes its number to the log and answers. -/
def logger (k : Option Nat) (i : Nat) (r : PreResult) : AnyPolicy (List Nat) :=
  ⟨k, some fun l => .ok (r, l ++ [i]), none⟩

/-- Takes no part in this phase. -/
def bystander : AnyPolicy (List Nat) := ⟨some 950, none, none⟩

def loggers : List (AnyPolicy (List Nat)) :=
  [logger none 1 (.ok .validNode), bystander, logger (some 100) 2 (.ok .skipNodeButUseSubTargets),
    logger (some 900) 3 (.ok .validNode)]

theorem loggers_turns : Turns loggers [logger (some 900) 3 (.ok .validNode),
    logger (some 100) 2 (.ok .skipNodeButUseSubTargets), logger none 1 (.ok .validNode)] :=
  turns_filter loggers

example : preParsePhases loggers [] = .ok (.ok .skipNodeButUseSubTargets, [3, 2, 1]) := rfl

example : ∃ calls, Asked [logger (some 900) 3 (.ok .validNode),
    logger (some 100) 2 (.ok .skipNodeButUseSubTargets), logger none 1 (.ok .validNode)] [] calls
    (.ok .skipNodeButUseSubTargets) [3, 2, 1] :=
  (C100_asked_in_turn loggers_turns _ _ _).1 rfl

/-- The hypothesis of `C100_any_order_partial` holds of them. -/
example : ((loggers.filter fun p => p.preParse.isSome).map importance).Nodup := by decide

example : preParsePhases loggers.reverse [] = preParsePhases loggers [] :=
  C100_any_order_partial (List.reverse_perm _) (by decide) _

/-- One that throws: those before it have been asked, those after it not. -/
example : preParsePhases (⟨some 500, some fun _ => .foreign, none⟩ :: loggers) [] = .foreign := rfl

example : validationPhases [objector 1, objector 2] (.many []) =
    .throw ⟨.unknown_argument, [⟨.none, []⟩]⟩ := rfl

/-- A node with a name and one policy, which reports an error: on a command line that begins with
another name the error is not thrown. -/
def grumpyNode : Node :=
  .mk .flag 1 1 ⟨false, .one (.bool false), fun _ => .ok (.bool true)⟩ [.longName (b "ab")] []

def grumpy : AnyPolicy (Adapter × List Leaf) :=
  ⟨none, some fun s => .ok (.error ⟨.unknown_argument, []⟩, s), none⟩

example : (match customPreParse Config.default grumpyNode [grumpy] [⟨.none, b "--ab"⟩] alwaysTrue
    St.fresh with
    | (.throw e, _) => e == ⟨.unknown_argument, []⟩
    | _ => false) = true := by decide +kernel

example : (match customPreParse Config.default grumpyNode [grumpy] [⟨.none, b "--ac"⟩] alwaysTrue
    St.fresh with
    | (.ok none, _) => true
    | _ => false) = true := by decide +kernel

end ArgRouter.Props
