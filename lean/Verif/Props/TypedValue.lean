import Verif.Props.TypedAlias

/-!
# Other values

C119: another value of an argument makes a difference to nothing else.
-/

namespace ArgRouter.Props

open Spec

variable {cfg : Config} {depth : Nat} {root mode : Node} {names : List Bytes}

/-- Whole arguments are accepted or not, whatever follows them. -/
theorem before_any (ho : Ordinary mode) {before : List TypedArg}
    (hb : ∀ x ∈ before, x.Fits cfg mode) {rest : List Token} {r : Result} {c : Choices} :
    ∀ {chosen : Choices} {sofar : List Leaf} {used : List Nat},
    weight (before.flatMap TypedArg.tokens ++ rest) < 2 ^ 63 →
    (Expanding mode → ∀ t ∈ before.flatMap TypedArg.tokens ++ rest, Readable cfg t) →
    Reading cfg mode chosen sofar used (before.flatMap TypedArg.tokens ++ rest) r c →
    (∃ e, r = .fails e ∧ ∀ rest', Reading cfg mode chosen sofar used
      (before.flatMap TypedArg.tokens ++ rest') (.fails e) c) ∨
    ∃ ch b used', Reading cfg mode ch (sofar ++ b) used' rest r c ∧
      ∀ rest' r' c', Reading cfg mode ch (sofar ++ b) used' rest' r' c' →
        Reading cfg mode chosen sofar used (before.flatMap TypedArg.tokens ++ rest') r' c' := by
  induction before with
  | nil =>
    intro chosen sofar used _ _ h
    exact .inr ⟨chosen, [], used, by simpa using h, fun _ _ _ h => by simpa using h⟩
  | cons x before ih =>
    intro chosen sofar used hw hread hr
    have hx := hb x List.mem_cons_self
    simp only [List.flatMap_cons, List.append_assoc] at hw hread hr ⊢
    rcases stops_or_goes mode x chosen sofar used with ⟨e, ce, hs⟩ | hg
    · obtain ⟨h, rfl⟩ := reading_unique ho (piece_stops hx hs _) hw hread hr
      exact .inl ⟨e, h.symm, fun rest' => piece_stops hx hs _⟩
    · rcases ih (fun y hy => hb y (List.mem_cons_of_mem _ hy))
        (by rw [weight_append] at hw; omega) (fun he t ht => hread he t (List.mem_append_right _ ht))
        (piece_inv hx ho hg hw hread hr) with ⟨e, h1, h2⟩ | ⟨ch, b', used', h1, h2⟩
      · exact .inl ⟨e, h1, fun rest' => piece_goes hx hg (h2 rest')⟩
      · exact .inr ⟨ch, x.uses mode ++ b', used', by simpa using h1, fun rest' r' c' h =>
          piece_goes hx hg (h2 rest' r' c' (by simpa using h))⟩

/-! ## Values -/

/-- What is collected, if one child that can only be given once has got another value. -/
theorem collectOf_changed {cs : List Node} {i : Nat} {ls : List Leaf}
    (honce : ∀ h c n, findChild h cs 0 = some (i, c, n) → n.isMultiStage = false) {v v' : Value}
    {rs rs' : List (Option Value)} (hl : rs.length = rs'.length)
    (hi : gotOf rs i = some v) (hi' : gotOf rs' i = some v')
    (hg : ∀ j, j ≠ i → gotOf rs j = gotOf rs' j) :
    (∃ ra ra', collectOf cs ls rs = .ok ra ∧ collectOf cs ls rs' = .ok ra' ∧
      gotOf ra i = some v ∧ gotOf ra' i = some v' ∧ ∀ j, j ≠ i → gotOf ra j = gotOf ra' j) ∨
    (collectOf cs ls rs' = collectOf cs ls rs ∧ ∀ x, collectOf cs ls rs ≠ .ok x) := by
  induction ls generalizing rs rs' with
  | nil => exact .inl ⟨rs, rs', rfl, rfl, hi, hi', hg⟩
  | cons l ls ih =>
    simp only [collectOf]
    cases valueOf l with
    | ok w =>
      simp only [Out.ok_bind]
      cases hf : findChild l.node.hash cs 0 with
      | none => exact ih hl hi hi' hg
      | some x =>
        obtain ⟨j, c, n⟩ := x
        dsimp only
        by_cases hj : j = i
        · subst hj
          rw [honce _ _ _ hf, hi, hi']
          simp only [Option.isSome_some, Bool.false_eq_true, if_false, if_true]
          split
          · exact ih hl hi hi' hg
          · exact .inr ⟨rfl, by simp⟩
        · rw [← hg j hj]
          have hset : ∀ o : Option Value,
              (∃ ra ra', collectOf cs ls (rs.set j o) = .ok ra ∧ collectOf cs ls (rs'.set j o) = .ok ra' ∧
                gotOf ra i = some v ∧ gotOf ra' i = some v' ∧ ∀ k, k ≠ i → gotOf ra k = gotOf ra' k) ∨
              (collectOf cs ls (rs'.set j o) = collectOf cs ls (rs.set j o) ∧
                ∀ x, collectOf cs ls (rs.set j o) ≠ .ok x) := by
            intro o
            refine ih (by simp [hl]) ?_ ?_ ?_
            · rw [gotOf_set', if_neg (fun h => hj h.1), hi]
            · rw [gotOf_set', if_neg (fun h => hj h.1), hi']
            · intro k hk
              rw [gotOf_set', gotOf_set', hl, hg k hk]
          split
          · exact ih hl hi hi' hg
          · split
            · exact hset _
            · split
              · exact .inr ⟨rfl, by simp⟩
              · exact hset _
    | throw e => exact .inr ⟨rfl, by simp⟩
    | foreign => exact .inr ⟨rfl, by simp⟩
    | ub => exact .inr ⟨rfl, by simp⟩
    | diverge => exact .inr ⟨rfl, by simp⟩

/-- One after the other, where only one gives something else. -/
theorem oneByOne_changed {α β : Type} {f g : α → Out β} {P : α → Prop} {v v' : β} {as : List α}
    (hP : ∀ a ∈ as, P a → f a = .ok v ∧ g a = .ok v') (hn : ∀ a ∈ as, ¬ P a → f a = g a) :
    (∃ ys ys', oneByOne f as = .ok ys ∧ oneByOne g as = .ok ys' ∧ ys.length = as.length ∧
      ys'.length = as.length ∧ ∀ (k : Nat) a, as[k]? = some a → (P a → ys[k]? = some v ∧ ys'[k]? = some v') ∧
        (¬ P a → ys[k]? = ys'[k]?)) ∨
    (oneByOne g as = oneByOne f as ∧ ∀ x, oneByOne f as ≠ .ok x) := by
  induction as with
  | nil => exact .inl ⟨[], [], rfl, rfl, rfl, rfl, fun k a h => by simp at h⟩
  | cons a as ih =>
    have ih := ih (fun x hx => hP x (List.mem_cons_of_mem _ hx))
      (fun x hx => hn x (List.mem_cons_of_mem _ hx))
    have hcons : ∀ y y', f a = .ok y → g a = .ok y' → (P a → y = v ∧ y' = v') → (¬ P a → y = y') →
        (∃ ys ys', oneByOne f (a :: as) = .ok ys ∧ oneByOne g (a :: as) = .ok ys' ∧
          ys.length = (a :: as).length ∧ ys'.length = (a :: as).length ∧
          ∀ (k : Nat) x, (a :: as)[k]? = some x → (P x → ys[k]? = some v ∧ ys'[k]? = some v') ∧
            (¬ P x → ys[k]? = ys'[k]?)) ∨
        (oneByOne g (a :: as) = oneByOne f (a :: as) ∧ ∀ x, oneByOne f (a :: as) ≠ .ok x) := by
      intro y y' hy hy' h1 h2
      simp only [oneByOne, hy, hy', Out.ok_bind]
      rcases ih with ⟨ys, ys', h3, h4, h5, h6, h7⟩ | ⟨h3, h4⟩
      · rw [h3, h4]
        refine .inl ⟨y :: ys, y' :: ys', rfl, rfl, by simp [h5], by simp [h6], fun k x hk => ?_⟩
        cases k with
        | zero =>
          simp only [List.getElem?_cons_zero, Option.some.injEq] at hk ⊢
          subst hk
          exact ⟨h1, h2⟩
        | succ k =>
          simp only [List.getElem?_cons_succ] at hk ⊢
          exact h7 k x hk
      · rw [h3]
        cases h : oneByOne f as with
        | ok ys => exact absurd h (h4 ys)
        | _ => exact .inr ⟨rfl, fun x h => nomatch h⟩
    by_cases hPa : P a
    · obtain ⟨h1, h2⟩ := hP a List.mem_cons_self hPa
      exact hcons v v' h1 h2 (fun _ => ⟨rfl, rfl⟩) (fun h => absurd hPa h)
    · have h1 := hn a List.mem_cons_self hPa
      cases hf : f a with
      | ok y => exact hcons y y hf (h1 ▸ hf) (fun h => absurd h hPa) (fun _ => rfl)
      | throw e => exact .inr ⟨by simp only [oneByOne, ← h1, hf]; rfl, fun x h => by simp only [oneByOne, hf] at h; cases h⟩
      | foreign => exact .inr ⟨by simp only [oneByOne, ← h1, hf]; rfl, fun x h => by simp only [oneByOne, hf] at h; cases h⟩
      | ub => exact .inr ⟨by simp only [oneByOne, ← h1, hf]; rfl, fun x h => by simp only [oneByOne, hf] at h; cases h⟩
      | diverge => exact .inr ⟨by simp only [oneByOne, ← h1, hf]; rfl, fun x h => by simp only [oneByOne, hf] at h; cases h⟩

/-- The last checks do not look at the value that changed. -/
theorem oneByOne_zip {α β γ : Type} {g : α × β → Out γ} {as : List α} {ys ys' : List β}
    (h1 : ys.length = as.length) (h2 : ys'.length = as.length)
    (h : ∀ (k : Nat) a y y', as[k]? = some a → ys[k]? = some y → ys'[k]? = some y' → g (a, y) = g (a, y')) :
    oneByOne g (as.zip ys) = oneByOne g (as.zip ys') := by
  induction as generalizing ys ys' with
  | nil => simp
  | cons a as ih =>
    cases ys with
    | nil => simp at h1
    | cons y ys =>
      cases ys' with
      | nil => simp at h2
      | cons y' ys' =>
        simp only [List.length_cons, Nat.add_right_cancel_iff] at h1 h2
        have hy := h 0 a y y' rfl rfl rfl
        simp only [List.zip_cons_cons, oneByOne, hy]
        rw [ih h1 h2 fun k x z z' hx hz hz' => h (k + 1) x z z' (by simpa using hx) (by simpa using hz)
          (by simpa using hz')]

theorem modeOf_changed {b more : List Leaf} {c : Node} {ts ts' : List Token} {v v' : Value}
    (hun : Unrepeated mode c) (hv : valueOf ⟨c, ts⟩ = .ok v) (hv' : valueOf ⟨c, ts'⟩ = .ok v') :
    (∃ vals vals', modeOf mode (b ++ [⟨c, ts⟩] ++ more) = .ok vals ∧
      modeOf mode (b ++ [⟨c, ts'⟩] ++ more) = .ok vals' ∧
      vals.length = (valued mode.children).length ∧ vals'.length = (valued mode.children).length ∧
      ∀ (k : Nat) (d : Node × Nat), (valued mode.children)[k]? = some d →
        (IsFor mode.children ⟨c, ts⟩ d.2 → vals[k]? = some v ∧ vals'[k]? = some v') ∧
        (¬ IsFor mode.children ⟨c, ts⟩ d.2 → vals[k]? = vals'[k]?)) ∨
    (modeOf mode (b ++ [⟨c, ts'⟩] ++ more) = modeOf mode (b ++ [⟨c, ts⟩] ++ more) ∧
      ∀ x, modeOf mode (b ++ [⟨c, ts⟩] ++ more) ≠ .ok x) := by
  unfold modeOf
  generalize hrs : List.replicate mode.children.length (none : Option Value) = rs
  have hrl : rs.length = mode.children.length := by rw [← hrs]; simp
  rw [List.append_assoc, List.append_assoc, collectOf_append, collectOf_append]
  cases hcb : collectOf mode.children b rs with
  | ok rb =>
    simp only [Out.ok_bind, List.singleton_append, collectOf, hv, hv']
    have hlb := collectOf_length hcb
    -- nobody has the value
    have hsame : ∀ ra, (∀ d ∈ valued mode.children, ¬ IsFor mode.children ⟨c, ts⟩ d.2) →
        ∀ o : Out (List Value), o = (do
          let vals ← oneByOne (fun x => fillValue x.1 (gotOf ra x.2)) (valued mode.children)
          let _ ← oneByOne (fun x => checkValue x.1.1 x.2) ((valued mode.children).zip vals)
          if mode.hasRouter then .ok vals else .throw ⟨.mode_requires_arguments, [mode.tokenType]⟩) →
        (∃ vals vals', o = .ok vals ∧ o = .ok vals' ∧
          vals.length = (valued mode.children).length ∧ vals'.length = (valued mode.children).length ∧
          ∀ (k : Nat) (d : Node × Nat), (valued mode.children)[k]? = some d →
            (IsFor mode.children ⟨c, ts⟩ d.2 → vals[k]? = some v ∧ vals'[k]? = some v') ∧
            (¬ IsFor mode.children ⟨c, ts⟩ d.2 → vals[k]? = vals'[k]?)) ∨
        (True ∧ ∀ x, o ≠ .ok x) := by
      intro ra hno o ho
      by_cases hx : ∃ vals, o = .ok vals
      · obtain ⟨vals, hx⟩ := hx
        have hlen : vals.length = (valued mode.children).length := by
          rw [hx] at ho
          have ho := ho.symm
          rw [Out.bind_eq_ok] at ho
          obtain ⟨w, h1, h2⟩ := ho
          rw [Out.bind_eq_ok] at h2
          obtain ⟨_, -, h2⟩ := h2
          split at h2
          · cases h2
            rcases oneByOne_changed (f := fun x => fillValue x.1 (gotOf ra x.2))
              (g := fun x => fillValue x.1 (gotOf ra x.2)) (P := fun _ => False) (v := v) (v' := v')
              (as := valued mode.children) (fun _ _ h => h.elim) (fun _ _ _ => rfl) with
              ⟨ys, _, h3, -, h4, -⟩ | ⟨-, h3⟩
            · rw [h1] at h3
              cases h3
              exact h4
            · exact absurd h1 (h3 _)
          · cases h2
        exact .inl ⟨vals, vals, hx, hx, hlen, hlen, fun k d hd =>
          ⟨fun hi => absurd hi (hno d (List.mem_of_getElem? hd)), fun _ => rfl⟩⟩
      · exact .inr ⟨trivial, fun x h => hx ⟨x, h⟩⟩
    cases hf : findChild c.hash mode.children 0 with
    | none =>
      dsimp only
      cases hm : collectOf mode.children more rb with
      | ok ra =>
        simp only [Out.ok_bind]
        refine hsame ra ?_ _ rfl
        intro d hd hi
        obtain ⟨_, _, h⟩ := (isFor_iff _ _ _).1 hi
        rw [hf] at h
        cases h
      | _ => exact .inr ⟨rfl, fun x h => nomatch h⟩
    | some x =>
      obtain ⟨i, d, n⟩ := x
      dsimp only
      obtain ⟨j, hj, hd, hmatch, -⟩ := findChild_spec _ _ _ hf
      obtain ⟨hdm, -, -⟩ := findChild_mem hf
      obtain ⟨hn1, hn2, -⟩ := matchChild_spec hmatch
      have hhash : ∃ x ∈ d.nodes, x.hash = c.hash := ⟨n, hn1, hn2⟩
      rw [Nat.zero_add] at hj
      subst hj
      have hall : ∀ x ∈ d.nodes, OnceOnly x := hun d hdm hhash
      have honce : ∀ h c n, findChild h mode.children 0 = some (i, c, n) → n.isMultiStage = false := by
        intro h c' n' hf'
        obtain ⟨j', hj', hd', -, -⟩ := findChild_spec _ _ _ hf'
        rw [Nat.zero_add] at hj'
        subst hj'
        rw [hd] at hd'
        cases hd'
        exact (onceOnly_iff _).1 (hall _ (findChild_mem hf').2.1)
      have hfor : ∀ k, IsFor mode.children ⟨c, ts⟩ k ↔ k = i := by
        intro k
        rw [isFor_iff]
        constructor
        · rintro ⟨_, _, h⟩
          rw [hf] at h
          cases h
          rfl
        · rintro rfl
          exact ⟨_, _, hf⟩
      rw [honce _ _ _ hf]
      simp only [Bool.false_eq_true, if_false]
      have hlt : i < rb.length := by
        rw [hlb, hrl]
        exact (List.getElem?_eq_some_iff.1 hd).1
      by_cases hno : d.hasNoResult = true
      · simp only [hno, if_true]
        cases hm : collectOf mode.children more rb with
        | ok ra =>
          simp only [Out.ok_bind]
          refine hsame ra ?_ _ rfl
          intro x hx hi
          rw [hfor] at hi
          obtain ⟨h1, h2⟩ := List.mem_filter.1 hx
          rw [List.mem_zipIdx_iff_getElem?, hi, hd] at h1
          cases h1
          simp [hno] at h2
        | _ => exact .inr ⟨trivial, fun x h => nomatch h⟩
      · simp only [Bool.not_eq_true] at hno
        simp only [hno, Bool.false_eq_true, if_false]
        by_cases hgot : (gotOf rb i).isSome = true
        · simp only [hgot, if_true]
          exact .inr ⟨trivial, fun x h => nomatch h⟩
        · simp only [hgot, Bool.false_eq_true, if_false]
          rcases collectOf_changed (ls := more) honce (rs := rb.set i (some v)) (rs' := rb.set i (some v'))
            (by simp) (by rw [gotOf_set', if_pos ⟨rfl, hlt⟩]) (by rw [gotOf_set', if_pos ⟨rfl, hlt⟩])
            (fun j hj => by rw [gotOf_set', gotOf_set', if_neg (fun h => hj h.1.symm),
              if_neg (fun h => hj h.1.symm)]) with ⟨ra, ra', h1, h2, h3, h4, h5⟩ | ⟨h1, h2⟩
          · rw [h1, h2]
            simp only [Out.ok_bind]
            rcases oneByOne_changed (f := fun x : Node × Nat => fillValue x.1 (gotOf ra x.2))
              (g := fun x => fillValue x.1 (gotOf ra' x.2)) (P := fun x => x.2 = i) (v := v) (v' := v')
              (as := valued mode.children)
              (fun x _ hx => by rw [hx, h3, h4]; exact ⟨rfl, rfl⟩)
              (fun x _ hx => by rw [h5 _ hx]) with
              ⟨ys, ys', h6, h7, h8, h9, h10⟩ | ⟨h6, h7⟩
            · rw [h6, h7]
              simp only [Out.ok_bind]
              rw [oneByOne_zip (ys := ys') (ys' := ys) h9 h8]
              · cases hchk : oneByOne (fun x : (Node × Nat) × Value => checkValue x.1.1 x.2)
                  ((valued mode.children).zip ys) with
                | ok u =>
                  simp only [Out.ok_bind]
                  split
                  · refine .inl ⟨ys, ys', rfl, rfl, h8, h9, fun k x hx => ?_⟩
                    rw [hfor]
                    exact h10 k x hx
                  · exact .inr ⟨rfl, fun x h => nomatch h⟩
                | _ => exact .inr ⟨rfl, fun x h => nomatch h⟩
              · intro k x y y' hx hy hy'
                dsimp only
                by_cases hxi : x.2 = i
                · have hmem := (List.mem_filter.1 (List.mem_of_getElem? hx)).1
                  rw [List.mem_zipIdx_iff_getElem?, hxi, hd] at hmem
                  have hxd : x.1 = d := (Option.some.inj hmem).symm
                  have hnr : ¬ Repeatable x.1 := by
                    rw [hxd]
                    rintro (h | ⟨e, he, h⟩)
                    · exact h (hall d (self_mem_nodes d))
                    · exact h (hall e (child_mem_nodes he _ (self_mem_nodes e)))
                  rw [repeatable_iff] at hnr
                  simp only [Bool.not_eq_true] at hnr
                  unfold checkValue
                  rw [hnr]
                  rfl
                · have := (h10 k x hx).2 hxi
                  rw [hy, hy'] at this
                  cases this
                  rfl
            · rw [h6]
              cases h8 : oneByOne (fun x : Node × Nat => fillValue x.1 (gotOf ra x.2))
                  (valued mode.children) with
              | ok ys => exact absurd h8 (h7 ys)
              | _ => exact .inr ⟨rfl, fun x h => nomatch h⟩
          · rw [h1]
            cases h3 : collectOf mode.children more (rb.set i (some v)) with
            | ok ra => exact absurd h3 (h2 ra)
            | _ => exact .inr ⟨rfl, fun x h => nomatch h⟩
  | _ => exact .inr ⟨rfl, fun x h => nomatch h⟩

theorem gives_uses {l : Leaf} {o : Out Value} (h : Gives l o) : HasUses l.node := by
  cases h with
  | flag h => exact h.elim .inl fun h => .inr (.inl h)
  | value h => exact .inr (.inr h)
  | unreadable h => exact .inr (.inr h)
  | refused h => exact .inr (.inr h)

/-! ## C119 -/

/-- What becomes of a command line and the same with other values of an argument. -/
inductive OtherReadingValue (p p' : TypedArg) : Result → Choices → Result → Choices → Prop
  | failed {r : Result} {c c' : Choices} : (∀ uses, r ≠ .accepts uses) →
      (∀ u, c.lookup u = c'.lookup u) → OtherReadingValue p p' r c r c'
  | again {c : Choices} : OtherReadingValue p p'
      (.fails ⟨.argument_has_already_been_set, [⟨.none, p.word⟩]⟩) c
      (.fails ⟨.argument_has_already_been_set, [⟨.none, p'.word⟩]⟩) c
  | accepted {b more : List Leaf} {c c' : Choices} : (∀ u, c.lookup u = c'.lookup u) →
      OtherReadingValue p p' (.accepts (b ++ [p.use] ++ more)) c (.accepts (b ++ [p'.use] ++ more)) c'

theorem other_value (ho : Ordinary mode) {before : List TypedArg} {p p' : TypedArg} {after : List Token}
    (hb : ∀ x ∈ before, x.Fits cfg mode) (hp : p.Fits cfg mode) (hp' : p'.Fits cfg mode)
    (hsame : SameArgument p p') {chosen c : Choices} {r : Result}
    (hw : weight (before.flatMap TypedArg.tokens ++ (p.tokens ++ after)) < 2 ^ 63)
    (hread : Expanding mode → ∀ t ∈ before.flatMap TypedArg.tokens ++ (p.tokens ++ after), Readable cfg t)
    (hr : Reading cfg mode chosen [] [] (before.flatMap TypedArg.tokens ++ (p.tokens ++ after)) r c) :
    ∃ r' c', Reading cfg mode chosen [] [] (before.flatMap TypedArg.tokens ++ (p'.tokens ++ after)) r' c' ∧
      OtherReadingValue p p' r c r' c' := by
  obtain ⟨ha, hsh, hna⟩ := hsame
  rcases before_any ho hb hw hread hr with ⟨e, rfl, h⟩ | ⟨ch, b, used', h1, h2⟩
  · exact ⟨_, _, h _, .failed (fun _ h => nomatch h) fun _ => rfl⟩
  have hw2 : weight (p.tokens ++ after) < 2 ^ 63 := by
    rw [weight_append] at hw
    omega
  have hread2 : Expanding mode → ∀ t ∈ p.tokens ++ after, Readable cfg t :=
    fun he t ht => hread he t (List.mem_append_right _ ht)
  rcases stops_or_goes mode p ch ([] ++ b) used' with ⟨e, ce, hs⟩ | hg
  · obtain ⟨rfl, rfl⟩ := reading_unique ho (piece_stops hp hs _) hw2 hread2 h1
    cases hs with
    | clash h =>
      exact ⟨_, _, h2 _ _ _ (piece_stops hp' (.clash (ha ▸ h)) _),
        .failed (fun _ h => nomatch h) fun _ => rfl⟩
    | again h3 h4 =>
      refine ⟨_, _, h2 _ _ _ (piece_stops hp' (.again (ha ▸ h3) (ha ▸ h4)) _), ?_⟩
      rw [ha]
      exact .again
    | lacks h3 h4 h5 =>
      refine ⟨_, _, h2 _ _ _ (piece_stops hp' (.lacks (ha ▸ h3) (ha ▸ h4) (hsh ▸ h5)) _), ?_⟩
      rw [ha]
      exact .failed (fun _ h => nomatch h) fun _ => rfl
  · have h3 := piece_inv hp ho hg hw2 hread2 h1
    have hu : p.uses mode = [p.use] := by simp [TypedArg.uses, Shape.uses, hna, TypedArg.use]
    have hu' : p'.uses mode = [p'.use] := by
      have hna' : p'.shape.aliasOf = none := hsh ▸ hna
      simp [TypedArg.uses, Shape.uses, hna', TypedArg.use]
    obtain ⟨r', c', h4, h5, h6⟩ := reading_same h3
      (chosen' := choose mode ch p'.argument) (sofar' := [] ++ b ++ p'.uses mode)
      (used' := p'.argument.1 :: used')
      ⟨fun u => by rw [ha], fun x => by
        have : p.use.node.hash = p'.use.node.hash := by rw [TypedArg.use, TypedArg.use, ha]
        rw [hu, hu', seen_append (sofar := [] ++ b) (uses := [p.use]),
          seen_append (sofar := [] ++ b) (uses := [p'.use])]
        simp only [List.mem_singleton, exists_eq_left, this], fun i => by rw [ha]⟩
    refine ⟨r', c', h2 _ _ _ (piece_goes hp' ⟨ha ▸ hg.clash, ha ▸ hg.available, hsh ▸ hg.needs⟩ h4), ?_⟩
    rcases h5 with ⟨more, rfl, rfl⟩ | ⟨rfl, h5⟩
    · rw [hu, hu']
      simp only [List.nil_append]
      exact .accepted h6
    · exact .failed h5 h6

section
variable (hc : compiles cfg depth defaultRules root = true) (hu : Conventional root)
include hc hu

theorem value_readings {before : List TypedArg} {p p' : TypedArg} {after : List Bytes} (s : St)
    (hl : LedTo cfg root mode names (typed before ++ p.words ++ after))
    (hl' : LedTo cfg root mode names (typed before ++ p'.words ++ after))
    (hb : ∀ x ∈ before, x.Fits cfg mode) (hp : p.Fits cfg mode) (hp' : p'.Fits cfg mode)
    (hsame : SameArgument p p')
    (htext : ∀ x ∈ names ++ (typed before ++ p.words ++ after), Readable cfg ⟨.none, x⟩)
    (htext' : ∀ x ∈ names ++ (typed before ++ p'.words ++ after), Readable cfg ⟨.none, x⟩)
    (hlen : ((names ++ (typed before ++ p.words ++ after)).map List.length).sum +
      (names ++ (typed before ++ p.words ++ after)).length < 2 ^ 63)
    (hlen' : ((names ++ (typed before ++ p'.words ++ after)).map List.length).sum +
      (names ++ (typed before ++ p'.words ++ after)).length < 2 ^ 63) :
    ∃ r c r' c', OtherReadingValue p p' r c r' c' ∧
      parseArgs cfg root (names ++ (typed before ++ p.words ++ after)) s =
        outcomeOf cfg mode r { s with sel := c } ∧
      parseArgs cfg root (names ++ (typed before ++ p'.words ++ after)) s =
        outcomeOf cfg mode r' { s with sel := c' } ∧
      (∀ uses, r = .accepts uses → ∀ s', outcomeOf cfg mode (.accepts uses) s' =
        ended (called mode (modeOf mode uses)) s') ∧
      ∀ uses, r' = .accepts uses → ∀ s', outcomeOf cfg mode (.accepts uses) s' =
        ended (called mode (modeOf mode uses)) s' := by
  have hprog := C92_ordinary_partial hc hu
  obtain ⟨hm, hk⟩ := ledTo_mem hl
  obtain ⟨hord, hrep⟩ := ledTo_ordinary hprog hl
  have htoks : ∀ p : TypedArg, (typed before ++ p.words ++ after).map (Token.mk .none) =
      before.flatMap TypedArg.tokens ++ (p.tokens ++ after.map (Token.mk .none)) := by
    intro p
    rw [List.map_append, List.map_append, typed_tokens, List.append_assoc]
    rfl
  have hw : weight ((typed before ++ p.words ++ after).map (Token.mk .none)) < 2 ^ 63 := by
    refine Nat.lt_of_le_of_lt (weight_raw _) (fits_shorter ?_ hlen)
    exact List.sublist_append_right _ _
  have hread : Expanding mode → ∀ t ∈ (typed before ++ p.words ++ after).map (Token.mk .none),
      Readable cfg t := by
    intro _ t ht
    obtain ⟨y, hy, rfl⟩ := List.mem_map.1 ht
    exact htext y (List.mem_append_right _ hy)
  obtain ⟨r, c, hr⟩ := reading_of (chosen := s.sel) hord hrep hw hread
  have hrun := led_run hc hu hl s htext hlen hr
  have hacc : ∀ uses, r = .accepts uses → ∀ s', outcomeOf cfg mode (.accepts uses) s' =
      ended (called mode (modeOf mode uses)) s' := by
    rintro uses rfl s'
    exact accepted_outcome hc hm hk hr s'
  rw [htoks] at hw hread hr
  obtain ⟨r', c', hr', h⟩ := other_value hord hb hp hp' hsame hw hread hr
  rw [← htoks] at hr'
  refine ⟨r, c, r', c', h, hrun, led_run hc hu hl' s htext' hlen' hr', hacc, ?_⟩
  rintro uses rfl s'
  exact accepted_outcome hc hm hk hr' s'

/-- C119: if an argument is given another value, then the router gets this value where the argument
goes, and otherwise the same; or both command lines fail, for the same reason. -/
theorem C119_value {before : List TypedArg} {p p' : TypedArg} {v v' : Value} {after : List Bytes} (s : St)
    (hl : LedTo cfg root mode names (typed before ++ p.words ++ after))
    (hl' : LedTo cfg root mode names (typed before ++ p'.words ++ after))
    (hb : ∀ x ∈ before, x.Fits cfg mode) (hp : p.Fits cfg mode) (hp' : p'.Fits cfg mode)
    (hsame : SameArgument p p') (hun : Unrepeated mode p.argument.2)
    (hv : Gives p.use (.ok v)) (hv' : Gives p'.use (.ok v'))
    (htext : ∀ x ∈ names ++ (typed before ++ p.words ++ after), Readable cfg ⟨.none, x⟩)
    (htext' : ∀ x ∈ names ++ (typed before ++ p'.words ++ after), Readable cfg ⟨.none, x⟩)
    (hlen : ((names ++ (typed before ++ p.words ++ after)).map List.length).sum +
      (names ++ (typed before ++ p.words ++ after)).length < 2 ^ 63)
    (hlen' : ((names ++ (typed before ++ p'.words ++ after)).map List.length).sum +
      (names ++ (typed before ++ p'.words ++ after)).length < 2 ^ 63) :
    OtherValue mode s p p' v v' (parseArgs cfg root (names ++ (typed before ++ p.words ++ after)) s)
      (parseArgs cfg root (names ++ (typed before ++ p'.words ++ after)) s) := by
  obtain ⟨r, c, r', c', h, h1, h2, h3, h4⟩ :=
    value_readings hc hu s hl hl' hb hp hp' hsame htext htext' hlen hlen'
  rw [h1, h2]
  cases h with
  | failed hf hcc =>
    obtain ⟨o, h5, h6⟩ := outcome_failed cfg mode hf
    rw [h6, h6]
    exact .failed h5 (.alike ⟨rfl, rfl, fun _ => hcc⟩)
  | again => exact .failed (fun h => nomatch h) (.again (by simp) rfl rfl rfl rfl)
  | @accepted b more c c' hcc =>
    rw [h3 _ rfl, h4 _ rfl]
    have hw := (gives_iff (gives_uses hv) _).1 hv
    have hw' := (gives_iff (gives_uses hv') _).1 hv'
    have he : p'.use = ⟨p.argument.2, p'.values⟩ := by rw [hsame.argument]; rfl
    rw [he] at hw' ⊢
    rcases modeOf_changed (b := b) (more := more) hun hw hw' with
      ⟨vals, vals', h5, h6, h7, h8, h9⟩ | ⟨h5, h6⟩
    · rw [show p.use = ⟨p.argument.2, p.values⟩ from rfl, h5, h6]
      exact .called rfl rfl rfl rfl hcc h7 h8 h9
    · rw [show p.use = ⟨p.argument.2, p.values⟩ from rfl, h5]
      obtain ⟨o, h7, h8⟩ := ended_failed (n := mode) h6
      rw [h8, h8]
      exact .failed h7 (.alike ⟨rfl, rfl, fun _ => hcc⟩)

/-- C119: if an argument of an accepted command line is given a value that it cannot have, then the
command line fails with just this error, and there is no call. -/
theorem C119_bad_value {before : List TypedArg} {p p' : TypedArg} {o : Out Value} {after : List Bytes}
    (s : St) (hl : LedTo cfg root mode names (typed before ++ p.words ++ after))
    (hl' : LedTo cfg root mode names (typed before ++ p'.words ++ after))
    (hb : ∀ x ∈ before, x.Fits cfg mode) (hp : p.Fits cfg mode) (hp' : p'.Fits cfg mode)
    (hsame : SameArgument p p') (hv' : Gives p'.use o) (hbad : ∀ v, o ≠ .ok v)
    (htext : ∀ x ∈ names ++ (typed before ++ p.words ++ after), Readable cfg ⟨.none, x⟩)
    (htext' : ∀ x ∈ names ++ (typed before ++ p'.words ++ after), Readable cfg ⟨.none, x⟩)
    (hlen : ((names ++ (typed before ++ p.words ++ after)).map List.length).sum +
      (names ++ (typed before ++ p.words ++ after)).length < 2 ^ 63)
    (hlen' : ((names ++ (typed before ++ p'.words ++ after)).map List.length).sum +
      (names ++ (typed before ++ p'.words ++ after)).length < 2 ^ 63)
    (hok : (parseArgs cfg root (names ++ (typed before ++ p.words ++ after)) s).1 = .ok ()) :
    SameFailure o (parseArgs cfg root (names ++ (typed before ++ p'.words ++ after)) s).1 ∧
      (parseArgs cfg root (names ++ (typed before ++ p'.words ++ after)) s).2.calls = s.calls := by
  obtain ⟨r, c, r', c', h, h1, h2, h3, h4⟩ :=
    value_readings hc hu s hl hl' hb hp hp' hsame htext htext' hlen hlen'
  rw [h1] at hok
  rw [h2]
  cases h with
  | failed hf hcc =>
    obtain ⟨o, h5, h6⟩ := outcome_failed cfg mode hf
    rw [h6] at hok
    exact absurd hok h5
  | again => exact nomatch hok
  | @accepted b more c c' hcc =>
    rw [h3 _ rfl] at hok
    rw [h4 _ rfl]
    have hw' := (gives_iff (gives_uses hv') _).1 hv'
    have hcol : ∃ rb, collectOf mode.children b (List.replicate mode.children.length none) = .ok rb := by
      cases hx : collectOf mode.children b (List.replicate mode.children.length none) with
      | ok rb => exact ⟨rb, rfl⟩
      | _ =>
        exfalso
        unfold modeOf at hok
        rw [List.append_assoc, collectOf_append, hx] at hok
        cases hok
    obtain ⟨rb, hcol⟩ := hcol
    have hres : ∀ s', ended (called mode (modeOf mode (b ++ [p'.use] ++ more))) s' =
        ended (called mode (o >>= fun _ => .ok [])) s' := by
      intro s'
      unfold modeOf
      rw [List.append_assoc, collectOf_append, hcol]
      simp only [Out.ok_bind, List.singleton_append, collectOf, hw']
      cases o with
      | ok v => exact absurd rfl (hbad v)
      | _ => rfl
    rw [hres]
    cases o with
    | ok v => exact absurd rfl (hbad v)
    | throw e => exact ⟨.throws e, rfl⟩
    | foreign => exact ⟨.foreign, rfl⟩
    | ub => exact ⟨.undefined, rfl⟩
    | diverge => exact ⟨.forever, rfl⟩

end

/-! ## Examples -/

/-- The hypotheses of the C119 theorems are met, by `--out 3`, then `--num 5` or `--num 2` or `--num 9`, and
`-a`. -/
example : LedTo .default toolRoot toolMode [] (typed [outTyped (b "3")] ++ (numTyped (b "5")).words ++ [b "-a"]) ∧
    LedTo .default toolRoot toolMode [] (typed [outTyped (b "3")] ++ (numTyped (b "2")).words ++ [b "-a"]) ∧
    (∀ x ∈ [outTyped (b "3")], x.Fits .default toolMode) ∧
    (∀ v, (numTyped v).Fits .default toolMode) ∧
    SameArgument (numTyped (b "5")) (numTyped (b "2")) ∧ Unrepeated toolMode toolNum ∧
    Gives (numTyped (b "5")).use (.ok (.one (.int 5))) ∧ Gives (numTyped (b "2")).use (.ok (.one (.int 2))) ∧
    Gives (numTyped (b "9")).use (.throw ⟨.maximum_value_exceeded, [⟨.long, b "num"⟩]⟩) ∧
    Gives (numTyped (b "x")).use (.throw ⟨.failed_to_parse, [⟨.none, b "x"⟩]⟩) := by
  refine ⟨toolMode_led _, toolMode_led _, ?_, num_fits, ⟨rfl, rfl, rfl⟩, ?_, ?_, ?_, ?_, ?_⟩
  · simp only [List.mem_singleton]
    rintro x rfl
    exact out_fits _
  · intro d hd hn n hnm
    rw [onceOnly_iff]
    have : ∀ d ∈ toolMode.children, (d.nodes.any fun n => n.hash == toolNum.hash) = true →
      (d.nodes.all fun n => !n.isMultiStage) = true := by decide
    obtain ⟨x, hx, hh⟩ := hn
    have := this d hd (List.any_eq_true.2 ⟨x, hx, by simp [hh]⟩)
    have := List.all_eq_true.1 this n hnm
    simpa using this
  all_goals exact (gives_iff (.inr (.inr (by decide))) _).2 (by decide +kernel)

/-- What C119 is about. -/
example :
    parseArgs .default toolRoot [b "--out", b "3", b "--num", b "5", b "-a"] .fresh =
      (.ok (), ⟨[], [⟨45, [.one (.bool true), .one (.int 0), .one (.int 5), .one (.int 3)]⟩]⟩) ∧
    parseArgs .default toolRoot [b "--out", b "3", b "--num", b "2", b "-a"] .fresh =
      (.ok (), ⟨[], [⟨45, [.one (.bool true), .one (.int 0), .one (.int 2), .one (.int 3)]⟩]⟩) ∧
    parseArgs .default toolRoot [b "--out", b "3", b "--num", b "9", b "-a"] .fresh =
      (.throw ⟨.maximum_value_exceeded, [⟨.long, b "num"⟩]⟩, .fresh) := by
  decide +kernel

end ArgRouter.Props
