import Verif.Spec.Rearranged
import Verif.Lemmas.Grown

/-!
# A mode with two arguments in the other order
-/

namespace ArgRouter

open Spec Props

/-- Where things are after the places `n` and `n + 1` were exchanged. -/
def flipped (n i : Nat) : Nat := if i = n then n + 1 else if i = n + 1 then n else i

theorem flipped_inj {n i j : Nat} (h : flipped n i = flipped n j) : i = j := by
  unfold flipped at h
  split at h <;> split at h <;> (try split at h) <;> (try split at h) <;> omega

theorem flipped_of_ne {n i : Nat} (h : i ≠ n) (h2 : i ≠ n + 1) : flipped n i = i := by
  unfold flipped
  rw [if_neg h, if_neg h2]

theorem flipped_left (n : Nat) : flipped n n = n + 1 := by unfold flipped; rw [if_pos rfl]

theorem flipped_right (n : Nat) : flipped n (n + 1) = n := by
  unfold flipped
  rw [if_neg (by omega), if_pos rfl]

/-- The second list is the first with these places exchanged. -/
def Exchanged (n : Nat) {α : Type} (l l' : List α) : Prop :=
  l'.length = l.length ∧ n + 1 < l.length ∧ ∀ i, l'[flipped n i]? = l[i]?

theorem exchanged_append {α : Type} (a : List α) (x y : α) (c : List α) :
    Exchanged a.length (a ++ x :: y :: c) (a ++ y :: x :: c) := by
  refine ⟨by simp, by simp, fun i => ?_⟩
  rcases Nat.lt_trichotomy i a.length with h | h | h
  · rw [flipped_of_ne (by omega) (by omega), List.getElem?_append_left h, List.getElem?_append_left h]
  · subst h
    rw [flipped_left, List.getElem?_append_right (by omega), List.getElem?_append_right (by omega)]
    simp
  · by_cases h2 : i = a.length + 1
    · subst h2
      rw [flipped_right, List.getElem?_append_right (by omega), List.getElem?_append_right (by omega)]
      simp
    · rw [flipped_of_ne (by omega) h2, List.getElem?_append_right (by omega),
        List.getElem?_append_right (by omega)]
      obtain ⟨j, hj⟩ : ∃ j, i - a.length = j + 2 := ⟨i - a.length - 2, by omega⟩
      rw [hj]
      simp

theorem exchanged_set {α : Type} {n : Nat} {l l' : List α} (h : Exchanged n l l') (i : Nat) (x : α) :
    Exchanged n (l.set i x) (l'.set (flipped n i) x) := by
  obtain ⟨h1, h2, h3⟩ := h
  refine ⟨by simp [h1], by simp [h2], fun j => ?_⟩
  by_cases hij : i = j
  · subst hij
    rw [List.getElem?_set, List.getElem?_set, if_pos rfl, if_pos rfl]
    have : flipped n i < l'.length ↔ i < l.length := by
      rw [h1]
      unfold flipped
      split
      · omega
      · split <;> omega
    simp only [this]
  · rw [List.getElem?_set_ne hij, List.getElem?_set_ne (fun h => hij (flipped_inj h)), h3 j]

theorem exchanged_got {n : Nat} {l l' : List (Option Value)} (h : Exchanged n l l') (i : Nat) :
    gotOf l' (flipped n i) = gotOf l i := by
  unfold gotOf
  rw [h.2.2 i]

theorem findChild_swapped {h : Nat} {c d : Node} (hcd : matchChild h c = none ∨ matchChild h d = none)
    (before after : List Node) (i : Nat) :
    findChild h (before ++ d :: c :: after) i =
      (findChild h (before ++ c :: d :: after) i).map fun x =>
        (flipped (before.length + i) x.1, x.2) := by
  induction before generalizing i with
  | nil =>
    simp only [List.nil_append, List.length_nil, Nat.zero_add]
    have hfar : (findChild h after (i + 1 + 1)).map (fun x => (flipped i x.1, x.2)) =
        findChild h after (i + 1 + 1) := by
      rw [findChild_from h after (i + 1 + 1), Option.map_map]
      congr 1
      funext x
      simp only [Function.comp_apply, Prod.mk.injEq, and_true]
      exact flipped_of_ne (by omega) (by omega)
    rcases hcd with hn | hn
    · rw [findChild, findChild, hn]
      simp only []
      rw [findChild, hn]
      simp only []
      rw [findChild]
      cases matchChild h d with
      | some x => simp only [Option.map_some, flipped_right]
      | none => simp only [hfar]
    · rw [findChild, hn]
      simp only []
      rw [findChild, findChild]
      cases matchChild h c with
      | some x => simp only [Option.map_some, flipped_left]
      | none =>
        simp only []
        rw [findChild, hn]
        simp only [hfar]
  | cons e before ih =>
    simp only [List.cons_append, findChild]
    cases matchChild h e with
    | some n =>
      simp only [Option.map_some, Option.some.injEq, Prod.mk.injEq, and_true, List.length_cons]
      exact (flipped_of_ne (by omega) (by omega)).symm
    | none =>
      simp only []
      rw [ih (i + 1), List.length_cons]
      congr 1
      funext x
      rw [show before.length + (i + 1) = before.length + 1 + i by omega]

/-- What is the same but for an exchange. -/
inductive Collected (n : Nat) : Out (List (Option Value)) → Out (List (Option Value)) → Prop
  | ok {rs rs' : List (Option Value)} : Exchanged n rs rs' → Collected n (.ok rs) (.ok rs')
  | failed {o : Out (List (Option Value))} : (∀ rs, o ≠ .ok rs) → Collected n o o

theorem collectOf_swapped {c d : Node} {before after : List Node} {ls : List Leaf}
    (hcd : ∀ l ∈ ls, matchChild l.node.hash c = none ∨ matchChild l.node.hash d = none)
    (rs rs' : List (Option Value)) (h : Exchanged before.length rs rs') :
    Collected before.length (collectOf (before ++ c :: d :: after) ls rs)
      (collectOf (before ++ d :: c :: after) ls rs') := by
  induction ls generalizing rs rs' with
  | nil => exact .ok h
  | cons l ls ih =>
    have ih := ih fun x hx => hcd x (List.mem_cons_of_mem _ hx)
    simp only [collectOf]
    cases valueOf l with
    | ok v =>
      simp only [Out.ok_bind]
      rw [findChild_swapped (hcd l List.mem_cons_self), Nat.add_zero]
      cases findChild l.node.hash (before ++ c :: d :: after) 0 with
      | none => exact ih rs rs' h
      | some x =>
        obtain ⟨i, e, n⟩ := x
        simp only [Option.map_some, exchanged_got h]
        split
        · exact ih rs rs' h
        · split
          · exact ih _ _ (exchanged_set h _ _)
          · split
            · exact .failed (by simp)
            · exact ih _ _ (exchanged_set h _ _)
    | throw e => exact .failed (by simp)
    | foreign => exact .failed (by simp)
    | ub => exact .failed (by simp)
    | diverge => exact .failed (by simp)

/-- An error that the child causes. -/
def Blamed {α : Type} (c : Node) (o : Out α) : Prop := ∃ u : Out Unit, CausedBy c u ∧ SameFailure u o

theorem fill_blamed {c : Node} {g : Option Value} (h : ∀ v, fillValue c g ≠ .ok v) :
    Blamed c (fillValue c g) := by
  have hf := (fills_iff c g _).2 rfl
  generalize fillValue c g = o at hf h
  cases hf with
  | given => exact absurd rfl (h _)
  | missing hm => exact ⟨_, .inl ⟨hm, rfl⟩, .throws _⟩
  | fallback => exact absurd rfl (h _)
  | refused h1 h2 h3 =>
    refine ⟨_, .inr ⟨_, h2, ?_⟩, h3⟩
    rintro rfl
    cases h3

theorem check_blamed {c : Node} {v : Value} (h : checkValue c v ≠ .ok ()) :
    Blamed c (checkValue c v) := by
  have hf := (checked_iff c v _).2 rfl
  generalize checkValue c v = o at hf h
  cases hf with
  | merged h1 h2 =>
    refine ⟨o, .inr ⟨v, h2, h⟩, ?_⟩
    cases o with
    | ok u => exact absurd rfl h
    | throw e => exact .throws e
    | foreign => exact .foreign
    | ub => exact .undefined
    | diverge => exact .forever
  | other => exact absurd rfl h

/-- What comes of two lists of children, where the middle two are exchanged. -/
inductive Flips {β : Type} (c d : Node) (k : Nat) : Out (List β) → Out (List β) → Prop
  | ok {front back : List β} {v w : β} : front.length = k →
      Flips c d k (.ok (front ++ v :: w :: back)) (.ok (front ++ w :: v :: back))
  | same {o : Out (List β)} : (∀ x, o ≠ .ok x) → Flips c d k o o
  | both {o o' : Out (List β)} : Blamed c o → Blamed d o' → Flips c d k o o'

theorem failure_bind {α β : Type} {o : Out α} (h : ∀ v, o ≠ .ok v) (g : α → Out β) :
    SameFailure o (o >>= g) := by
  cases o with
  | ok v => exact absurd rfl (h v)
  | throw e => exact .throws e
  | foreign => exact .foreign
  | ub => exact .undefined
  | diverge => exact .forever

theorem failure_trans {α β γ : Type} {a : Out α} {b : Out β} {c : Out γ} (h : SameFailure a b)
    (h2 : SameFailure b c) : SameFailure a c := by
  cases h <;> cases h2 <;> constructor

theorem failure_eq {α β : Type} {a : Out α} {b c : Out β} (h : SameFailure a b)
    (h2 : SameFailure a c) : b = c := by
  cases h <;> cases h2 <;> rfl

theorem failure_not_ok {α β : Type} {a : Out α} {b : Out β} (h : SameFailure a b) :
    ∀ x, b ≠ .ok x := by
  cases h <;> simp

theorem blamed_of {α β : Type} {c : Node} {o : Out α} {o' : Out β} (h : Blamed c o)
    (h2 : SameFailure o o') : Blamed c o' := by
  obtain ⟨u, h3, h4⟩ := h
  exact ⟨u, h3, failure_trans h4 h2⟩

theorem oneByOne_flips {α β : Type} {f f' : α → Out β} {B A : List α} {xc xd xc' xd' : α}
    {B' A' : List α} {c d : Node}
    (hB : oneByOne f' B' = oneByOne f B) (hA : oneByOne f' A' = oneByOne f A)
    (hc : f' xc' = f xc) (hd : f' xd' = f xd) (hbc : (∀ v, f xc ≠ .ok v) → Blamed c (f xc))
    (hbd : (∀ v, f xd ≠ .ok v) → Blamed d (f xd)) :
    Flips c d B.length (oneByOne f (B ++ xc :: xd :: A)) (oneByOne f' (B' ++ xd' :: xc' :: A')) := by
  rw [oneByOne_append, oneByOne_append, hB]
  by_cases hb : ∃ xs, oneByOne f B = .ok xs
  · obtain ⟨xs, hb⟩ := hb
    have hl := oneByOne_length hb
    simp only [hb, Out.ok_bind, oneByOne, hc, hd, hA]
    by_cases h1 : ∃ v, f xc = .ok v
    · obtain ⟨v, h1⟩ := h1
      by_cases h2 : ∃ w, f xd = .ok w
      · obtain ⟨w, h2⟩ := h2
        simp only [h1, h2, Out.ok_bind]
        cases oneByOne f A with
        | ok ys => simp only [Out.ok_bind, Out.pure_eq]; exact .ok hl
        | throw e => exact .same (by simp)
        | foreign => exact .same (by simp)
        | ub => exact .same (by simp)
        | diverge => exact .same (by simp)
      · have h2 : ∀ w, f xd ≠ .ok w := fun w h => h2 ⟨w, h⟩
        simp only [h1, Out.ok_bind]
        cases hx : f xd with
        | ok w => exact absurd hx (h2 w)
        | throw e => exact .same (by simp)
        | foreign => exact .same (by simp)
        | ub => exact .same (by simp)
        | diverge => exact .same (by simp)
    · have h1 : ∀ w, f xc ≠ .ok w := fun w h => h1 ⟨w, h⟩
      by_cases h2 : ∃ w, f xd = .ok w
      · obtain ⟨w, h2⟩ := h2
        simp only [h2, Out.ok_bind]
        cases hx : f xc with
        | ok w => exact absurd hx (h1 w)
        | throw e => exact .same (by simp)
        | foreign => exact .same (by simp)
        | ub => exact .same (by simp)
        | diverge => exact .same (by simp)
      · have h2 : ∀ w, f xd ≠ .ok w := fun w h => h2 ⟨w, h⟩
        refine .both (blamed_of (hbc h1) ?_) (blamed_of (hbd h2) ?_)
        · exact failure_trans (failure_bind h1 _)
            (failure_bind (failure_not_ok (failure_bind h1 _)) _)
        · exact failure_trans (failure_bind h2 _)
            (failure_bind (failure_not_ok (failure_bind h2 _)) _)
  · have hb : ∀ xs, oneByOne f B ≠ .ok xs := fun w h => hb ⟨w, h⟩
    cases hx : oneByOne f B with
    | ok w => exact absurd hx (hb w)
    | throw e => exact .same (by simp)
    | foreign => exact .same (by simp)
    | ub => exact .same (by simp)
    | diverge => exact .same (by simp)

theorem valued_two {c d : Node} (hc : c.hasNoResult = false) (hd : d.hasNoResult = false)
    (before after : List Node) :
    valued (before ++ c :: d :: after) = valuedFrom 0 before ++ (c, before.length) ::
      (d, before.length + 1) :: valuedFrom (before.length + 2) after := by
  rw [valued_old, valuedFrom_cons, hc, valuedFrom_cons, hd]
  rfl

theorem fills_swapped {c d : Node} (hc : c.hasNoResult = false) (hd : d.hasNoResult = false)
    (before after : List Node) {rs rs' : List (Option Value)} (h : Exchanged before.length rs rs') :
    Flips c d (parameters before)
      (oneByOne (fun x => fillValue x.1 (gotOf rs x.2)) (valued (before ++ c :: d :: after)))
      (oneByOne (fun x => fillValue x.1 (gotOf rs' x.2)) (valued (before ++ d :: c :: after))) := by
  rw [valued_two hc hd, valued_two hd hc, ← valuedFrom_length 0]
  refine oneByOne_flips ?_ ?_ ?_ ?_ fill_blamed fill_blamed
  · refine oneByOne_congr fun x hx => ?_
    have := valuedFrom_mem hx
    rw [← exchanged_got h x.2, flipped_of_ne (by omega) (by omega)]
  · refine oneByOne_congr fun x hx => ?_
    have := valuedFrom_mem hx
    rw [← exchanged_got h x.2, flipped_of_ne (by omega) (by omega)]
  · simp only []
    rw [← exchanged_got h before.length, flipped_left]
  · simp only []
    rw [← exchanged_got h (before.length + 1), flipped_right]

theorem checks_swapped {c d : Node} (hc : c.hasNoResult = false) (hd : d.hasNoResult = false)
    (before after : List Node) {front back : List Value} {v w : Value}
    (hl : front.length = parameters before) :
    Flips c d (parameters before)
      (oneByOne (fun x => checkValue x.1.1 x.2)
        ((valued (before ++ c :: d :: after)).zip (front ++ v :: w :: back)))
      (oneByOne (fun x => checkValue x.1.1 x.2)
        ((valued (before ++ d :: c :: after)).zip (front ++ w :: v :: back))) := by
  have h1 : (valuedFrom 0 before).length = front.length := by rw [valuedFrom_length, hl]
  rw [valued_two hc hd, valued_two hd hc, List.zip_append h1, List.zip_append h1]
  simp only [List.zip_cons_cons]
  have hlen : parameters before = ((valuedFrom 0 before).zip front).length := by
    rw [List.length_zip, h1, Nat.min_self, hl]
  rw [hlen]
  exact oneByOne_flips rfl rfl rfl rfl (fun h => check_blamed fun he => h () he)
    (fun h => check_blamed fun he => h () he)

/-- The mode with two arguments in the other order. -/
theorem modeOf_swapped {c d : Node} (hc : c.hasNoResult = false) (hd : d.hasNoResult = false)
    {uid h h' : Nat} {vt : ValueType} {p : List Policy} {before after : List Node} {ls : List Leaf}
    (hcd : ∀ l ∈ ls, matchChild l.node.hash c = none ∨ matchChild l.node.hash d = none) :
    Flips c d (parameters before) (modeOf (.mk .mode uid h vt p (before ++ c :: d :: after)) ls)
      (modeOf (.mk .mode uid h' vt p (before ++ d :: c :: after)) ls) := by
  have hrep : Exchanged before.length
      (List.replicate (before ++ c :: d :: after).length (none : Option Value))
      (List.replicate (before ++ d :: c :: after).length none) := by
    have := exchanged_append (List.replicate before.length (none : Option Value)) none none
      (List.replicate after.length none)
    rw [List.length_replicate] at this
    have he : List.replicate before.length (none : Option Value) ++ none :: none ::
        List.replicate after.length none = List.replicate (before.length + (after.length + 2)) none := by
      rw [← List.replicate_succ, ← List.replicate_succ, List.replicate_append_replicate]
    rw [he] at this
    simp only [List.length_append, List.length_cons]
    exact this
  have hcol := collectOf_swapped (after := after) hcd _ _ hrep
  have hr : (Node.mk .mode uid h' vt p (before ++ d :: c :: after)).hasRouter =
      (Node.mk .mode uid h vt p (before ++ c :: d :: after)).hasRouter := rfl
  have ht : (Node.mk .mode uid h' vt p (before ++ d :: c :: after)).tokenType =
      (Node.mk .mode uid h vt p (before ++ c :: d :: after)).tokenType := rfl
  unfold modeOf
  rw [hr, ht]
  simp only [Node.children]
  generalize collectOf (before ++ c :: d :: after) ls _ = o at hcol ⊢
  generalize collectOf (before ++ d :: c :: after) ls _ = o' at hcol ⊢
  cases hcol with
  | failed hf =>
    cases o with
    | ok v => exact absurd rfl (hf v)
    | throw e => exact .same (by simp)
    | foreign => exact .same (by simp)
    | ub => exact .same (by simp)
    | diverge => exact .same (by simp)
  | @ok rs rs' hx =>
    simp only [Out.ok_bind]
    have hfl := fills_swapped hc hd before after hx
    generalize oneByOne (fun x : Node × Nat => fillValue x.1 (gotOf rs x.2))
      (valued (before ++ c :: d :: after)) = o at hfl ⊢
    generalize oneByOne (fun x : Node × Nat => fillValue x.1 (gotOf rs' x.2))
      (valued (before ++ d :: c :: after)) = o' at hfl ⊢
    cases hfl with
    | same hf =>
      cases o with
      | ok v => exact absurd rfl (hf v)
      | throw e => exact .same (by simp)
      | foreign => exact .same (by simp)
      | ub => exact .same (by simp)
      | diverge => exact .same (by simp)
    | both h1 h2 =>
      obtain ⟨u, h3, h4⟩ := h1
      obtain ⟨u', h5, h6⟩ := h2
      exact .both ⟨u, h3, failure_trans h4 (failure_bind (failure_not_ok h4) _)⟩
        ⟨u', h5, failure_trans h6 (failure_bind (failure_not_ok h6) _)⟩
    | @ok front back v w hl =>
      simp only [Out.ok_bind]
      have hch := checks_swapped hc hd before after (v := v) (w := w) (back := back) hl
      generalize oneByOne (fun x : (Node × Nat) × Value => checkValue x.1.1 x.2)
        ((valued (before ++ c :: d :: after)).zip (front ++ v :: w :: back)) = o at hch ⊢
      generalize oneByOne (fun x : (Node × Nat) × Value => checkValue x.1.1 x.2)
        ((valued (before ++ d :: c :: after)).zip (front ++ w :: v :: back)) = o' at hch ⊢
      cases hch with
      | same hf =>
        cases o with
        | ok v => exact absurd rfl (hf v)
        | throw e => exact .same (by simp)
        | foreign => exact .same (by simp)
        | ub => exact .same (by simp)
        | diverge => exact .same (by simp)
      | both h1 h2 =>
        obtain ⟨u, h3, h4⟩ := h1
        obtain ⟨u', h5, h6⟩ := h2
        exact .both ⟨u, h3, failure_trans h4 (failure_bind (failure_not_ok h4) _)⟩
          ⟨u', h5, failure_trans h6 (failure_bind (failure_not_ok h6) _)⟩
      | ok =>
        simp only [Out.ok_bind]
        split
        · exact .ok hl
        · exact .same (by simp)

/-! ## What stays the same in the tree -/

theorem swapped_kind {c d m m' : Node} {uid k : Nat} (h : SwappedIn c d uid k m m') :
    m.kind = .mode ∧ m'.kind = .mode ∧ m.policies = m'.policies := by
  cases h <;> exact ⟨rfl, rfl, rfl⟩

theorem swapped_node {c d m m' : Node} {uid k : Nat} (h : SwappedIn c d uid k m m') :
    ∃ g ∈ m.nodes, g.uid = uid := by
  induction h with
  | here => exact ⟨_, self_mem_nodes _, rfl⟩
  | @inside k u h h' v p before after m m' _ ih =>
    obtain ⟨g, h1, h2⟩ := ih
    exact ⟨g, child_mem_nodes (n := .mk .mode u h v p (before ++ m :: after))
      (by simp [Node.children]) _ h1, h2⟩

/-- The two arguments are in the mode. -/
theorem swapped_children {c d m m' : Node} {uid k : Nat} (h : SwappedIn c d uid k m m') :
    (∀ x ∈ c.nodes, x ∈ m.nodes) ∧ ∀ y ∈ d.nodes, y ∈ m.nodes := by
  induction h with
  | @here h h' v p before after =>
    exact ⟨child_mem_nodes (n := .mk .mode uid h v p (before ++ c :: d :: after))
        (by simp [Node.children]),
      child_mem_nodes (n := .mk .mode uid h v p (before ++ c :: d :: after))
        (by simp [Node.children])⟩
  | @inside k u h h' v p before after m m' _ ih =>
    have := child_mem_nodes (n := .mk .mode u h v p (before ++ m :: after)) (c := m)
      (by simp [Node.children])
    exact ⟨fun x hx => this x (ih.1 x hx), fun x hx => this x (ih.2 x hx)⟩

theorem swapped_filter {c d m m' : Node} {uid k : Nat} (h : SwappedIn c d uid k m m')
    {q : Node → Bool} (hc : (∀ x ∈ c.nodes, q x = false) ∨ ∀ y ∈ d.nodes, q y = false)
    (hm : ∀ x, x ∈ m.nodes ∨ x ∈ m'.nodes → x.kind = .mode → q x = false) :
    m'.nodes.filter q = m.nodes.filter q := by
  induction h with
  | here =>
    rw [nodes_mk, nodes_mk,
      List.filter_cons_of_neg (by rw [hm _ (.inr (self_mem_nodes _)) rfl]; simp),
      List.filter_cons_of_neg (by rw [hm _ (.inl (self_mem_nodes _)) rfl]; simp), nodesList_append,
      nodesList_append, nodesList_cons, nodesList_cons, nodesList_cons, nodesList_cons,
      List.filter_append, List.filter_append, List.filter_append, List.filter_append,
      List.filter_append, List.filter_append]
    rcases hc with hc | hc
    · rw [show c.nodes.filter q = [] from List.filter_eq_nil_iff.2 fun x hx => by rw [hc x hx]; simp]
      rfl
    · rw [show d.nodes.filter q = [] from List.filter_eq_nil_iff.2 fun x hx => by rw [hc x hx]; simp]
      rfl
  | @inside k u h h' v p before after d d' _ ih =>
    have ih := ih fun x hx => hm x (hx.imp
      (child_mem_nodes (n := .mk .mode u h v p (before ++ d :: after)) (by simp [Node.children]) x)
      (child_mem_nodes (n := .mk .mode u h' v p (before ++ d' :: after)) (by simp [Node.children]) x))
    rw [nodes_mk, nodes_mk,
      List.filter_cons_of_neg (by rw [hm _ (.inr (self_mem_nodes _)) rfl]; simp),
      List.filter_cons_of_neg (by rw [hm _ (.inl (self_mem_nodes _)) rfl]; simp), nodesList_append,
      nodesList_append, nodesList_cons, nodesList_cons, List.filter_append, List.filter_append,
      List.filter_append, List.filter_append, ih]

theorem matchChild_one {c d : Node} (ht : ∀ x ∈ c.nodes, ∀ y ∈ d.nodes, x.hash ≠ y.hash) (n : Nat) :
    matchChild n c = none ∨ matchChild n d = none := by
  cases h1 : matchChild n c with
  | none => exact .inl rfl
  | some x =>
    right
    unfold matchChild at h1 ⊢
    have hx := List.mem_of_find?_eq_some h1
    have hq := List.find?_some h1
    rw [List.find?_eq_none]
    intro y hy hq2
    simp only [Bool.and_eq_true, beq_iff_eq] at hq hq2
    exact ht x hx y hy (hq.2.trans hq2.2.symm)

theorem swapped_matchChild {c d m m' : Node} {uid k : Nat} (h : SwappedIn c d uid k m m')
    (ht : ∀ x ∈ c.nodes, ∀ y ∈ d.nodes, x.hash ≠ y.hash) (n : Nat) :
    matchChild n m' = matchChild n m := by
  have hone := matchChild_one ht n
  unfold matchChild at hone ⊢
  rw [← List.head?_filter, ← List.head?_filter]
  rw [swapped_filter h]
  · rcases hone with h | h
    · exact .inl fun x hx => by simpa using List.find?_eq_none.1 h x hx
    · exact .inr fun x hx => by simpa using List.find?_eq_none.1 h x hx
  · intro y _ hy
    simp [hy]

theorem swapped_owners {c d m m' : Node} {uid k : Nat} (h : SwappedIn c d uid k m m')
    {refs : List NameRef} (hc : (∀ x ∈ c.nodes, ¬ NamedIn refs x) ∨ ∀ y ∈ d.nodes, ¬ NamedIn refs y)
    (hm : ∀ x, x ∈ m.nodes ∨ x ∈ m'.nodes → x.kind = .mode → x.nameRefs = []) :
    m'.owners refs = m.owners refs := by
  have hnil : ∀ e : Node, (∀ x ∈ e.nodes, ¬ NamedIn refs x) → e.owners refs = [] := by
    intro e he
    rw [List.eq_nil_iff_forall_not_mem]
    intro x hx
    obtain ⟨h1, h2⟩ := (mem_owners refs x e).1 hx
    exact he x h1 h2
  induction h with
  | here =>
    rw [owners_nameless (hm _ (.inr (self_mem_nodes _)) rfl),
      owners_nameless (hm _ (.inl (self_mem_nodes _)) rfl), ownersList_append, ownersList_append,
      Node.ownersList, Node.ownersList, Node.ownersList, Node.ownersList]
    rcases hc with hc | hc
    · rw [hnil c hc]; rfl
    · rw [hnil d hc]; rfl
  | @inside k u h h' v p before after d d' _ ih =>
    have ih := ih fun x hx => hm x (hx.imp
      (child_mem_nodes (n := .mk .mode u h v p (before ++ d :: after)) (by simp [Node.children]) x)
      (child_mem_nodes (n := .mk .mode u h' v p (before ++ d' :: after)) (by simp [Node.children]) x))
    rw [owners_nameless (hm _ (.inr (self_mem_nodes _)) rfl),
      owners_nameless (hm _ (.inl (self_mem_nodes _)) rfl), ownersList_append, ownersList_append,
      Node.ownersList, Node.ownersList, ih]

theorem swapped_namedNodes {c d m m' : Node} {uid k : Nat} (h : SwappedIn c d uid k m m')
    {refs : List NameRef} (hc : (∀ x ∈ c.nodes, ¬ NamedIn refs x) ∨ ∀ y ∈ d.nodes, ¬ NamedIn refs y)
    (hm : ∀ x, x ∈ m.nodes ∨ x ∈ m'.nodes → x.kind = .mode → x.nameRefs = []) :
    namedNodes m' refs = namedNodes m refs := by
  have key : ∀ x : Node, ¬ NamedIn refs x → (x.nameRefs.any fun r => refs.contains r) = false := by
    intro x hx
    rw [Bool.eq_false_iff]
    intro hq
    obtain ⟨r, h1, h2⟩ := List.any_eq_true.1 hq
    exact hx ⟨r, h1, by simpa using h2⟩
  unfold namedNodes
  refine swapped_filter h ?_ ?_
  · exact hc.imp (fun h x hx => key x (h x hx)) fun h x hx => key x (h x hx)
  · intro x hx hk
    simp [hm x hx hk]

/-! ## Readings -/

/-- What has to be known of the names and types in the program. -/
structure Uncrossed (c d mode mode' : Node) : Prop where
  modes : ∀ x, x ∈ mode.nodes ∨ x ∈ mode'.nodes → x.kind = .mode → x.nameRefs = []
  names : ∀ z ∈ mode.nodes, ∀ refs, .alias refs ∈ z.policies ∨ .dependent refs ∈ z.policies →
    (∀ x ∈ c.nodes, ¬ NamedIn refs x) ∨ ∀ y ∈ d.nodes, ¬ NamedIn refs y
  types : ∀ x ∈ mode.nodes, x.nameRefs ≠ [] → x.hash ≠ mode.hash ∧ x.hash ≠ mode'.hash

theorem swapped_claims {cfg : Config} {c d mode mode' : Node} {uid k : Nat}
    (h : SwappedIn c d uid k mode mode') (ha : Uncrossed c d mode mode') {a : Node}
    (ham : a ∈ mode.nodes) {sofar : List Leaf} {t : Token} {rest : List Token} {cl : Claim} :
    Claims cfg mode' sofar a t rest cl ↔ Claims cfg mode sofar a t rest cl := by
  have hown : ∀ refs, .dependent refs ∈ a.policies → mode'.owners refs = mode.owners refs ∧
      ∀ x ∈ mode.owners refs, Spec.Seen ⟨mode', [], sofar⟩ x ↔ Spec.Seen ⟨mode, [], sofar⟩ x := by
    intro refs hr
    refine ⟨swapped_owners h (ha.names a ham refs (.inr hr)) ha.modes, fun x hx => ?_⟩
    obtain ⟨h1, r, h2, h3⟩ := (mem_owners _ _ _).1 hx
    obtain ⟨h4, h5⟩ := ha.types x h1 (List.ne_nil_of_mem h2)
    unfold Spec.Seen
    simp only [Ne.symm h4, Ne.symm h5]
  have hnamed : ∀ refs, .alias refs ∈ a.policies → namedNodes mode' refs = namedNodes mode refs :=
    fun refs hr => swapped_namedNodes h (ha.names a ham refs (.inl hr)) ha.modes
  constructor
  · refine claims_move (fun refs hr => ?_) fun refs hr => (hnamed refs hr).symm
    obtain ⟨h1, h2⟩ := hown refs hr
    exact ⟨h1.symm, fun x hx => (h2 x (h1 ▸ hx)).symm⟩
  · exact claims_move hown hnamed

/-- The arguments of a child. -/
theorem argumentsFrom_child {c : Node} (hc : c.kind ≠ .mode) (i : Nat) (cs : List Node) :
    argumentsFrom i (c :: cs) = (members c).map (fun n => (i, n)) ++ argumentsFrom (i + 1) cs := by
  rw [argumentsFrom, if_neg (by simpa using hc)]

open Classical in
theorem first_find {cfg : Config} {mode : Node} {sofar : List Leaf} {used : List Nat} {t : Token}
    {rest : List Token} {a : Nat × Node} : First cfg mode sofar used t rest a ↔
      (arguments mode).find? (fun x => decide (Wants cfg mode sofar used t rest x)) = some a := by
  rw [List.find?_eq_some_iff_append]
  unfold First
  simp only [decide_eq_true_eq, Bool.not_eq_true', decide_eq_false_iff_not]
  constructor
  · rintro ⟨b, e, h1, h2, h3⟩
    exact ⟨h3, b, e, h1, h2⟩
  · rintro ⟨h3, b, e, h1, h2⟩
    exact ⟨b, e, h1, h2, h3⟩

/-- The first of four lists with the property, if not both of the middle ones have one. -/
theorem find_flip {α : Type} {P P' : α → Bool} {f : α → α} {B C D A : List α}
    (hP : ∀ x ∈ B ++ (C ++ (D ++ A)), P' (f x) = P x)
    (hCD : (∀ x ∈ C, P x = false) ∨ ∀ y ∈ D, P y = false) :
    (B.map f ++ (D.map f ++ (C.map f ++ A.map f))).find? P' =
      ((B ++ (C ++ (D ++ A))).find? P).map f := by
  have key : ∀ l : List α, (∀ x ∈ l, x ∈ B ++ (C ++ (D ++ A))) →
      (l.map f).find? P' = (l.find? P).map f := by
    intro l hl
    induction l with
    | nil => rfl
    | cons x l ih =>
      rw [List.map_cons, List.find?_cons, List.find?_cons, hP x (hl x (by simp))]
      cases P x with
      | true => rfl
      | false => exact ih fun y hy => hl y (List.mem_cons_of_mem _ hy)
  simp only [List.find?_append]
  rw [key B (by intro x hx; simp [hx]), key C (by intro x hx; simp [hx]),
    key D (by intro x hx; simp [hx]), key A (by intro x hx; simp [hx])]
  have hnone : C.find? P = none ∨ D.find? P = none := by
    simp only [List.find?_eq_none]
    exact hCD.imp (fun h x hx => by rw [h x hx]; simp) fun h x hx => by rw [h x hx]; simp
  rcases hnone with h | h <;> rw [h] <;> cases B.find? P <;> (try cases C.find? P) <;>
    (try cases D.find? P) <;> cases A.find? P <;> rfl

theorem swapped_follows {cfg : Config} {argv : List Bytes} {root c d mode mode' : Node} {uid k : Nat}
    (h : SwappedIn c d uid k mode mode') (hi : Independent cfg argv root c d)
    (ha : Uncrossed c d mode mode') : ∃ move, Follows cfg argv move mode mode' := by
  have hcl : ∀ a ∈ arguments mode, ∀ sofar t rest cl,
      Claims cfg mode' sofar a.2 t rest cl ↔ Claims cfg mode sofar a.2 t rest cl :=
    fun a ham sofar t rest cl => swapped_claims h ha (arguments_nodes ham)
  cases h with
  | @here h h' vt p before after =>
    generalize hmo : Node.mk .mode uid h vt p (before ++ c :: d :: after) = mode at hcl ⊢
    generalize hmo' : Node.mk .mode uid h' vt p (before ++ d :: c :: after) = mode' at hcl ⊢
    -- the arguments
    have harg : arguments mode = argumentsFrom 0 before ++ ((members c).map (fun n =>
        (before.length, n)) ++ ((members d).map (fun n => (before.length + 1, n)) ++
          argumentsFrom (before.length + 2) after)) := by
      rw [← hmo]
      unfold arguments
      simp only [Node.children]
      rw [argumentsFrom_append, Nat.zero_add, argumentsFrom_child hi.arguments.1,
        argumentsFrom_child hi.arguments.2]
    have harg' : arguments mode' = argumentsFrom 0 before ++ ((members d).map (fun n =>
        (before.length, n)) ++ ((members c).map (fun n => (before.length + 1, n)) ++
          argumentsFrom (before.length + 2) after)) := by
      rw [← hmo']
      unfold arguments
      simp only [Node.children]
      rw [argumentsFrom_append, Nat.zero_add, argumentsFrom_child hi.arguments.2,
        argumentsFrom_child hi.arguments.1]
    have hwants : ∀ {used sofar t rest a}, a ∈ arguments mode →
        (Wants cfg mode' sofar (used.map (flipped before.length)) t rest
          (flipped before.length a.1, a.2) ↔ Wants cfg mode sofar used t rest a) := by
      intro used sofar t rest a ham
      unfold Wants
      rw [available_move (fun _ _ => flipped_inj) a]
      simp only [hcl a ham]
    have hmove : ∀ x ∈ arguments mode',
        ∃ a ∈ arguments mode, x = (flipped before.length a.1, a.2) := by
      intro x hx
      rw [harg'] at hx
      rw [harg]
      simp only [List.mem_append, List.mem_map] at hx ⊢
      rcases hx with hx | ⟨n, hn, rfl⟩ | ⟨n, hn, rfl⟩ | hx
      · have := argumentsFrom_range hx
        exact ⟨x, .inl hx, by rw [flipped_of_ne (by omega) (by omega)]⟩
      · exact ⟨_, .inr (.inr (.inl ⟨n, hn, rfl⟩)), by rw [flipped_right]⟩
      · exact ⟨_, .inr (.inl ⟨n, hn, rfl⟩), by rw [flipped_left]⟩
      · have := argumentsFrom_range hx
        exact ⟨x, .inr (.inr (.inr hx)), by rw [flipped_of_ne (by omega) (by omega)]⟩
    refine ⟨flipped before.length, fun _ _ => flipped_inj, ?_, ?_, ?_, hcl⟩
    · intro used sofar t rest a ht hf
      classical
      rw [first_find] at hf ⊢
      have hmap : arguments mode' = (argumentsFrom 0 before).map (fun a =>
          (flipped before.length a.1, a.2)) ++ (((members d).map (fun n =>
          (before.length + 1, n))).map (fun a => (flipped before.length a.1, a.2)) ++
          (((members c).map (fun n => (before.length, n))).map (fun a =>
            (flipped before.length a.1, a.2)) ++
            (argumentsFrom (before.length + 2) after).map (fun a =>
              (flipped before.length a.1, a.2)))) := by
        rw [harg', List.map_map, List.map_map]
        have hfix : ∀ (i : Nat) (cs : List Node), i + cs.length ≤ before.length ∨
            before.length + 2 ≤ i → (argumentsFrom i cs).map (fun a =>
              (flipped before.length a.1, a.2)) = argumentsFrom i cs := by
          intro i cs hi
          rw [List.map_congr_left (g := id) (fun a hm => ?_), List.map_id]
          have := argumentsFrom_range hm
          rw [flipped_of_ne (by omega) (by omega)]
          rfl
        rw [hfix 0 before (by omega), hfix (before.length + 2) after (by omega)]
        have e1 : ((fun a : Nat × Node => (flipped before.length a.1, a.2)) ∘
            fun n => (before.length + 1, n)) = fun n => (before.length, n) := by
          funext n
          simp only [Function.comp_apply, flipped_right]
        have e2 : ((fun a : Nat × Node => (flipped before.length a.1, a.2)) ∘
            fun n => (before.length, n)) = fun n => (before.length + 1, n) := by
          funext n
          simp only [Function.comp_apply, flipped_left]
        rw [e1, e2]
      rw [hmap, find_flip (P := fun x => decide (Wants cfg mode sofar used t rest x)), ← harg, hf]
      · rfl
      · intro x hx
        rw [← harg] at hx
        simp only [hwants hx]
      · -- the token is not for both
        simp only [decide_eq_false_iff_not]
        refine Classical.byContradiction fun hn => ?_
        rw [not_or] at hn
        obtain ⟨hn1, hn2⟩ := hn
        refine hn1 fun x hx hwx => hn2 fun y hy hwy => ?_
        obtain ⟨n, hnm, rfl⟩ := List.mem_map.1 hx
        obtain ⟨n', hnm', rfl⟩ := List.mem_map.1 hy
        obtain ⟨⟨_, hc1⟩, -⟩ := hwx
        obtain ⟨⟨_, hc2⟩, -⟩ := hwy
        exact hi.apart t ht n hnm n' hnm' (claims_mentions (hi.named.1 n hnm) hc1)
          (claims_mentions (hi.named.2 n' hnm') hc2)
    · intro used sofar t rest ht hno x hx
      obtain ⟨a, ham, rfl⟩ := hmove x hx
      rw [hwants ham]
      exact hno a ham
    · intro a _
      unfold oneOfAt
      rw [← hmo, ← hmo']
      simp only [Node.children]
      rw [(exchanged_append before c d after).2.2]
  | @inside k u h h' vt p before after m m' hd =>
    obtain ⟨h1, h2, -⟩ := swapped_kind hd
    generalize hmo : Node.mk .mode u h vt p (before ++ m :: after) = mode at hcl ⊢
    generalize hmo' : Node.mk .mode u h' vt p (before ++ m' :: after) = mode' at hcl ⊢
    have harg : arguments mode' = arguments mode := by
      rw [← hmo, ← hmo']
      unfold arguments
      simp only [Node.children, argumentsFrom_append, argumentsFrom, h1, h2, beq_self_eq_true, if_true]
    have hwants : ∀ {used sofar t rest a}, a ∈ arguments mode →
        (Wants cfg mode' sofar used t rest a ↔ Wants cfg mode sofar used t rest a) := by
      intro used sofar t rest a ham
      unfold Wants
      simp only [hcl a ham]
    refine ⟨id, fun i j h => h, ?_, ?_, ?_, hcl⟩
    · intro used sofar t rest a ht hf
      rw [List.map_id]
      obtain ⟨b, e, h3, h4, h5⟩ := hf
      refine ⟨b, e, harg.trans h3, fun x hx => ?_, (hwants (by rw [h3]; simp)).2 h5⟩
      rw [hwants (by rw [h3]; simp [hx])]
      exact h4 x hx
    · intro used sofar t rest ht hno x hx
      rw [List.map_id]
      rw [harg] at hx
      rw [hwants hx]
      exact hno x hx
    · intro a _
      unfold oneOfAt
      rw [← hmo, ← hmo']
      simp only [Node.children, id]
      rcases Nat.lt_trichotomy a.1 before.length with hlt | heq | hgt
      · rw [List.getElem?_append_left hlt, List.getElem?_append_left hlt]
      · rw [heq, List.getElem?_append_right (Nat.le_refl _), List.getElem?_append_right (Nat.le_refl _)]
        simp [h1, h2, Option.filter]
      · rw [List.getElem?_append_right (by omega), List.getElem?_append_right (by omega)]
        obtain ⟨j, hj⟩ : ∃ j, a.1 - before.length = j + 1 := ⟨a.1 - before.length - 1, by omega⟩
        rw [hj]
        rfl

end ArgRouter
