import Verif.Spec.Grown
import Verif.Lemmas.Outcome
import Verif.Props.Outcome

/-!
# A mode with a new argument does with the same uses what it did before
-/

namespace ArgRouter

open Spec Props

/-- Put something in at a place. -/
def putIn {α : Type} (n : Nat) (x : α) (l : List α) : List α := l.take n ++ x :: l.drop n

/-- Where things are after that. -/
def moved (n i : Nat) : Nat := if i < n then i else i + 1

theorem moved_inj {n i j : Nat} (h : moved n i = moved n j) : i = j := by
  unfold moved at h
  split at h <;> split at h <;> omega

theorem moved_ne {n i : Nat} : moved n i ≠ n := by
  unfold moved
  split <;> omega

theorem putIn_cons {α : Type} (n : Nat) (x y : α) (l : List α) :
    putIn (n + 1) x (y :: l) = y :: putIn n x l := rfl

theorem putIn_getElem {α : Type} (n : Nat) (x : α) (l : List α) (hn : n ≤ l.length) (i : Nat) :
    (putIn n x l)[moved n i]? = l[i]? := by
  induction n generalizing l i with
  | zero =>
    simp only [putIn, List.take_zero, List.drop_zero, List.nil_append, moved, Nat.not_lt_zero, if_false,
      List.getElem?_cons_succ]
  | succ n ih =>
    cases l with
    | nil => simp at hn
    | cons y l =>
      rw [putIn_cons]
      cases i with
      | zero => rfl
      | succ i =>
        have : moved (n + 1) (i + 1) = moved n i + 1 := by
          unfold moved
          split <;> split <;> omega
        rw [this, List.getElem?_cons_succ, List.getElem?_cons_succ]
        exact ih l (by simpa using hn) i

theorem putIn_set {α : Type} (n : Nat) (x y : α) (l : List α) (hn : n ≤ l.length) (i : Nat) :
    (putIn n x l).set (moved n i) y = putIn n x (l.set i y) := by
  induction n generalizing l i with
  | zero =>
    simp only [putIn, List.take_zero, List.drop_zero, List.nil_append, moved, Nat.not_lt_zero, if_false,
      List.set_cons_succ]
  | succ n ih =>
    cases l with
    | nil => simp at hn
    | cons z l =>
      rw [putIn_cons]
      cases i with
      | zero => rfl
      | succ i =>
        have : moved (n + 1) (i + 1) = moved n i + 1 := by
          unfold moved
          split <;> split <;> omega
        rw [this, List.set_cons_succ, List.set_cons_succ, putIn_cons]
        rw [ih l (by simpa using hn) i]

theorem putIn_append {α : Type} (x : α) (a c : List α) : putIn a.length x (a ++ c) = a ++ x :: c := by
  simp [putIn]

theorem gotOf_putIn (n : Nat) (l : List (Option Value)) (hn : n ≤ l.length) (i : Nat) :
    gotOf (putIn n none l) (moved n i) = gotOf l i := by
  unfold gotOf
  rw [putIn_getElem n none l hn i]

theorem findChild_from (h : Nat) (cs : List Node) (i : Nat) :
    findChild h cs i = (findChild h cs 0).map fun x => (x.1 + i, x.2) := by
  induction cs generalizing i with
  | nil => rfl
  | cons c cs ih =>
    simp only [findChild]
    cases matchChild h c with
    | some n => simp
    | none =>
      simp only []
      rw [ih (i + 1), ih (0 + 1), Option.map_map]
      congr 1
      funext x
      simp only [Function.comp_apply, Prod.mk.injEq, and_true]
      omega

theorem findChild_added {h : Nat} {c : Node} (hc : matchChild h c = none) (before after : List Node)
    (i : Nat) :
    findChild h (before ++ c :: after) i =
      (findChild h (before ++ after) i).map fun x => (moved (before.length + i) x.1, x.2) := by
  induction before generalizing i with
  | nil =>
    rw [List.nil_append, List.nil_append, findChild, hc]
    simp only []
    rw [findChild_from h after (i + 1), findChild_from h after i, Option.map_map]
    congr 1
    funext x
    simp only [Function.comp_apply, Prod.mk.injEq, and_true, moved, List.length_nil]
    rw [if_neg (by omega)]
    omega
  | cons d before ih =>
    simp only [List.cons_append, findChild]
    cases matchChild h d with
    | some n =>
      simp only [Option.map_some, Option.some.injEq, Prod.mk.injEq, and_true, moved, List.length_cons]
      rw [if_pos (by omega)]
    | none =>
      simp only []
      rw [ih (i + 1), List.length_cons]
      congr 1
      funext x
      rw [show before.length + (i + 1) = before.length + 1 + i by omega]

theorem collectOf_added {c : Node} {before after : List Node} {ls : List Leaf}
    (hc : ∀ l ∈ ls, matchChild l.node.hash c = none) (rs : List (Option Value))
    (hn : before.length ≤ rs.length) :
    collectOf (before ++ c :: after) ls (putIn before.length none rs) =
      (collectOf (before ++ after) ls rs >>= fun rs => .ok (putIn before.length none rs)) := by
  induction ls generalizing rs with
  | nil => rfl
  | cons l ls ih =>
    have ih := ih fun x hx => hc x (List.mem_cons_of_mem _ hx)
    simp only [collectOf]
    cases valueOf l with
    | ok v =>
      simp only [Out.ok_bind]
      rw [findChild_added (hc l List.mem_cons_self), Nat.add_zero]
      cases findChild l.node.hash (before ++ after) 0 with
      | none => exact ih rs hn
      | some x =>
        obtain ⟨i, d, n⟩ := x
        simp only [Option.map_some, gotOf_putIn _ _ hn, putIn_set _ _ _ _ hn]
        split
        · exact ih rs hn
        · split
          · exact ih _ (by rw [List.length_set]; exact hn)
          · split
            · rfl
            · exact ih _ (by rw [List.length_set]; exact hn)
    | _ => rfl

theorem oneByOne_append {α β : Type} (f : α → Out β) (a c : List α) :
    oneByOne f (a ++ c) =
      (oneByOne f a >>= fun xs => oneByOne f c >>= fun ys => .ok (xs ++ ys)) := by
  induction a with
  | nil =>
    simp only [List.nil_append, oneByOne, Out.ok_bind]
    cases oneByOne f c <;> rfl
  | cons x a ih =>
    simp only [List.cons_append, oneByOne, ih]
    cases f x with
    | ok y =>
      simp only [Out.ok_bind]
      cases oneByOne f a with
      | ok ys =>
        simp only [Out.ok_bind, Out.pure_eq]
        cases oneByOne f c <;> rfl
      | _ => rfl
    | _ => rfl

theorem oneByOne_map {α β γ : Type} (f : β → Out γ) (g : α → β) (l : List α) :
    oneByOne f (l.map g) = oneByOne (fun x => f (g x)) l := by
  induction l with
  | nil => rfl
  | cons x l ih => simp only [List.map_cons, oneByOne, ih]

theorem oneByOne_congr {α β : Type} {f g : α → Out β} {l : List α} (h : ∀ x ∈ l, f x = g x) :
    oneByOne f l = oneByOne g l := by
  induction l with
  | nil => rfl
  | cons x l ih =>
    simp only [oneByOne, h x List.mem_cons_self, ih fun y hy => h y (List.mem_cons_of_mem _ hy)]

theorem valuedFrom_append (k : Nat) (a c : List Node) :
    valuedFrom k (a ++ c) = valuedFrom k a ++ valuedFrom (k + a.length) c := by
  unfold valuedFrom
  rw [List.zipIdx_append, List.filter_append]

theorem valuedFrom_mem {k : Nat} {cs : List Node} {x : Node × Nat} (h : x ∈ valuedFrom k cs) :
    k ≤ x.2 ∧ x.2 < k + cs.length := by
  have := List.mem_zipIdx (x := x.1) (i := x.2) (k := k) (List.mem_filter.1 h).1
  exact ⟨this.1, by omega⟩

theorem valuedFrom_succ (k : Nat) (cs : List Node) :
    valuedFrom (k + 1) cs = (valuedFrom k cs).map fun x => (x.1, x.2 + 1) := by
  induction cs generalizing k with
  | nil => rfl
  | cons c cs ih =>
    rw [valuedFrom_cons, valuedFrom_cons, ih (k + 1)]
    cases c.hasNoResult <;> rfl

theorem valuedFrom_length (k : Nat) (cs : List Node) : (valuedFrom k cs).length = parameters cs := by
  induction cs generalizing k with
  | nil => rfl
  | cons c cs ih =>
    rw [valuedFrom_cons]
    unfold parameters
    rw [List.filter_cons]
    cases c.hasNoResult
    · simp only [Bool.false_eq_true, if_false, List.length_cons, ih, Bool.not_false, if_true]; rfl
    · simp only [if_true, ih, Bool.not_true, Bool.false_eq_true, if_false]; rfl

theorem optional_fills {c : Node} {v : Value} (h : Optional c v) : fillValue c none = .ok v :=
  (fills_iff c none (.ok v)).1 (.fallback h.fallback h.fine)

theorem optional_checks {c : Node} {v : Value} (h : Optional c v) : checkValue c v = .ok () := by
  unfold checkValue
  split
  · exact (judged_iff _ _ _).1 h.fine
  · rfl

theorem matchChild_optional {c : Node} {v : Value} (h : Optional c v) {x : Nat} (hx : x ≠ c.hash) :
    matchChild x c = none := by
  have hs := h.single
  obtain ⟨k, u, hh, vt, p, cs⟩ := c
  simp only [Node.children] at hs
  subst hs
  unfold matchChild
  rw [nodes_mk, show nodesList [] = [] from rfl, List.find?_cons_of_neg, List.find?_nil]
  simp only [Node.hash] at hx
  simp only [Node.hash, Bool.and_eq_true, beq_iff_eq, not_and]
  exact fun _ h => hx h.symm

theorem valued_added {c : Node} {v : Value} (hc : Optional c v) (before after : List Node) :
    valued (before ++ c :: after) = valuedFrom 0 before ++ (c, before.length) ::
      (valuedFrom before.length after).map fun x => (x.1, x.2 + 1) := by
  rw [show valued (before ++ c :: after) = valuedFrom 0 (before ++ c :: after) from rfl,
    valuedFrom_append, valuedFrom_cons, hc.value, Nat.zero_add, valuedFrom_succ]
  rfl

theorem valued_old (before after : List Node) :
    valued (before ++ after) = valuedFrom 0 before ++ valuedFrom before.length after := by
  rw [show valued (before ++ after) = valuedFrom 0 (before ++ after) from rfl,
    valuedFrom_append, Nat.zero_add]

theorem fills_added {c : Node} {v : Value} (hc : Optional c v) (before after : List Node)
    (rs : List (Option Value)) (hn : before.length ≤ rs.length) :
    oneByOne (fun x => fillValue x.1 (gotOf (putIn before.length none rs) x.2))
        (valued (before ++ c :: after)) =
      (oneByOne (fun x => fillValue x.1 (gotOf rs x.2)) (valued (before ++ after)) >>= fun vals =>
        .ok (putIn (parameters before) v vals)) := by
  rw [valued_added hc, valued_old, oneByOne_append, oneByOne_append]
  rw [oneByOne_congr (l := valuedFrom 0 before) (g := fun x => fillValue x.1 (gotOf rs x.2))]
  · cases h1 : oneByOne (fun x => fillValue x.1 (gotOf rs x.2)) (valuedFrom 0 before) with
    | ok xs =>
      simp only [Out.ok_bind, oneByOne, oneByOne_map]
      have hnew : gotOf (putIn before.length none rs) before.length = none := by
        unfold gotOf putIn
        rw [List.getElem?_append_right (by simp [hn])]
        simp [Nat.min_eq_left hn]
      rw [hnew, optional_fills hc]
      simp only [Out.ok_bind]
      rw [oneByOne_congr (l := valuedFrom before.length after)
        (g := fun x => fillValue x.1 (gotOf rs x.2))]
      · cases h2 : oneByOne (fun x => fillValue x.1 (gotOf rs x.2)) (valuedFrom before.length after) with
        | ok ys =>
          simp only [Out.ok_bind, Out.pure_eq, Out.ok.injEq]
          have hl := oneByOne_length h1
          rw [valuedFrom_length] at hl
          rw [← hl, putIn_append]
        | _ => rfl
      · intro x hx
        have := valuedFrom_mem hx
        rw [← gotOf_putIn before.length rs hn x.2]
        unfold moved
        rw [if_neg (by omega)]
    | _ => rfl
  · intro x hx
    have := valuedFrom_mem hx
    rw [← gotOf_putIn before.length rs hn x.2]
    unfold moved
    rw [if_pos (by omega)]

theorem checks_added {c : Node} {v : Value} (hc : Optional c v) (before after : List Node)
    (vals : List Value) (hl : vals.length = (valued (before ++ after)).length) :
    (oneByOne (fun x => checkValue x.1.1 x.2)
        ((valued (before ++ c :: after)).zip (putIn (parameters before) v vals)) >>= fun _ => .ok () :
          Out Unit) =
      (oneByOne (fun x => checkValue x.1.1 x.2) ((valued (before ++ after)).zip vals) >>= fun _ =>
        .ok ()) := by
  rw [valued_old] at hl
  rw [List.length_append, valuedFrom_length] at hl
  obtain ⟨xs, ys, rfl, hx⟩ : ∃ xs ys, vals = xs ++ ys ∧ xs.length = parameters before :=
    ⟨vals.take (parameters before), vals.drop (parameters before), (List.take_append_drop _ _).symm,
      by rw [List.length_take]; omega⟩
  rw [← hx, putIn_append, valued_added hc, valued_old]
  have h1 : (valuedFrom 0 before).length = xs.length := by rw [valuedFrom_length, hx]
  rw [List.zip_append h1, List.zip_append h1, oneByOne_append, oneByOne_append, List.zip_cons_cons]
  cases oneByOne (fun x : (Node × Nat) × Value => checkValue x.1.1 x.2)
      ((valuedFrom 0 before).zip xs) with
  | ok us =>
    simp only [Out.ok_bind, oneByOne, optional_checks hc, List.zip_map_left, oneByOne_map]
    simp only [Prod.map, id]
    cases oneByOne (fun x : (Node × Nat) × Value => checkValue x.1.1 x.2)
        ((valuedFrom before.length after).zip ys) <;> rfl
  | _ => rfl

/-- The mode with the new argument. -/
theorem modeOf_added {c : Node} {v : Value} (hc : Optional c v) {uid h h' : Nat} {vt : ValueType}
    {p : List Policy} {before after : List Node} {ls : List Leaf}
    (hls : ∀ l ∈ ls, l.node.hash ≠ c.hash) :
    modeOf (.mk .mode uid h' vt p (before ++ c :: after)) ls =
      (modeOf (.mk .mode uid h vt p (before ++ after)) ls >>= fun vals =>
        .ok (putIn (parameters before) v vals)) := by
  have hrep : (List.replicate (before ++ c :: after).length none : List (Option Value)) =
      putIn before.length none (List.replicate (before ++ after).length none) := by
    unfold putIn
    rw [List.take_replicate, List.drop_replicate, ← List.replicate_succ, List.replicate_append_replicate]
    congr 1
    simp only [List.length_append, List.length_cons]
    omega
  have hr : (Node.mk .mode uid h' vt p (before ++ c :: after)).hasRouter =
      (Node.mk .mode uid h vt p (before ++ after)).hasRouter := rfl
  have ht : (Node.mk .mode uid h' vt p (before ++ c :: after)).tokenType =
      (Node.mk .mode uid h vt p (before ++ after)).tokenType := rfl
  unfold modeOf
  rw [hr, ht]
  simp only [Node.children]
  rw [hrep, collectOf_added (fun l hl => matchChild_optional hc (hls l hl)) _
    (by rw [List.length_replicate, List.length_append]; omega)]
  cases hcol : collectOf (before ++ after) ls (List.replicate (before ++ after).length none) with
  | ok rs =>
    have hlen := collectOf_length hcol
    rw [List.length_replicate, List.length_append] at hlen
    simp only [Out.ok_bind]
    rw [fills_added hc before after rs (by omega)]
    cases hf : oneByOne (fun x => fillValue x.1 (gotOf rs x.2)) (valued (before ++ after)) with
    | ok vals =>
      have := checks_added hc before after vals (oneByOne_length hf)
      simp only [Out.ok_bind]
      revert this
      cases oneByOne (fun x : (Node × Nat) × Value => checkValue x.1.1 x.2)
          ((valued (before ++ after)).zip vals) <;>
        cases oneByOne (fun x : (Node × Nat) × Value => checkValue x.1.1 x.2)
          ((valued (before ++ c :: after)).zip (putIn (parameters before) v vals)) <;>
        simp
      · split <;> rfl
    | _ => rfl
  | _ => rfl

/-! ## A mode in it has the new argument -/

theorem findChild_inside {h : Nat} {d d' : Node} (hd : matchChild h d' = matchChild h d)
    (before after : List Node) (i : Nat) :
    findChild h (before ++ d' :: after) i = findChild h (before ++ d :: after) i ∨
    ∃ j n, findChild h (before ++ d :: after) i = some (j, d, n) ∧
      findChild h (before ++ d' :: after) i = some (j, d', n) := by
  induction before generalizing i with
  | nil =>
    simp only [List.nil_append, findChild, hd]
    cases matchChild h d with
    | none => exact .inl rfl
    | some n => exact .inr ⟨_, _, rfl, rfl⟩
  | cons e before ih =>
    simp only [List.cons_append, findChild]
    cases matchChild h e with
    | none => exact ih (i + 1)
    | some n => exact .inl rfl

theorem collectOf_inside {d d' : Node} {before after : List Node} {ls : List Leaf}
    (hd : ∀ l ∈ ls, matchChild l.node.hash d' = matchChild l.node.hash d)
    (h1 : d.hasNoResult = true) (h2 : d'.hasNoResult = true) (rs : List (Option Value)) :
    collectOf (before ++ d' :: after) ls rs = collectOf (before ++ d :: after) ls rs := by
  induction ls generalizing rs with
  | nil => rfl
  | cons l ls ih =>
    have ih := ih fun x hx => hd x (List.mem_cons_of_mem _ hx)
    simp only [collectOf]
    cases valueOf l with
    | ok v =>
      simp only [Out.ok_bind]
      rcases findChild_inside (hd l List.mem_cons_self) before after 0 with h | ⟨j, n, h3, h4⟩
      · rw [h]
        cases findChild l.node.hash (before ++ d :: after) 0 with
        | none => exact ih rs
        | some x => simp only [ih]
      · rw [h3, h4]
        simp only [h1, h2, if_true]
        exact ih rs
    | _ => rfl

theorem valued_inside {d d' : Node} (h1 : d.hasNoResult = true) (h2 : d'.hasNoResult = true)
    (before after : List Node) : valued (before ++ d' :: after) = valued (before ++ d :: after) := by
  rw [valued_old, valued_old, valuedFrom_cons, valuedFrom_cons, h1, h2]
  rfl

theorem modeOf_inside {d d' : Node} {uid h h' : Nat} {vt : ValueType}
    {p : List Policy} {before after : List Node} {ls : List Leaf}
    (hd : ∀ l ∈ ls, matchChild l.node.hash d' = matchChild l.node.hash d)
    (h1 : d.hasNoResult = true) (h2 : d'.hasNoResult = true) :
    modeOf (.mk .mode uid h' vt p (before ++ d' :: after)) ls =
      modeOf (.mk .mode uid h vt p (before ++ d :: after)) ls := by
  have hr : (Node.mk .mode uid h' vt p (before ++ d' :: after)).hasRouter =
      (Node.mk .mode uid h vt p (before ++ d :: after)).hasRouter := rfl
  have ht : (Node.mk .mode uid h' vt p (before ++ d' :: after)).tokenType =
      (Node.mk .mode uid h vt p (before ++ d :: after)).tokenType := rfl
  unfold modeOf
  rw [hr, ht]
  simp only [Node.children]
  rw [collectOf_inside hd h1 h2, valued_inside h1 h2]
  simp only [List.length_append, List.length_cons]

/-! ## What stays the same in the tree -/

theorem nodesList_append (a c : List Node) : nodesList (a ++ c) = nodesList a ++ nodesList c := by
  simp [nodesList]

theorem nodesList_cons (c : Node) (cs : List Node) : nodesList (c :: cs) = c.nodes ++ nodesList cs := by
  simp [nodesList]

theorem nodes_single {c : Node} (h : c.children = []) : c.nodes = [c] := by
  obtain ⟨k, u, hh, vt, p, cs⟩ := c
  simp only [Node.children] at h
  subst h
  rw [nodes_mk]
  rfl

theorem added_kind {c d d' : Node} {uid k : Nat} (h : AddedTo c uid k d d') :
    d.kind = .mode ∧ d'.kind = .mode ∧ d.policies = d'.policies ∧ d.uid = d'.uid := by
  cases h <;> exact ⟨rfl, rfl, rfl, rfl⟩

theorem added_filter {c d d' : Node} {uid k : Nat} (h : AddedTo c uid k d d') (hs : c.children = [])
    {q : Node → Bool} (hc : q c = false)
    (hm : ∀ x, x ∈ d.nodes ∨ x ∈ d'.nodes → x.kind = .mode → q x = false) :
    d'.nodes.filter q = d.nodes.filter q := by
  induction h with
  | here =>
    rw [nodes_mk, nodes_mk,
      List.filter_cons_of_neg (by rw [hm _ (.inr (self_mem_nodes _)) rfl]; simp),
      List.filter_cons_of_neg (by rw [hm _ (.inl (self_mem_nodes _)) rfl]; simp), nodesList_append, nodesList_append,
      nodesList_cons, nodes_single hs, List.filter_append, List.filter_append, List.filter_append,
      List.filter_cons_of_neg (by rw [hc]; simp)]
    rfl
  | @inside k u h h' v p before after d d' _ ih =>
    have ih := ih fun x hx => hm x (hx.imp
      (child_mem_nodes (n := .mk .mode u h v p (before ++ d :: after)) (by simp [Node.children]) x)
      (child_mem_nodes (n := .mk .mode u h' v p (before ++ d' :: after)) (by simp [Node.children]) x))
    rw [nodes_mk, nodes_mk,
      List.filter_cons_of_neg (by rw [hm _ (.inr (self_mem_nodes _)) rfl]; simp),
      List.filter_cons_of_neg (by rw [hm _ (.inl (self_mem_nodes _)) rfl]; simp), nodesList_append, nodesList_append,
      nodesList_cons, nodesList_cons, List.filter_append, List.filter_append, List.filter_append,
      List.filter_append, ih]

theorem added_matchChild {c d d' : Node} {uid k : Nat} (h : AddedTo c uid k d d')
    (hs : c.children = []) {x : Nat} (hx : x ≠ c.hash) : matchChild x d' = matchChild x d := by
  unfold matchChild
  rw [← List.head?_filter, ← List.head?_filter]
  rw [added_filter h hs]
  · rw [Bool.eq_false_iff]
    intro hq
    simp only [Bool.and_eq_true, beq_iff_eq] at hq
    exact hx hq.2.symm
  · intro y _ hy
    simp [hy]

theorem ownersList_append (refs : List NameRef) (a c : List Node) :
    Node.ownersList refs (a ++ c) = Node.ownersList refs a ++ Node.ownersList refs c := by
  induction a with
  | nil => rfl
  | cons x a ih => rw [List.cons_append, Node.ownersList, ih, Node.ownersList, List.append_assoc]

theorem owners_nameless {refs : List NameRef} {k : Kind} {u h : Nat} {v : ValueType} {p : List Policy}
    {cs : List Node} (hn : (Node.mk k u h v p cs).nameRefs = []) :
    (Node.mk k u h v p cs).owners refs = Node.ownersList refs cs := by
  rw [Node.owners, hn]
  simp

theorem owners_stranger {refs : List NameRef} {c : Node} (hs : c.children = [])
    (hc : ¬ NamedIn refs c) : c.owners refs = [] := by
  rw [List.eq_nil_iff_forall_not_mem]
  intro x hx
  obtain ⟨h1, h2⟩ := (mem_owners refs x c).1 hx
  rw [nodes_single hs, List.mem_singleton] at h1
  exact hc (h1 ▸ h2)

theorem added_owners {c d d' : Node} {uid k : Nat} (h : AddedTo c uid k d d') (hs : c.children = [])
    {refs : List NameRef} (hc : ¬ NamedIn refs c)
    (hm : ∀ x, x ∈ d.nodes ∨ x ∈ d'.nodes → x.kind = .mode → x.nameRefs = []) :
    d'.owners refs = d.owners refs := by
  induction h with
  | here =>
    rw [owners_nameless (hm _ (.inr (self_mem_nodes _)) rfl),
      owners_nameless (hm _ (.inl (self_mem_nodes _)) rfl), ownersList_append, ownersList_append,
      Node.ownersList, owners_stranger hs hc]
    rfl
  | @inside k u h h' v p before after d d' _ ih =>
    have ih := ih fun x hx => hm x (hx.imp
      (child_mem_nodes (n := .mk .mode u h v p (before ++ d :: after)) (by simp [Node.children]) x)
      (child_mem_nodes (n := .mk .mode u h' v p (before ++ d' :: after)) (by simp [Node.children]) x))
    rw [owners_nameless (hm _ (.inr (self_mem_nodes _)) rfl),
      owners_nameless (hm _ (.inl (self_mem_nodes _)) rfl), ownersList_append, ownersList_append,
      Node.ownersList, Node.ownersList, ih]

theorem added_namedNodes {c d d' : Node} {uid k : Nat} (h : AddedTo c uid k d d') (hs : c.children = [])
    {refs : List NameRef} (hc : ¬ NamedIn refs c)
    (hm : ∀ x, x ∈ d.nodes ∨ x ∈ d'.nodes → x.kind = .mode → x.nameRefs = []) :
    namedNodes d' refs = namedNodes d refs := by
  unfold namedNodes
  refine added_filter h hs ?_ ?_
  · rw [Bool.eq_false_iff]
    intro hq
    obtain ⟨r, h1, h2⟩ := List.any_eq_true.1 hq
    exact hc ⟨r, h1, by simpa using h2⟩
  · intro x hx hk
    simp [hm x hx hk]

/-! ## Claims -/

theorem shape_alias {c : Node} {sh : Shape} (hd : Declared c sh) {refs : List NameRef}
    (h : sh.aliasOf = some refs) : .alias refs ∈ c.policies :=
  (List.mem_filter.1 (hd.policies.mem_iff.2 (by simp [Shape.policies, h]))).1

theorem shape_needs {c : Node} {sh : Shape} (hd : Declared c sh) {refs : List NameRef}
    (h : sh.needs = some refs) : .dependent refs ∈ c.policies :=
  (List.mem_filter.1 (hd.policies.mem_iff.2 (by simp [Shape.policies, h]))).1

theorem claims_move {cfg : Config} {mode mode' a : Node} {sofar : List Leaf} {t : Token}
    {rest : List Token} {cl : Claim}
    (hown : ∀ refs, .dependent refs ∈ a.policies → mode'.owners refs = mode.owners refs ∧
      ∀ x ∈ mode.owners refs, Spec.Seen ⟨mode', [], sofar⟩ x ↔ Spec.Seen ⟨mode, [], sofar⟩ x)
    (hnamed : ∀ refs, .alias refs ∈ a.policies → namedNodes mode' refs = namedNodes mode refs)
    (h : Claims cfg mode sofar a t rest cl) : Claims cfg mode' sofar a t rest cl := by
  obtain ⟨sh, hd, h⟩ := h
  refine ⟨sh, hd, ?_⟩
  have hl : ∀ d, Lacks mode' sofar sh d ↔ Lacks mode sofar sh d := by
    intro d
    unfold Lacks
    constructor
    · rintro ⟨refs, pre, post, h1, h2, h3, h4⟩
      obtain ⟨h5, h6⟩ := hown refs (shape_needs hd h1)
      rw [h5] at h2
      rw [h2] at h6
      exact ⟨refs, pre, post, h1, h2, fun x hx => (h6 x (by simp [hx])).1 (h3 x hx),
        fun h => h4 ((h6 d (by simp)).2 h)⟩
    · rintro ⟨refs, pre, post, h1, h2, h3, h4⟩
      obtain ⟨h5, h6⟩ := hown refs (shape_needs hd h1)
      rw [h2] at h6
      exact ⟨refs, pre, post, h1, h5.trans h2, fun x hx => (h6 x (by simp [hx])).2 (h3 x hx),
        fun h => h4 ((h6 d (by simp)).1 h)⟩
  have hu : ∀ vs, sh.uses mode a vs = sh.uses mode' a vs := by
    intro vs
    unfold Shape.uses
    cases ha : sh.aliasOf with
    | none => rfl
    | some refs => simp only [hnamed refs (shape_alias hd ha)]
  cases h with
  | noSeparator hs hc hl => exact .noSeparator hs hc hl
  | count hl hv => exact .count hl hv
  | lacks hl' hv hd => exact .lacks hl' hv ((hl _).2 hd)
  | takes hl' hv hd => rw [hu]; exact .takes hl' hv fun d h => hd d ((hl d).1 h)

theorem claims_mentions {cfg : Config} {mode c : Node} {sofar : List Leaf} {t : Token}
    {rest : List Token} {cl : Claim} (hn : c.isNamed = true) (h : Claims cfg mode sofar c t rest cl) :
    Mentions cfg c t := by
  obtain ⟨sh, hd, h⟩ := h
  have hl : ∀ follows, Labels cfg c sh t rest follows → Mentions cfg c t := by
    intro follows hl
    cases hl with
    | label _ hl => exact .inl hl
    | collapsed he hx hg hn =>
      refine .inr (.inr ⟨_, _, _, ?_, hx, hg, hn⟩)
      exact (List.mem_filter.1 (hd.policies.mem_iff.2 (by simp [Shape.policies, he]))).1
    | separated hs ht _ _ hl =>
      refine .inr (.inl ⟨_, _, _, ht, ?_, hl⟩)
      exact (List.mem_filter.1 (hd.policies.mem_iff.2 (by simp [Shape.policies, hs]))).1
    | positional hp => rw [hn] at hp; cases hp
  cases h with
  | noSeparator _ _ hl => exact .inl hl
  | count h => exact hl _ h
  | lacks h => exact hl _ h
  | takes h => exact hl _ h

/-- An argument that is switched off claims nothing. -/
theorem claims_disabled {cfg : Config} {mode c : Node} {sofar : List Leaf} {t : Token}
    {rest : List Token} {cl : Claim} (hd : Disabled c) : ¬ Claims cfg mode sofar c t rest cl := by
  rintro ⟨sh, hsh, -⟩
  obtain ⟨p, hp, hdp⟩ := hd
  have hpm : p.matters = true := by
    cases p <;> simp [Policy.disables, Policy.matters] at hdp ⊢ <;> exact hdp
  have := hsh.policies.mem_iff.1 (List.mem_filter.2 ⟨hp, hpm⟩)
  simp only [Shape.policies, List.mem_append, Option.mem_toList, Option.map_eq_some_iff,
    List.mem_singleton] at this
  rcases this with ((((⟨_, _, rfl⟩ | h) | ⟨_, _, rfl⟩) | rfl) | ⟨_, _, rfl⟩) | ⟨_, _, rfl⟩
  all_goals first
    | (simp [Policy.disables] at hdp; done)
    | skip
  split at h
  · rw [List.mem_singleton.1 h] at hdp; simp [Policy.disables] at hdp
  · cases h

theorem values_left {sh : Shape} {c : Node} {follows vs left : List Token}
    (h : sh.values c follows = .ok (vs, left)) : ∀ x ∈ left, x ∈ follows := by
  unfold Shape.values at h
  intro x hx
  split at h
  · split at h
    · cases h
    · cases h
      exact List.mem_of_mem_drop hx
  · split at h
    · cases h
    · split at h
      · cases h
      · cases h
        unfold afterMarker at hx
        exact (List.dropWhile_sublist _).subset (List.mem_of_mem_drop hx)

theorem claims_left {cfg : Config} {argv : List Bytes} {mode c : Node} {sofar uses : List Leaf}
    {t : Token} {rest left : List Token} (h : Claims cfg mode sofar c t rest (.takes uses left))
    (ht : ∀ x ∈ t :: rest, Arises cfg argv x) : ∀ x ∈ left, Arises cfg argv x := by
  obtain ⟨sh, hd, h⟩ := h
  generalize hcl : Claim.takes uses left = cl at h
  cases h with
  | @takes follows vs left' hl hv _ =>
    cases hcl
    have hin := values_left hv
    intro x hx
    cases hl with
    | label => exact ht x (List.mem_cons_of_mem _ (hin x hx))
    | collapsed he hxs hg hn =>
      rcases List.mem_append.1 (hin x hx) with h1 | h1
      · obtain ⟨g, hg', rfl⟩ := List.mem_map.1 h1
        exact .part (ht t List.mem_cons_self) hxs hg (List.mem_cons_of_mem _ hg')
      · exact ht x (List.mem_cons_of_mem _ h1)
    | separated hs h1 h2 h3 h4 =>
      obtain ⟨-, -, hmin, hmax, -⟩ := hd.separated (by simp [hs])
      have hmk : sh.marker = none := by
        cases hm : sh.marker with
        | none => rfl
        | some m =>
          have := (hd.marked (by simp [hm])).1
          rw [hs] at this
          cases this
      unfold Shape.values at hv
      rw [hmk] at hv
      simp only [hmin, hmax] at hv
      split at hv
      · cases hv
      · cases hv
        exact ht x (List.mem_cons_of_mem _ hx)
    | positional => exact ht x (hin x hx)
  | _ => cases hcl

/-! ## Readings -/

/-- How the arguments of a mode with a new argument relate to those of the old mode. -/
structure Keeps (cfg : Config) (c : Node) (move : Nat → Nat) (mode mode' : Node) : Prop where
  inj : ∀ i j, move i = move j → i = j
  args : ∃ front back new, arguments mode = front ++ back ∧
    arguments mode' = front.map (fun a => (move a.1, a.2)) ++
      (new ++ back.map fun a => (move a.1, a.2)) ∧ ∀ x ∈ new, x.2 = c
  oneOf : ∀ a ∈ arguments mode, oneOfAt mode' (move a.1, a.2) = oneOfAt mode a
  claims : ∀ a ∈ arguments mode, ∀ sofar t rest cl,
    Claims cfg mode' sofar a.2 t rest cl ↔ Claims cfg mode sofar a.2 t rest cl

theorem available_move {move : Nat → Nat} (hinj : ∀ i j, move i = move j → i = j)
    {used : List Nat} (a : Nat × Node) :
    Available (used.map move) (move a.1, a.2) ↔ Available used a := by
  unfold Available
  have : move a.1 ∈ used.map move ↔ a.1 ∈ used := by
    rw [List.mem_map]
    constructor
    · rintro ⟨j, hj, he⟩
      exact hinj _ _ he ▸ hj
    · exact fun h => ⟨_, h, rfl⟩
  rw [this]

theorem keeps_wants {cfg : Config} {c mode mode' : Node} {move : Nat → Nat}
    (h : Keeps cfg c move mode mode') {used : List Nat} {a : Nat × Node} (ha : a ∈ arguments mode)
    {sofar : List Leaf} {t : Token} {rest : List Token} :
    Wants cfg mode' sofar (used.map move) t rest (move a.1, a.2) ↔
      Wants cfg mode sofar used t rest a := by
  unfold Wants
  rw [available_move h.inj a]
  simp only [h.claims a ha]

theorem keeps_first {cfg : Config} {c mode mode' : Node} {move : Nat → Nat}
    (h : Keeps cfg c move mode mode') {used : List Nat} {a : Nat × Node}
    {sofar : List Leaf} {t : Token} {rest : List Token}
    (hc : ∀ cl, ¬ Claims cfg mode' sofar c t rest cl)
    (hf : First cfg mode sofar used t rest a) :
    First cfg mode' sofar (used.map move) t rest (move a.1, a.2) := by
  obtain ⟨before, after, h1, h2, h3⟩ := hf
  have hin : ∀ x ∈ before ++ a :: after, x ∈ arguments mode := fun x hx => h1 ▸ hx
  obtain ⟨front, back, new, h4, h5, h6⟩ := h.args
  have hnew : ∀ x ∈ new, ¬ Wants cfg mode' sofar (used.map move) t rest x := by
    rintro x hx ⟨⟨cl, hcl⟩, -⟩
    rw [h6 x hx] at hcl
    exact hc cl hcl
  have hbef : ∀ x ∈ before.map (fun a => (move a.1, a.2)),
      ¬ Wants cfg mode' sofar (used.map move) t rest x := by
    intro x hx
    obtain ⟨y, hy, rfl⟩ := List.mem_map.1 hx
    rw [keeps_wants h (hin y (by simp [hy]))]
    exact h2 y hy
  have hwant := (keeps_wants (used := used) (sofar := sofar) (t := t) (rest := rest) h
    (hin a (by simp))).2 h3
  rw [h4] at h1
  rcases List.append_eq_append_iff.1 h1 with ⟨l, h7, h8⟩ | ⟨l, h7, h8⟩
  · -- the argument is behind the new one
    refine ⟨front.map (fun a => (move a.1, a.2)) ++ (new ++ l.map fun a => (move a.1, a.2)),
      after.map fun a => (move a.1, a.2), ?_, ?_, hwant⟩
    · rw [h5, h8]
      simp
    · intro x hx
      rcases List.mem_append.1 hx with hx | hx
      · exact hbef x (by rw [h7, List.map_append]; exact List.mem_append_left _ hx)
      · rcases List.mem_append.1 hx with hx | hx
        · exact hnew x hx
        · exact hbef x (by rw [h7, List.map_append]; exact List.mem_append_right _ hx)
  · cases l with
    | nil =>
      simp only [List.nil_append] at h8
      simp only [List.append_nil] at h7
      refine ⟨front.map (fun a => (move a.1, a.2)) ++ new, after.map fun a => (move a.1, a.2), ?_, ?_,
        hwant⟩
      · rw [h5, ← h8]
        simp
      · intro x hx
        rcases List.mem_append.1 hx with hx | hx
        · exact hbef x (h7 ▸ hx)
        · exact hnew x hx
    | cons y l =>
      simp only [List.cons_append, List.cons.injEq] at h8
      obtain ⟨rfl, h8⟩ := h8
      refine ⟨before.map fun a => (move a.1, a.2), l.map (fun a => (move a.1, a.2)) ++
        (new ++ back.map fun a => (move a.1, a.2)), ?_, hbef, hwant⟩
      rw [h5, h7]
      simp

/-- A reading that ends with a token nobody wants. -/
def Unwanted (r : Result) : Prop :=
  (∃ t, r = .unknown t) ∨ ∃ e, r = .fails e ∧ e.ec = .unhandled_arguments

/-- What has to be known of two modes for the second to read command lines as the first does, with its
children in other places. -/
structure Follows (cfg : Config) (argv : List Bytes) (move : Nat → Nat) (mode mode' : Node) : Prop where
  inj : ∀ i j, move i = move j → i = j
  first : ∀ {used sofar t rest a}, Arises cfg argv t → First cfg mode sofar used t rest a →
    First cfg mode' sofar (used.map move) t rest (move a.1, a.2)
  none : ∀ {used sofar t rest}, Arises cfg argv t →
    (∀ a ∈ arguments mode, ¬ Wants cfg mode sofar used t rest a) →
    ∀ a ∈ arguments mode', ¬ Wants cfg mode' sofar (used.map move) t rest a
  oneOf : ∀ a ∈ arguments mode, oneOfAt mode' (move a.1, a.2) = oneOfAt mode a
  claims : ∀ a ∈ arguments mode, ∀ sofar t rest cl,
    Claims cfg mode' sofar a.2 t rest cl ↔ Claims cfg mode sofar a.2 t rest cl

theorem follows_reading {cfg : Config} {argv : List Bytes} {mode mode' : Node} {move : Nat → Nat}
    (h : Follows cfg argv move mode mode') {chosen chosen' : Choices}
    {sofar : List Leaf} {used : List Nat} {args : List Token} {r : Result}
    (hr : Reading cfg mode chosen sofar used args r chosen')
    (hargs : ∀ t ∈ args, Arises cfg argv t) :
    ∃ r', Reading cfg mode' chosen sofar (used.map move) args r' chosen' ∧
      (r' = r ∨ (Unwanted r ∧ Unwanted r')) := by
  have hlost : ∀ (chosen : Choices) (sofar : List Leaf) (used : List Nat) (t : Token)
      (rest : List Token), Arises cfg argv t →
      (∀ a ∈ arguments mode, ¬ Wants cfg mode sofar used t rest a) →
      ∃ r', Reading cfg mode' chosen sofar (used.map move) (t :: rest) r' chosen ∧ Unwanted r' := by
    intro chosen sofar used t rest ht hno
    have hno' := h.none ht hno
    by_cases hall : ∀ i, i < mode'.children.length → i ∈ used.map move
    · exact ⟨_, .unhandled hno' hall, .inr ⟨_, rfl, rfl⟩⟩
    · refine ⟨_, .unknown hno' ?_, .inl ⟨_, rfl⟩⟩
      exact Classical.byContradiction fun hn => hall fun i hi =>
        Classical.byContradiction fun hin => hn ⟨i, hi, hin⟩
  induction hr with
  | done => exact ⟨_, .done, .inl rfl⟩
  | @take chosen chosen' sofar uses used t rest left a r hf hk ha hcl hrd ih =>
    have ham : a ∈ arguments mode := by
      obtain ⟨before, after, h3, -⟩ := hf
      rw [h3]; simp
    have hf' := h.first (hargs t List.mem_cons_self) hf
    have hch : choose mode' chosen (move a.1, a.2) = choose mode chosen a := by
      unfold choose
      rw [h.oneOf a ham]
    obtain ⟨r', h3, h4⟩ := ih (claims_left hcl hargs)
    refine ⟨r', .take hf' (fun o ho => hk o ⟨?_, ho.2⟩) ((available_move h.inj a).2 ha)
      ((h.claims a ham _ _ _ _).2 hcl) ?_, h4⟩
    · rw [← h.oneOf a ham]; exact ho.1
    · rw [hch]
      exact h3
  | @clash chosen sofar used t rest a o hf hk =>
    have ham : a ∈ arguments mode := by
      obtain ⟨before, after, h3, -⟩ := hf
      rw [h3]; simp
    have hf' := h.first (hargs t List.mem_cons_self) hf
    exact ⟨_, .clash hf' ⟨(h.oneOf a ham).trans hk.1, hk.2⟩, .inl rfl⟩
  | @again chosen sofar used t rest a hf hk ha =>
    have ham : a ∈ arguments mode := by
      obtain ⟨before, after, h3, -⟩ := hf
      rw [h3]; simp
    have hf' := h.first (hargs t List.mem_cons_self) hf
    have hch : choose mode' chosen (move a.1, a.2) = choose mode chosen a := by
      unfold choose
      rw [h.oneOf a ham]
    rw [← hch]
    refine ⟨_, .again hf' (fun o ho => hk o ⟨?_, ho.2⟩) fun h' => ha ((available_move h.inj a).1 h'),
      .inl rfl⟩
    rw [← h.oneOf a ham]; exact ho.1
  | @refused chosen sofar used t rest a e hf hk ha hcl =>
    have ham : a ∈ arguments mode := by
      obtain ⟨before, after, h3, -⟩ := hf
      rw [h3]; simp
    have hf' := h.first (hargs t List.mem_cons_self) hf
    have hch : choose mode' chosen (move a.1, a.2) = choose mode chosen a := by
      unfold choose
      rw [h.oneOf a ham]
    rw [← hch]
    refine ⟨_, .refused hf' (fun o ho => hk o ⟨?_, ho.2⟩) ((available_move h.inj a).2 ha)
      ((h.claims a ham _ _ _ _).2 hcl), .inl rfl⟩
    rw [← h.oneOf a ham]; exact ho.1
  | unhandled hn hu =>
    obtain ⟨r', h1, h2⟩ := hlost _ _ _ _ _ (hargs _ List.mem_cons_self) hn
    exact ⟨r', h1, .inr ⟨.inr ⟨_, rfl, rfl⟩, h2⟩⟩
  | unknown hn hu =>
    obtain ⟨r', h1, h2⟩ := hlost _ _ _ _ _ (hargs _ List.mem_cons_self) hn
    exact ⟨r', h1, .inr ⟨.inl ⟨_, rfl⟩, h2⟩⟩

theorem keeps_follows {cfg : Config} {argv : List Bytes} {c mode mode' : Node} {move : Nat → Nat}
    (h : Keeps cfg c move mode mode')
    (hc : ∀ sofar t rest cl, Arises cfg argv t → ¬ Claims cfg mode' sofar c t rest cl) :
    Follows cfg argv move mode mode' where
  inj := h.inj
  first := fun ht hf => keeps_first h (fun cl => hc _ _ _ _ ht) hf
  none := by
    intro used sofar t rest ht hno x hx
    obtain ⟨front, back, new, h4, h5, h6⟩ := h.args
    have hmap : ∀ a ∈ front ++ back,
        ¬ Wants cfg mode' sofar (used.map move) t rest (move a.1, a.2) := fun a ha => by
      rw [keeps_wants h (h4 ▸ ha)]
      exact hno a (h4 ▸ ha)
    rw [h5] at hx
    rcases List.mem_append.1 hx with hx | hx
    · obtain ⟨a, ha, rfl⟩ := List.mem_map.1 hx
      exact hmap a (List.mem_append_left _ ha)
    · rcases List.mem_append.1 hx with hx | hx
      · rintro ⟨⟨cl, hcl⟩, -⟩
        rw [h6 x hx] at hcl
        exact hc _ _ _ _ ht hcl
      · obtain ⟨a, ha, rfl⟩ := List.mem_map.1 hx
        exact hmap a (List.mem_append_right _ ha)
  oneOf := h.oneOf
  claims := h.claims

theorem keeps_reading {cfg : Config} {argv : List Bytes} {c mode mode' : Node} {move : Nat → Nat}
    (h : Keeps cfg c move mode mode')
    (hc : ∀ sofar t rest cl, Arises cfg argv t → ¬ Claims cfg mode' sofar c t rest cl)
    {chosen chosen' : Choices} {sofar : List Leaf} {used : List Nat} {args : List Token} {r : Result}
    (hr : Reading cfg mode chosen sofar used args r chosen')
    (hargs : ∀ t ∈ args, Arises cfg argv t) :
    ∃ r', Reading cfg mode' chosen sofar (used.map move) args r' chosen' ∧
      (r' = r ∨ (Unwanted r ∧ Unwanted r')) := follows_reading (keeps_follows h hc) hr hargs

theorem argumentsFrom_append (i : Nat) (a c : List Node) :
    argumentsFrom i (a ++ c) = argumentsFrom i a ++ argumentsFrom (i + a.length) c := by
  induction a generalizing i with
  | nil => rfl
  | cons x a ih =>
    rw [List.cons_append, argumentsFrom, ih, argumentsFrom, List.append_assoc, List.length_cons]
    congr 3
    omega

theorem argumentsFrom_succ (i : Nat) (cs : List Node) :
    argumentsFrom (i + 1) cs = (argumentsFrom i cs).map fun a => (a.1 + 1, a.2) := by
  induction cs generalizing i with
  | nil => rfl
  | cons c cs ih =>
    rw [argumentsFrom, argumentsFrom, ih (i + 1), List.map_append]
    congr 1
    split
    · rfl
    · rw [List.map_map]; rfl

theorem argumentsFrom_range {i : Nat} {cs : List Node} {a : Nat × Node} (h : a ∈ argumentsFrom i cs) :
    i ≤ a.1 ∧ a.1 < i + cs.length := by
  induction cs generalizing i with
  | nil => cases h
  | cons c cs ih =>
    rw [argumentsFrom] at h
    rcases List.mem_append.1 h with h | h
    · split at h
      · cases h
      · obtain ⟨x, -, rfl⟩ := List.mem_map.1 h
        simp only [List.length_cons]
        omega
    · have := ih h
      simp only [List.length_cons]
      omega

theorem members_leaf {c : Node} (h : c.kind ≠ .mode ∧ c.kind ≠ .aliasGroup ∧ c.kind ≠ .oneOf) :
    members c = [c] := by
  obtain ⟨k, u, hh, vt, p, cs⟩ := c
  simp only [Node.kind] at h
  unfold members
  rw [if_neg (by simp [Node.kind, h.2.2]), leaves, if_neg (by simp [h.2.1])]

/-- The names in the program. -/
structure Apart (c mode mode' : Node) : Prop where
  single : c.children = []
  /-- modes have neither long nor short names -/
  modes : ∀ x, x ∈ mode.nodes ∨ x ∈ mode'.nodes → x.kind = .mode → x.nameRefs = []
  names : ∀ x ∈ mode.nodes, ∀ refs, .alias refs ∈ x.policies ∨ .dependent refs ∈ x.policies →
    ¬ NamedIn refs c
  types : ∀ x ∈ mode.nodes, x.nameRefs ≠ [] → x.hash ≠ mode.hash ∧ x.hash ≠ mode'.hash

theorem apart_claims {cfg : Config} {c mode mode' : Node} {uid k : Nat}
    (h : AddedTo c uid k mode mode') (ha : Apart c mode mode') {a : Node} (ham : a ∈ mode.nodes)
    {sofar : List Leaf} {t : Token} {rest : List Token} {cl : Claim} :
    Claims cfg mode' sofar a t rest cl ↔ Claims cfg mode sofar a t rest cl := by
  have hown : ∀ refs, .dependent refs ∈ a.policies → mode'.owners refs = mode.owners refs ∧
      ∀ x ∈ mode.owners refs, Spec.Seen ⟨mode', [], sofar⟩ x ↔ Spec.Seen ⟨mode, [], sofar⟩ x := by
    intro refs hr
    refine ⟨added_owners h ha.single (ha.names a ham refs (.inr hr)) ha.modes, fun x hx => ?_⟩
    obtain ⟨h1, r, h2, h3⟩ := (mem_owners _ _ _).1 hx
    obtain ⟨h4, h5⟩ := ha.types x h1 (List.ne_nil_of_mem h2)
    unfold Spec.Seen
    simp only [Ne.symm h4, Ne.symm h5]
  have hnamed : ∀ refs, .alias refs ∈ a.policies → namedNodes mode' refs = namedNodes mode refs :=
    fun refs hr => added_namedNodes h ha.single (ha.names a ham refs (.inl hr)) ha.modes
  constructor
  · refine claims_move (fun refs hr => ?_) fun refs hr => (hnamed refs hr).symm
    obtain ⟨h1, h2⟩ := hown refs hr
    exact ⟨h1.symm, fun x hx => (h2 x (h1 ▸ hx)).symm⟩
  · exact claims_move hown hnamed

/-- The mode with the new argument reads command lines as before. -/
theorem added_keeps {cfg : Config} {c mode mode' : Node} {uid k : Nat} {v : Value}
    (h : AddedTo c uid k mode mode') (ho : Optional c v) (ha : Apart c mode mode') :
    ∃ move, Keeps cfg c move mode mode' := by
  have hcl : ∀ a ∈ arguments mode, ∀ sofar t rest cl,
      Claims cfg mode' sofar a.2 t rest cl ↔ Claims cfg mode sofar a.2 t rest cl :=
    fun a ham sofar t rest cl => apart_claims h ha (arguments_nodes ham)
  cases h with
  | @here h h' vt p before after =>
    refine ⟨moved before.length, fun i j => moved_inj,
      ⟨argumentsFrom 0 before, argumentsFrom before.length after, [(before.length, c)], ?_, ?_, ?_⟩,
      ?_, hcl⟩
    · unfold arguments
      simp only [Node.children]
      rw [argumentsFrom_append, Nat.zero_add]
    · unfold arguments
      simp only [Node.children]
      rw [argumentsFrom_append, Nat.zero_add, argumentsFrom, if_neg (by simp [ho.leaf.1]),
        members_leaf ho.leaf, argumentsFrom_succ]
      congr 1
      · rw [List.map_congr_left (g := id) (fun a hm => ?_), List.map_id]
        have := argumentsFrom_range hm
        unfold moved
        rw [if_pos (by omega)]
        rfl
      · simp only [List.map_cons, List.map_nil]
        congr 1
        refine List.map_congr_left fun a hm => ?_
        have := argumentsFrom_range hm
        unfold moved
        rw [if_neg (by omega)]
    · intro x hx
      rw [List.mem_singleton.1 hx]
    · intro a _
      unfold oneOfAt
      simp only [Node.children]
      rw [← putIn_append c before after, putIn_getElem _ _ _ (by simp)]
  | @inside k u h h' vt p before after d d' hd =>
    obtain ⟨h1, h2, -, -⟩ := added_kind hd
    have harg : arguments (.mk .mode u h' vt p (before ++ d' :: after)) =
        arguments (.mk .mode u h vt p (before ++ d :: after)) := by
      unfold arguments
      simp only [Node.children, argumentsFrom_append, argumentsFrom, h1, h2, beq_self_eq_true, if_true]
    refine ⟨id, fun i j h => h, ⟨_, [], [], (List.append_nil _).symm, ?_, by simp⟩, ?_, hcl⟩
    · rw [harg]
      simp
    · intro a _
      unfold oneOfAt
      simp only [Node.children, id]
      rcases Nat.lt_trichotomy a.1 before.length with hlt | heq | hgt
      · rw [List.getElem?_append_left hlt, List.getElem?_append_left hlt]
      · rw [heq, List.getElem?_append_right (Nat.le_refl _), List.getElem?_append_right (Nat.le_refl _)]
        simp [h1, h2, Option.filter]
      · rw [List.getElem?_append_right (by omega), List.getElem?_append_right (by omega)]
        obtain ⟨j, hj⟩ : ∃ j, a.1 - before.length = j + 1 := ⟨a.1 - before.length - 1, by omega⟩
        rw [hj]
        rfl

end ArgRouter
