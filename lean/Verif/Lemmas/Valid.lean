import Verif.Lemmas.Tree
import Verif.Valid.Rules

/-!
# Lemmas on the validator
-/

namespace ArgRouter

open Spec

theorem mem_typeWalk_node {skip : Item → List Node → Bool} {root n : Node} {p : List Nat}
    (hn : nodeAt root p = some n) (hr : Reach skip [] root p) :
    (Item.node n, lineage root p) ∈ typeWalk skip [] root := by
  rw [typeWalk_eq, List.mem_flatMap]
  exact ⟨p, (mem_posns skip root [] p).2 ⟨⟨n, hn⟩, hr⟩, by simp [visitsAt, hn]⟩

theorem mem_typeWalk_policy {skip : Item → List Node → Bool} {root n : Node} {p : List Nat}
    {q : Policy} (hn : nodeAt root p = some n) (hr : Reach skip [] root p) (hq : q ∈ n.policies)
    (hs : skip (.policy q) (n :: lineage root p) = false) :
    (Item.policy q, n :: lineage root p) ∈ typeWalk skip [] root := by
  rw [typeWalk_eq, List.mem_flatMap]
  refine ⟨p, (mem_posns skip root [] p).2 ⟨⟨n, hn⟩, hr⟩, ?_⟩
  simp only [visitsAt, hn, List.append_nil, List.mem_cons, List.mem_map, List.mem_filter]
  exact Or.inr ⟨q, ⟨hq, by simp [hs]⟩, rfl⟩

theorem mem_typeWalk_iff {root : Node} {v : Visit} :
    v ∈ typeWalk noSkip [] root ↔ ∃ p n, nodeAt root p = some n ∧
      (v = (.node n, lineage root p) ∨ ∃ q ∈ n.policies, v = (.policy q, n :: lineage root p)) := by
  constructor
  · intro h
    rw [typeWalk_eq, List.mem_flatMap] at h
    obtain ⟨p, _, h⟩ := h
    unfold visitsAt at h
    cases hn : nodeAt root p with
    | none => simp [hn] at h
    | some n =>
      simp only [hn, List.append_nil, noSkip, List.mem_cons, List.mem_map, List.mem_filter] at h
      refine ⟨p, n, hn, ?_⟩
      rcases h with h | ⟨q, ⟨hq, _⟩, rfl⟩
      · exact Or.inl h
      · exact Or.inr ⟨q, hq, rfl⟩
  · rintro ⟨p, n, hn, rfl | ⟨q, hq, rfl⟩⟩
    · exact mem_typeWalk_node hn (reach_noSkip _ _ _)
    · exact mem_typeWalk_policy hn (reach_noSkip _ _ _) hq rfl

/-- Every node and every policy of an accepted tree satisfies the first rule that matches it. -/
theorem validate_iff {rules : List Rule} {root : Node} :
    validate rules root = true ↔
      (∀ p n, nodeAt root p = some n → checkItem rules (.node n, lineage root p) = true) ∧
      (∀ p n q, nodeAt root p = some n → q ∈ n.policies →
        checkItem rules (.policy q, n :: lineage root p) = true) := by
  unfold validate
  rw [List.all_eq_true]
  constructor
  · intro h
    exact ⟨fun p n hn => h _ (mem_typeWalk_iff.2 ⟨p, n, hn, Or.inl rfl⟩),
      fun p n q hn hq => h _ (mem_typeWalk_iff.2 ⟨p, n, hn, Or.inr ⟨q, hq, rfl⟩⟩)⟩
  · rintro ⟨h1, h2⟩ v hv
    obtain ⟨p, n, hn, rfl | ⟨q, hq, rfl⟩⟩ := mem_typeWalk_iff.1 hv
    · exact h1 p n hn
    · exact h2 p n q hn hq

theorem nodeAt_append : ∀ (p q : List Nat) (n : Node),
    nodeAt n (p ++ q) = (nodeAt n p).bind fun m => nodeAt m q
  | [], q, n => rfl
  | i :: p, q, n => by
    simp only [List.cons_append, nodeAt]
    cases n.children[i]? with
    | none => rfl
    | some c => exact nodeAt_append p q c

theorem lineage_append : ∀ (p q : List Nat) (n m : Node), nodeAt n p = some m →
    (nodeAt m q).isSome → lineage n (p ++ q) = lineage m q ++ lineage n p
  | [], q, n, m, h, _ => by
    simp only [nodeAt, Option.some.injEq] at h; subst h; simp [lineage]
  | i :: p, q, n, m, h, hq => by
    simp only [List.cons_append, nodeAt, lineage] at h ⊢
    cases hc : n.children[i]? with
    | none => simp [hc] at h
    | some c =>
      rw [hc] at h
      simp only
      rw [lineage_append p q c m h hq, List.append_assoc]

theorem lineage_length : ∀ (p : List Nat) (n m : Node), nodeAt n p = some m →
    (lineage n p).length = p.length
  | [], _, _, _ => rfl
  | i :: p, n, m, h => by
    simp only [nodeAt, lineage] at h ⊢
    cases hc : n.children[i]? with
    | none => simp [hc] at h
    | some c =>
      rw [hc] at h
      simp [lineage_length p c m h]

/-- The path from a node up to the start ends with the start. -/
theorem path_getLast : ∀ (p : List Nat) (n m : Node), nodeAt n p = some m →
    (m :: lineage n p).getLast? = some n
  | [], n, m, h => by simp only [nodeAt, Option.some.injEq] at h; subst h; rfl
  | i :: p, n, m, h => by
    simp only [nodeAt, lineage] at h ⊢
    cases hc : n.children[i]? with
    | none => simp [hc] at h
    | some c =>
      simp only
      rw [← List.cons_append, List.getLast?_append]; rfl

/-- The nodes on the path of a position are the nodes at its prefixes. -/
theorem mem_path : ∀ (p : List Nat) (n m x : Node), nodeAt n p = some m →
    x ∈ m :: lineage n p → ∃ k, k ≤ p.length ∧ nodeAt n (p.take k) = some x
  | [], n, m, x, h, hx => by
    simp only [nodeAt, Option.some.injEq] at h; subst h
    simp only [lineage, List.mem_cons, List.not_mem_nil, or_false] at hx; subst hx
    exact ⟨0, Nat.le_refl _, rfl⟩
  | i :: p, n, m, x, h, hx => by
    simp only [nodeAt, lineage] at h hx
    cases hc : n.children[i]? with
    | none => simp [hc] at h
    | some c =>
      rw [hc] at h hx
      rw [← List.cons_append, List.mem_append] at hx
      rcases hx with hx | hx
      · obtain ⟨k, hk, e⟩ := mem_path p c m x h hx
        exact ⟨k + 1, by simpa using hk, by simp [nodeAt, hc, e]⟩
      · simp only [List.mem_cons, List.not_mem_nil, or_false] at hx; subst hx
        exact ⟨0, Nat.zero_le _, rfl⟩

/-- The nodes strictly below the start on the path of a position. -/
theorem mem_path_dropLast : ∀ (p : List Nat) (n m x : Node), nodeAt n p = some m →
    x ∈ (m :: lineage n p).dropLast → ∃ k, 0 < k ∧ k ≤ p.length ∧ nodeAt n (p.take k) = some x
  | [], n, m, x, h, hx => by simp [lineage] at hx
  | i :: p, n, m, x, h, hx => by
    simp only [nodeAt, lineage] at h hx
    cases hc : n.children[i]? with
    | none => simp [hc] at h
    | some c =>
      rw [hc] at h
      simp only [hc] at hx
      rw [← List.cons_append, List.dropLast_concat] at hx
      obtain ⟨k, hk, e⟩ := mem_path p c m x h hx
      exact ⟨k + 1, by omega, by simpa using hk, by simp [nodeAt, hc, e]⟩

theorem findIdx_append_last {α} (f : α → Bool) (l : List α) (a : α) (r : List α)
    (hl : ∀ x ∈ l, f x = false) (ha : f a = true) : (l ++ a :: r).findIdx f = l.length := by
  induction l with
  | nil => simp [List.findIdx_cons, ha]
  | cons b l ih =>
    have hb := hl b (by simp)
    rw [List.cons_append, List.findIdx_cons, hb, ih (fun x hx => hl x (by simp [hx]))]
    simp

theorem findIdx_none {α} (f : α → Bool) (l : List α) (hl : ∀ x ∈ l, f x = false) :
    l.findIdx f = l.length := by
  induction l with
  | nil => rfl
  | cons b l ih =>
    rw [List.findIdx_cons, hl b (by simp), ih (fun x hx => hl x (by simp [hx]))]
    simp

theorem two_le_countP {α} (f : α → Bool) : ∀ (l : List α) (i j : Nat) (a c : α),
    l[i]? = some a → l[j]? = some c → f a = true → f c = true → i < j → 2 ≤ l.countP f
  | [], i, j, a, c, h, _, _, _, _ => by simp at h
  | z :: l, i, 0, a, c, _, _, _, _, h => by omega
  | z :: l, 0, j + 1, a, c, ha, hc, h1, h2, _ => by
    simp only [List.getElem?_cons_zero, Option.some.injEq] at ha
    subst ha
    rw [List.getElem?_cons_succ] at hc
    rw [List.countP_cons_of_pos h1]
    have : 0 < l.countP f := List.countP_pos_iff.2 ⟨c, List.mem_of_getElem? hc, h2⟩
    omega
  | z :: l, i + 1, j + 1, a, c, ha, hc, h1, h2, h => by
    rw [List.getElem?_cons_succ] at ha hc
    have := two_le_countP f l i j a c ha hc h1 h2 (by omega)
    rw [List.countP_cons]
    omega

/-- The checked path of a policy: up to the nearest mode, or to the root. -/
theorem pathToMode_eq {modes : List Kind} {root m a : Node} {pm p : List Nat}
    (hm : nodeAt root pm = some m) (ha : nodeAt m p = some a)
    (htop : modes.contains m.kind = true ∨ pm = [])
    (hno : ∀ x ∈ (a :: lineage m p).dropLast, modes.contains x.kind = false) :
    pathToMode modes (a :: lineage root (pm ++ p)) = a :: lineage m p := by
  have hlin := lineage_append pm p root m hm (by simp [ha])
  have hlast := path_getLast p m a ha
  have hsplit : (a :: lineage m p) = (a :: lineage m p).dropLast ++ [m] := by
    have hne : (a :: lineage m p) ≠ [] := by simp
    rw [List.getLast?_eq_some_getLast hne, Option.some.injEq] at hlast
    conv => lhs; rw [← List.dropLast_concat_getLast hne, hlast]
  have hlen : (a :: lineage m p).length = (a :: lineage m p).dropLast.length + 1 := by
    conv => lhs; rw [hsplit]
    simp
  have hfull : a :: lineage root (pm ++ p) = (a :: lineage m p).dropLast ++ m :: lineage root pm := by
    rw [hlin, ← List.cons_append]
    conv => lhs; rw [hsplit]
    simp
  unfold pathToMode
  by_cases hk : modes.contains m.kind = true
  · rw [hfull, findIdx_append_last _ _ _ _ hno hk]
    rw [show min ((a :: lineage m p).dropLast.length + 1)
        ((a :: lineage m p).dropLast ++ m :: lineage root pm).length
        = (a :: lineage m p).dropLast.length + 1 by
          rw [List.length_append, List.length_cons]; omega]
    rw [List.take_append]
    simp only [Nat.add_sub_cancel_left, List.take_succ_cons, List.take_zero]
    rw [List.take_of_length_le (by omega), ← hsplit]
  · have hpm : pm = [] := by rcases htop with h | h; exact absurd h hk; exact h
    subst hpm
    simp only [nodeAt, Option.some.injEq] at hm; subst hm
    simp only [List.nil_append]
    rw [findIdx_none, Nat.min_eq_right (by omega), List.take_length]
    intro x hx
    rw [hsplit] at hx
    rw [List.mem_append] at hx
    rcases hx with hx | hx
    · exact hno x hx
    · simp only [List.mem_cons, List.not_mem_nil, or_false] at hx; subst hx; simpa using hk

end ArgRouter
