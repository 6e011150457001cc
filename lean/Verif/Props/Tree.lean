import Verif.Lemmas.Tree

/-!
# C72: tree walks
-/

namespace ArgRouter.Spec

/-- The position, or one above it, is skipped by the skip function of a type walk. -/
def SkippedAt (skip : Item → List Node → Bool) (root : Node) (p : List Nat) : Prop :=
  ∃ k n, k ≤ p.length ∧ nodeAt root (p.take k) = some n ∧
    skip (.node n) (lineage root (p.take k)) = true

/-- The visits owed to the position `p`: the node with its ancestors, then each of its policies that
is not skipped, with the node itself as nearest parent. -/
def visitsOf (skip : Item → List Node → Bool) (root : Node) (p : List Nat) : List Visit :=
  match nodeAt root p with
  | none => []
  | some n =>
    (.node n, lineage root p) ::
      (n.policies.filter fun q => !skip (.policy q) (n :: lineage root p)).map fun q =>
        (.policy q, n :: lineage root p)

end ArgRouter.Spec

namespace ArgRouter.Props

open Spec

/-- A walk over the nodes of a tree visits the node at every position exactly once, in lexicographic
order of the positions (parents before children, siblings in declaration order), and passes the chain
of its ancestors, nearest first. -/
theorem C72_nodes (root : Node) :
    ∃ ps : List (List Nat), ps.Pairwise (· < ·) ∧ (∀ p, p ∈ ps ↔ IsPosition root p) ∧
      (Node.walk [] root).map (fun v => (some v.1, v.2)) =
        ps.map fun p => (nodeAt root p, lineage root p) := by
  refine ⟨posns noSkip [] root, posns_sorted _ _ _, ?_, ?_⟩
  · intro p
    rw [mem_posns]
    exact ⟨fun h => h.1, fun h => ⟨h, reach_noSkip _ _ _⟩⟩
  · rw [walk_posns]; simp

theorem reach_iff (skip : Item → List Node → Bool) :
    ∀ (p : List Nat) (ps : List Node) (n : Node), IsPosition n p →
      (Reach skip ps n p ↔ ¬ ∃ k m, k ≤ p.length ∧ nodeAt n (p.take k) = some m ∧
        skip (.node m) (lineage n (p.take k) ++ ps) = true)
  | [], ps, n, _ => by
    simp [Reach, nodeAt, lineage]
  | i :: p, ps, n, ⟨m, hm⟩ => by
    cases hc : n.children[i]? with
    | none => simp [nodeAt, hc] at hm
    | some c =>
      simp only [nodeAt, hc] at hm
      have ih := reach_iff skip p (n :: ps) c ⟨m, hm⟩
      simp only [Reach]
      constructor
      · rintro ⟨h0, h1⟩ ⟨k, d, hk, hd, hs⟩
        cases k with
        | zero =>
          simp only [List.take_zero, nodeAt, Option.some.injEq, lineage, List.nil_append] at hd hs
          subst hd
          rw [h0] at hs; cases hs
        | succ k =>
          simp only [List.take_succ_cons, nodeAt, lineage, hc] at hd hs
          refine (ih.1 (h1 c hc)) ⟨k, d, by simpa using hk, hd, ?_⟩
          simpa using hs
      · intro h
        refine ⟨?_, ?_⟩
        · cases hs : skip (.node n) ps with
          | false => rfl
          | true =>
            exact absurd ⟨0, n, Nat.zero_le _, by simp [nodeAt], by simpa [lineage] using hs⟩ h
        · intro d hd
          rw [hc] at hd; cases hd
          refine ih.2 ?_
          rintro ⟨k, e, hk, he, hs⟩
          exact h ⟨k + 1, e, by simpa using hk, by simpa [nodeAt, hc] using he,
            by simpa [lineage, hc] using hs⟩

/-- A walk over nodes and policies (the one validation uses) visits every position that is neither
skipped nor below a skipped one exactly once, in lexicographic order: the node with its ancestors,
then its policies in declaration order with the node as nearest parent. -/
theorem C72_types (skip : Item → List Node → Bool) (root : Node) :
    ∃ ps : List (List Nat), ps.Pairwise (· < ·) ∧
      (∀ p, p ∈ ps ↔ IsPosition root p ∧ ¬ SkippedAt skip root p) ∧
      typeWalk skip [] root = ps.flatMap (visitsOf skip root) := by
  refine ⟨posns skip [] root, posns_sorted _ _ _, ?_, ?_⟩
  · intro p
    rw [mem_posns]
    constructor
    · rintro ⟨h, hr⟩
      have := (reach_iff skip p [] root h).1 hr
      simp only [List.append_nil] at this
      exact ⟨h, this⟩
    · rintro ⟨h, hr⟩
      refine ⟨h, (reach_iff skip p [] root h).2 ?_⟩
      simp only [List.append_nil]
      exact hr
  · rw [typeWalk_eq]
    congr 1
    funext p
    simp only [visitsAt, visitsOf, List.append_nil]
    cases nodeAt root p <;> rfl

mutual
theorem mem_owners_posns (refs : List NameRef) (m : Node) :
    ∀ n : Node, m ∈ n.owners refs ↔
      ∃ p r, nodeAt n p = some m ∧ r ∈ refs ∧ r ∈ m.nameRefs
  | .mk k u h v pl cs => by
    simp only [Node.owners, List.mem_append, List.mem_map, List.mem_filter, List.contains_iff_mem]
    rw [mem_ownersList_posns refs m cs]
    constructor
    · rintro (⟨i, c, p, r, hc, hp, hr⟩ | ⟨r, ⟨h1, h2⟩, rfl⟩)
      · exact ⟨i :: p, r, by simp [nodeAt, Node.children, hc, hp], hr⟩
      · exact ⟨[], r, rfl, h2, h1⟩
    · rintro ⟨p, r, hp, hr⟩
      cases p with
      | nil =>
        simp only [nodeAt, Option.some.injEq] at hp
        subst hp
        exact Or.inr ⟨r, ⟨hr.2, hr.1⟩, rfl⟩
      | cons i p =>
        simp only [nodeAt, Node.children] at hp
        cases hc : cs[i]? with
        | none => simp [hc] at hp
        | some c =>
          rw [hc] at hp
          exact Or.inl ⟨i, c, p, r, hc, hp, hr⟩
theorem mem_ownersList_posns (refs : List NameRef) (m : Node) :
    ∀ cs : List Node, m ∈ Node.ownersList refs cs ↔
      ∃ (i : Nat) (c : Node) (p : List Nat) (r : NameRef), cs[i]? = some c ∧ nodeAt c p = some m ∧ r ∈ refs ∧ r ∈ m.nameRefs
  | [] => by simp [Node.ownersList]
  | d :: cs => by
    simp only [Node.ownersList, List.mem_append]
    rw [mem_owners_posns refs m d, mem_ownersList_posns refs m cs]
    constructor
    · rintro (⟨p, r, h⟩ | ⟨i, c, p, r, hc, h⟩)
      · exact ⟨0, d, p, r, rfl, h⟩
      · exact ⟨i + 1, c, p, r, by simpa using hc, h⟩
    · rintro ⟨i, c, p, r, hc, h⟩
      cases i with
      | zero => simp at hc; subst hc; exact Or.inl ⟨p, r, h⟩
      | succ i => exact Or.inr ⟨i, c, p, r, by simpa using hc, h⟩
end

/-- The collecting walk used to resolve the names in an alias or dependency finds exactly the nodes
of the tree, at any depth, that carry one of the names. -/
theorem C72_collect (refs : List NameRef) (root m : Node) :
    m ∈ root.owners refs ↔
      ∃ p, nodeAt root p = some m ∧ ∃ r, r ∈ refs ∧ r ∈ m.nameRefs := by
  rw [mem_owners_posns]
  exact ⟨fun ⟨p, r, h1, h2, h3⟩ => ⟨p, h1, r, h2, h3⟩,
    fun ⟨p, h1, r, h2, h3⟩ => ⟨p, r, h1, h2, h3⟩⟩

section Examples

private def leaf (h : Nat) (ps : List Policy) : Node :=
  .mk .flag h h ⟨false, .one (.bool false), fun _ => .ok (.bool true)⟩ ps []

private def tree : Node :=
  .mk .root 0 0 ⟨false, .one (.bool false), fun _ => .ok (.bool true)⟩ [.other 0]
    [.mk .mode 1 1 ⟨false, .one (.bool false), fun _ => .ok (.bool true)⟩ [.router]
      [leaf 2 [.longName [97]], leaf 3 [.longName [98]]], leaf 4 [.longName [99]]]

/-- Every position of a three level tree is visited in order, with the right ancestors. -/
example : (Node.walk [] tree).map (fun v => (v.1.uid, v.2.map Node.uid)) =
    [(0, []), (1, [0]), (2, [1, 0]), (3, [1, 0]), (4, [0])] := by decide +kernel

example : IsPosition tree [0, 1] := ⟨_, rfl⟩

/-- Skipping modes leaves out everything below them. -/
example : (typeWalk (fun i _ => match i with | .node n => n.kind == .mode | _ => false) []
    tree).length = 4 := by decide +kernel

example : SkippedAt (fun i _ => match i with | .node n => n.kind == .mode | _ => false) tree [0, 1] :=
  ⟨1, _, by decide, rfl, rfl⟩

example : (tree.owners [.long [98], .long [99]]).map Node.uid = [3, 4] := by decide +kernel

end Examples

end ArgRouter.Props
