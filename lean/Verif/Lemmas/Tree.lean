import Verif.Spec.Tree
import Verif.Valid.Walk

/-!
# Lemmas on tree walks
-/

namespace ArgRouter

open Spec

mutual
/-- The positions visited by a walk. -/
def posns (skip : Item → List Node → Bool) (ps : List Node) : Node → List (List Nat)
  | .mk k u h v p cs =>
    if skip (.node (.mk k u h v p cs)) ps then []
    else [] :: posnsList skip (.mk k u h v p cs :: ps) 0 cs
def posnsList (skip : Item → List Node → Bool) (ps : List Node) (i : Nat) :
    List Node → List (List Nat)
  | [] => []
  | c :: cs => (posns skip ps c).map (i :: ·) ++ posnsList skip ps (i + 1) cs
end

/-- Neither the node at the position nor one of its ancestors is skipped. -/
def Reach (skip : Item → List Node → Bool) : List Node → Node → List Nat → Prop
  | ps, n, [] => skip (.node n) ps = false
  | ps, n, i :: p =>
    skip (.node n) ps = false ∧ ∀ c, n.children[i]? = some c → Reach skip (n :: ps) c p

theorem posnsList_head (skip : Item → List Node → Bool) (ps : List Node) :
    ∀ (cs : List Node) (i : Nat) (p : List Nat), p ∈ posnsList skip ps i cs →
      ∃ j q, p = j :: q ∧ i ≤ j
  | [], i, p, h => by simp [posnsList] at h
  | c :: cs, i, p, h => by
    simp only [posnsList, List.mem_append, List.mem_map] at h
    rcases h with ⟨q, _, rfl⟩ | h
    · exact ⟨i, q, rfl, Nat.le_refl _⟩
    · obtain ⟨j, q, rfl, hj⟩ := posnsList_head skip ps cs (i + 1) p h
      exact ⟨j, q, rfl, by omega⟩

mutual
theorem posns_sorted (skip : Item → List Node → Bool) :
    ∀ (n : Node) (ps : List Node), (posns skip ps n).Pairwise (· < ·)
  | .mk k u h v p cs, ps => by
    simp only [posns]
    split
    · exact List.Pairwise.nil
    · refine List.Pairwise.cons ?_ (posnsList_sorted skip cs _ 0)
      intro q hq
      obtain ⟨j, q', rfl, _⟩ := posnsList_head skip _ _ _ _ hq
      exact List.Lex.nil
theorem posnsList_sorted (skip : Item → List Node → Bool) :
    ∀ (cs : List Node) (ps : List Node) (i : Nat), (posnsList skip ps i cs).Pairwise (· < ·)
  | [], ps, i => by simp [posnsList]
  | c :: cs, ps, i => by
    simp only [posnsList]
    rw [List.pairwise_append]
    refine ⟨?_, posnsList_sorted skip cs ps (i + 1), ?_⟩
    · rw [List.pairwise_map]
      exact (posns_sorted skip c ps).imp fun h => List.Lex.cons h
    · intro a ha b hb
      obtain ⟨a', _, rfl⟩ := List.mem_map.1 ha
      obtain ⟨j, q, rfl, hj⟩ := posnsList_head skip _ _ _ _ hb
      exact List.Lex.rel (by omega)
end

mutual
theorem mem_posns (skip : Item → List Node → Bool) :
    ∀ (n : Node) (ps : List Node) (p : List Nat),
      p ∈ posns skip ps n ↔ IsPosition n p ∧ Reach skip ps n p
  | .mk k u h v pl cs, ps, p => by
    simp only [posns]
    split
    · rename_i hs
      cases p with
      | nil => simp [Reach, hs]
      | cons i p => simp [Reach, hs]
    · rename_i hs
      cases p with
      | nil => simp [Reach, hs, IsPosition, nodeAt]
      | cons i p =>
        rw [List.mem_cons]
        simp only [reduceCtorEq, false_or]
        rw [mem_posnsList skip cs _ 0 i p]
        simp only [Reach, hs, IsPosition, nodeAt, Node.children, Nat.zero_le, Nat.sub_zero,
          true_and]
        constructor
        · rintro ⟨c, hc, ⟨n, hn⟩, hr⟩
          refine ⟨⟨n, by simp [hc, hn]⟩, ?_⟩
          intro c' hc'
          rw [hc] at hc'; cases hc'; exact hr
        · rintro ⟨⟨n, hn⟩, hr⟩
          cases hc : cs[i]? with
          | none => simp [hc] at hn
          | some c =>
            rw [hc] at hn
            exact ⟨c, rfl, ⟨n, hn⟩, hr c hc⟩
theorem mem_posnsList (skip : Item → List Node → Bool) :
    ∀ (cs : List Node) (ps : List Node) (b i : Nat) (p : List Nat),
      i :: p ∈ posnsList skip ps b cs ↔
        b ≤ i ∧ ∃ c, cs[i - b]? = some c ∧ IsPosition c p ∧ Reach skip ps c p
  | [], ps, b, i, p => by simp [posnsList]
  | c :: cs, ps, b, i, p => by
    simp only [posnsList, List.mem_append, List.mem_map, List.cons.injEq]
    rw [mem_posnsList skip cs ps (b + 1) i p]
    constructor
    · rintro (⟨q, hq, rfl, rfl⟩ | ⟨hb, d, hd, h⟩)
      · exact ⟨Nat.le_refl _, c, by simp, (mem_posns skip c ps q).1 hq⟩
      · refine ⟨by omega, d, ?_, h⟩
        have : i - b = (i - (b + 1)) + 1 := by omega
        rw [this, List.getElem?_cons_succ]; exact hd
    · rintro ⟨hb, d, hd, h⟩
      by_cases hi : i = b
      · subst hi
        simp at hd; subst hd
        exact Or.inl ⟨p, (mem_posns skip c ps p).2 h, rfl, rfl⟩
      · have : i - b = (i - (b + 1)) + 1 := by omega
        rw [this, List.getElem?_cons_succ] at hd
        exact Or.inr ⟨by omega, d, hd, h⟩
end

/-- What the type recursion visits at a position. -/
def visitsAt (skip : Item → List Node → Bool) (ps : List Node) (root : Node) (p : List Nat) :
    List Visit :=
  match nodeAt root p with
  | none => []
  | some n =>
    (.node n, lineage root p ++ ps) ::
      (n.policies.filter fun q => !skip (.policy q) (n :: (lineage root p ++ ps))).map fun q =>
        (.policy q, n :: (lineage root p ++ ps))

mutual
theorem typeWalk_eq (skip : Item → List Node → Bool) :
    ∀ (n : Node) (ps : List Node),
      typeWalk skip ps n = (posns skip ps n).flatMap (visitsAt skip ps n)
  | .mk k u h v p cs, ps => by
    simp only [typeWalk, posns]
    split
    · rfl
    · rw [List.flatMap_cons, typeWalkList_eq skip cs _ 0 (.mk k u h v p cs) ps
        (by intro j; simp [Node.children]) rfl]
      simp [visitsAt, nodeAt, lineage, Node.policies]
theorem typeWalkList_eq (skip : Item → List Node → Bool) :
    ∀ (cs : List Node) (ps : List Node) (i : Nat) (root : Node) (rs : List Node),
      (∀ j, root.children[i + j]? = cs[j]?) → ps = root :: rs →
      typeWalkList skip ps cs = (posnsList skip ps i cs).flatMap (visitsAt skip rs root)
  | [], ps, i, root, rs, _, _ => by simp [typeWalkList, posnsList]
  | c :: cs, ps, i, root, rs, hr, hp => by
    simp only [typeWalkList, posnsList, List.flatMap_append]
    rw [typeWalk_eq skip c ps, typeWalkList_eq skip cs ps (i + 1) root rs ?_ hp, List.flatMap_map]
    · congr 1
      subst hp
      have h0 : root.children[i]? = some c := by simpa using hr 0
      congr 1
      funext q
      simp only [visitsAt, nodeAt, lineage, h0]
      cases nodeAt c q with
      | none => rfl
      | some n => simp
    · intro j
      have := hr (j + 1)
      rw [List.getElem?_cons_succ] at this
      rw [← this]; congr 1; omega
end

theorem reach_noSkip : ∀ (p : List Nat) (ps : List Node) (n : Node), Reach noSkip ps n p
  | [], _, _ => rfl
  | _ :: p, _, _ => ⟨rfl, fun _ _ => reach_noSkip p _ _⟩

mutual
theorem walk_posns :
    ∀ (n : Node) (ps : List Node),
      (Node.walk ps n).map (fun v => (some v.1, v.2)) =
        (posns noSkip ps n).map fun p => (nodeAt n p, lineage n p ++ ps)
  | .mk k u h v p cs, ps => by
    simp only [Node.walk, posns, noSkip, Bool.false_eq_true, if_false, List.map_cons]
    congr 1
    exact walkList_eq cs _ 0 (.mk k u h v p cs) ps (by intro j; simp [Node.children]) rfl
theorem walkList_eq :
    ∀ (cs : List Node) (ps : List Node) (i : Nat) (root : Node) (rs : List Node),
      (∀ j, root.children[i + j]? = cs[j]?) → ps = root :: rs →
      (Node.walkList ps cs).map (fun v => (some v.1, v.2)) =
        (posnsList noSkip ps i cs).map fun p => (nodeAt root p, lineage root p ++ rs)
  | [], ps, i, root, rs, _, _ => by simp [Node.walkList, posnsList]
  | c :: cs, ps, i, root, rs, hr, hp => by
    simp only [Node.walkList, posnsList, List.map_append, List.map_map]
    rw [walkList_eq cs ps (i + 1) root rs ?_ hp, walk_posns c ps, ← List.map_map]
    · congr 1
      subst hp
      have h0 : root.children[i]? = some c := by simpa using hr 0
      rw [List.map_map]
      apply List.map_congr_left
      intro q _
      simp [nodeAt, lineage, h0]
    · intro j
      have := hr (j + 1)
      rw [List.getElem?_cons_succ] at this
      rw [← this]; congr 1; omega
end

end ArgRouter
