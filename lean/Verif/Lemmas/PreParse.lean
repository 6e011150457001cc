import Verif.Lemmas.Leaf

/-!
# Lemmas about the pre-parse of nodes that are not modes
-/

namespace ArgRouter

theorem preParse_aliasGroup (cfg : Config) (parents : List Node) (args : List Token)
    (processed : Option Target) (u h : Nat) (v : ValueType) (p : List Policy) (cs : List Node)
    (validator : Validator) :
    preParse cfg parents args processed (.mk .aliasGroup u h v p cs) validator =
      preParseGroup cfg parents args processed validator cs := by
  simp only [preParse]

theorem preParse_oneOf (cfg : Config) (parents : List Node) (args : List Token)
    (processed : Option Target) (u h : Nat) (v : ValueType) (p : List Policy) (cs : List Node)
    (validator : Validator) :
    preParse cfg parents args processed (.mk .oneOf u h v p cs) validator =
      preParseOneOf cfg parents args processed (oneOfValidator (.mk .oneOf u h v p cs) validator)
        cs := by
  simp only [preParse]

/-- The node is not a group. -/
def Node.isGroup (n : Node) : Bool := n.kind == .aliasGroup || n.kind == .oneOf

theorem preParse_leaf (cfg : Config) (parents : List Node) (args : List Token)
    (processed : Option Target) (n : Node) (validator : Validator) (hk : n.isGroup = false) :
    preParse cfg parents args processed n validator =
      leafPreParse cfg n parents args processed validator := by
  obtain ⟨k, u, h, v, p, cs⟩ := n
  cases k <;> simp [Node.isGroup, Node.kind] at hk <;> simp [preParse]

/-- The target of a matching leaf is for this leaf. -/
theorem leafPreParse_node {cfg : Config} {n : Node} {parents : List Node} {args : List Token}
    {processed : Option Target} {validator : Validator} {s s' : St} {r : Target × List Token}
    (h : leafPreParse cfg n parents args processed validator s = (.ok (some r), s')) :
    r.1.node = n ∧ validator n s = (.ok true, s') := by
  simp only [leafPreParse, M.bind_eq_ok, M.lift_apply, Prod.exists, Prod.mk.injEq] at h
  obtain ⟨m, a, subs, s1, ⟨-, rfl⟩, h2⟩ := h
  cases hc : checkLabel cfg n m a with
  | none => rw [hc] at h2; simp at h2
  | some a' =>
    rw [hc] at h2
    simp only [M.bind_eq_ok] at h2
    obtain ⟨ok, s2, h3', h3⟩ := h2
    cases ok
    · simp at h3
    · cases m with
      | error e => simp at h3
      | ok act =>
        simp only [Bool.not_true, Bool.false_eq_true, if_false, M.pure_apply, Prod.mk.injEq,
          Out.ok.injEq, Option.some.injEq] at h3
        obtain ⟨rfl, rfl⟩ := h3
        exact ⟨rfl, h3'⟩

end ArgRouter
