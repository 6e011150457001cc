import Verif.Props.Default

/-!
# C81: what errors call a node
-/

namespace ArgRouter

open Spec

namespace Spec

/-- The node has this one policy of the kind (`Policy.longName`, say) and no other. -/
def HasOnly (policies : List Policy) (f : Bytes → Policy) (s : Bytes) : Prop :=
  f s ∈ policies ∧ ∀ s', f s' ∈ policies → s' = s

/-- The node has no policy of the kind. -/
def HasNo (policies : List Policy) (f : Bytes → Policy) : Prop := ∀ s, f s ∉ policies

/-- What errors call a node with these policies: by its error name; otherwise by its display name;
otherwise by its long, its short or its only name, with the prefix of the first two. -/
inductive CalledInErrors (policies : List Policy) : Token → Prop
  | errorName {s : Bytes} : HasOnly policies .errorName s → CalledInErrors policies ⟨.none, s⟩
  | displayName {s : Bytes} : HasNo policies .errorName → HasOnly policies .displayName s →
      CalledInErrors policies ⟨.none, s⟩
  | longName {s : Bytes} : HasNo policies .errorName → HasNo policies .displayName →
      HasOnly policies .longName s → CalledInErrors policies ⟨.long, s⟩
  | shortName {s : Bytes} : HasNo policies .errorName → HasNo policies .displayName →
      HasNo policies .longName → HasOnly policies .shortName s → CalledInErrors policies ⟨.short, s⟩
  | noneName {s : Bytes} : HasNo policies .errorName → HasNo policies .displayName →
      HasNo policies .longName → HasNo policies .shortName → HasOnly policies .noneName s →
      CalledInErrors policies ⟨.none, s⟩

end Spec

namespace Props

/-- One of the five selectors of names. -/
theorem first_only {ps : List Policy} {f : Bytes → Policy} {g : Policy → Option Bytes} {s : Bytes}
    (hg : ∀ p t, g p = some t ↔ p = f t) (h : HasOnly ps f s) : ps.findSome? g = some s := by
  cases hx : ps.findSome? g with
  | none => exact absurd (List.findSome?_eq_none_iff.1 hx _ h.1) (by rw [(hg _ _).2 rfl]; simp)
  | some t =>
    obtain ⟨p, hp, e⟩ := List.exists_of_findSome?_eq_some hx
    rw [(hg _ _).1 e] at hp
    rw [h.2 t hp]

theorem first_no {ps : List Policy} {f : Bytes → Policy} {g : Policy → Option Bytes}
    (hg : ∀ p t, g p = some t ↔ p = f t) (h : HasNo ps f) : ps.findSome? g = none := by
  rw [List.findSome?_eq_none_iff]
  intro p hp
  cases hx : g p with
  | none => rfl
  | some t => rw [(hg _ _).1 hx] at hp; exact absurd hp (h t)

section
variable {n : Node} {s : Bytes}

theorem errorName_only (h : HasOnly n.policies .errorName s) : n.errorName = some s :=
  first_only (fun p t => by cases p <;> simp) h
theorem errorName_no (h : HasNo n.policies .errorName) : n.errorName = none :=
  first_no (f := .errorName) (fun p t => by cases p <;> simp) h
theorem displayName_only (h : HasOnly n.policies .displayName s) : n.displayName = some s :=
  first_only (fun p t => by cases p <;> simp) h
theorem displayName_no (h : HasNo n.policies .displayName) : n.displayName = none :=
  first_no (f := .displayName) (fun p t => by cases p <;> simp) h
theorem longName_only (h : HasOnly n.policies .longName s) : n.longName = some s :=
  first_only (fun p t => by cases p <;> simp) h
theorem longName_no (h : HasNo n.policies .longName) : n.longName = none :=
  first_no (f := .longName) (fun p t => by cases p <;> simp) h
theorem shortName_only (h : HasOnly n.policies .shortName s) : n.shortName = some s :=
  first_only (fun p t => by cases p <;> simp) h
theorem shortName_no (h : HasNo n.policies .shortName) : n.shortName = none :=
  first_no (f := .shortName) (fun p t => by cases p <;> simp) h
theorem noneName_only (h : HasOnly n.policies .noneName s) : n.noneName = some s :=
  first_only (fun p t => by cases p <;> simp) h

end

/-- C81: the name in the errors about a node (which are about its `tokenType`, see C21, C25, C93) is the
documented one. -/
theorem C81_called (n : Node) (t : Token) (h : CalledInErrors n.policies t) : n.tokenType = t := by
  unfold Node.tokenType
  cases h with
  | errorName h => rw [errorName_only h]
  | displayName h1 h2 => rw [errorName_no h1, displayName_only h2]
  | longName h1 h2 h3 => rw [errorName_no h1, displayName_no h2, longName_only h3]
  | shortName h1 h2 h3 h4 =>
    rw [errorName_no h1, displayName_no h2, longName_no h3, shortName_only h4]
  | noneName h1 h2 h3 h4 h5 =>
    rw [errorName_no h1, displayName_no h2, longName_no h3, shortName_no h4, noneName_only h5]

/-- C81: in a program that compiles with the default validator, errors call every node below the root by
its documented name. -/
theorem C81_compiled (cfg : Config) (root : Node) (p : List Nat) (n : Node)
    (hc : ∃ depth, compiles cfg depth defaultRules root = true) (hn : nodeAt root p = some n)
    (hp : p ≠ []) : CalledInErrors n.policies n.tokenType := by
  have hpol := (((C102_compiles cfg root).1 hc).2.1 p n hn).2.2.2
  obtain ⟨depth, hd⟩ := hc
  have hne := C81_named hd hn hp
  have alone : ∀ (f : Bytes → Policy) (s : Bytes), (∀ a c, (f a).kind = (f c).kind) →
      (∀ a c, f a = f c → a = c) → f s ∈ n.policies → HasOnly n.policies f s := by
    intro f s hk hinj hs
    refine ⟨hs, fun s' hs' => ?_⟩
    obtain ⟨i, hi⟩ := List.mem_iff_getElem?.1 hs
    obtain ⟨j, hj⟩ := List.mem_iff_getElem?.1 hs'
    have := (hpol _ hs).1 _ i j _ _ (madeFrom_iff.2 rfl) hi hj (madeFrom_iff.2 rfl) (madeFrom_iff.2 (hk _ _))
    subst this
    rw [hi] at hj
    exact (hinj _ _ (Option.some.inj hj)).symm
  have no : ∀ (f : Bytes → Policy) (g : Policy → Option Bytes), (∀ p t, g p = some t ↔ p = f t) →
      n.policies.findSome? g = none → HasNo n.policies f := by
    intro f g hg h s hs
    have := List.findSome?_eq_none_iff.1 h _ hs
    rw [(hg _ _).2 rfl] at this
    cases this
  unfold Node.tokenType at hne ⊢
  cases h1 : n.errorName with
  | some s =>
    exact .errorName (alone _ s (fun _ _ => rfl) (fun _ _ h => by simpa using h) (mem_of_errorName h1))
  | none =>
  have g1 := no .errorName _ (fun p t => by cases p <;> simp) h1
  cases h2 : n.displayName with
  | some s =>
    exact .displayName g1
      (alone _ s (fun _ _ => rfl) (fun _ _ h => by simpa using h) (mem_of_displayName h2))
  | none =>
  have g2 := no .displayName _ (fun p t => by cases p <;> simp) h2
  cases h3 : n.longName with
  | some s =>
    exact .longName g1 g2
      (alone _ s (fun _ _ => rfl) (fun _ _ h => by simpa using h) (mem_of_longName h3))
  | none =>
  have g3 := no .longName _ (fun p t => by cases p <;> simp) h3
  cases h4 : n.shortName with
  | some s =>
    exact .shortName g1 g2 g3
      (alone _ s (fun _ _ => rfl) (fun _ _ h => by simpa using h) (mem_of_shortName h4))
  | none =>
  have g4 := no .shortName _ (fun p t => by cases p <;> simp) h4
  cases h5 : n.noneName with
  | some s =>
    exact .noneName g1 g2 g3 g4
      (alone _ s (fun _ _ => rfl) (fun _ _ h => by simpa using h) (mem_of_noneName h5))
  | none => simp [h1, h2, h3, h4, h5] at hne

/-- C81: what errors call a mode. It is the error name its author gave it; if they gave it a name on the
command line and no other one, that; if they gave it none at all, "(Anon mode)". -/
theorem C81_mode (uid hash : Nat) (user : List Policy) (cs : List Node) :
    (∀ s, HasOnly user .errorName s → (mkMode uid hash user cs).tokenType = ⟨.none, s⟩) ∧
    (∀ s, HasNo user .errorName → HasNo user .displayName → HasNo user .longName →
      HasNo user .shortName → HasOnly user .noneName s →
      (mkMode uid hash user cs).tokenType = ⟨.none, s⟩) ∧
    (HasNo user .errorName → HasNo user .noneName →
      (mkMode uid hash user cs).tokenType = ⟨.none, b "(Anon mode)"⟩) := by
  have hpol : (mkMode uid hash user cs).policies = modePolicies user := rfl
  have named : ∀ (s : Bytes), .noneName s ∈ user ∨ .errorName s ∈ user →
      modePolicies user = .noResult :: user := by
    intro s h
    unfold modePolicies
    rw [if_pos]
    · rfl
    · rcases h with h | h <;> exact List.any_eq_true.2 ⟨_, h, rfl⟩
  refine ⟨?_, ?_, ?_⟩
  · intro s h
    refine C81_called _ _ (.errorName ?_)
    rw [hpol, named s (.inr h.1)]
    exact ⟨by simp [h.1], fun s' hs => h.2 s' (by simpa using hs)⟩
  · intro s h1 h2 h3 h4 h5
    have hp := named s (.inl h5.1)
    refine C81_called _ _ (.noneName ?_ ?_ ?_ ?_ ?_) <;> rw [hpol, hp]
    · intro t ht; exact h1 t (by simpa using ht)
    · intro t ht; exact h2 t (by simpa using ht)
    · intro t ht; exact h3 t (by simpa using ht)
    · intro t ht; exact h4 t (by simpa using ht)
    · exact ⟨by simp [h5.1], fun s' hs => h5.2 s' (by simpa using hs)⟩
  · intro h1 h2
    have hp : modePolicies user = .errorName (b "(Anon mode)") :: .noResult :: user := by
      unfold modePolicies
      rw [if_neg]
      · rfl
      · rw [Bool.not_eq_true, List.any_eq_false]
        intro p hp
        cases p <;> first | exact absurd hp (h2 _) | exact absurd hp (h1 _) | simp
    refine C81_called _ _ (.errorName ?_)
    rw [hpol, hp]
    exact ⟨by simp, fun s' hs => by simpa [h1 s'] using hs⟩

/-- An argument with two names and a mode of each sort. -/
example :
    CalledInErrors (mkFlag .default 1 1 [.longName (b "all"), .shortName (b "a")]).policies
      ⟨.long, b "all"⟩ ∧
    (mkMode 2 2 [.router, .errorName (b "main mode")] []).tokenType = ⟨.none, b "main mode"⟩ ∧
    (mkMode 2 2 [.router, .noneName (b "run")] []).tokenType = ⟨.none, b "run"⟩ ∧
    (mkMode 2 2 [.router] []).tokenType = ⟨.none, b "(Anon mode)"⟩ := by
  refine ⟨.longName ?_ ?_ ?_, rfl, rfl, rfl⟩
  · intro s h
    simp [mkFlag, Node.policies, expanderIf] at h
  · intro s h
    simp [mkFlag, Node.policies, expanderIf] at h
  · refine ⟨?_, fun s h => ?_⟩
    · simp [mkFlag, Node.policies]
    · simpa [mkFlag, Node.policies, expanderIf] using h

end Props

end ArgRouter
