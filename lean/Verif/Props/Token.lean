import Verif.Spec.Cli

/-!
# C01, C02 – classifying command line strings
-/

namespace ArgRouter.Props

open Spec

/-- A prefix test of the C++ says what it should. -/
theorem startsWith_iff (p s : Bytes) : startsWith p s = true ↔ p <+: s := by
  simp only [startsWith, beq_iff_eq]
  constructor
  · intro h; rw [← h]; exact List.take_prefix _ _
  · intro h; exact (List.prefix_iff_eq_take.1 h).symm

theorem prefix_append_drop {p s : Bytes} (h : p <+: s) : p ++ s.drop p.length = s := by
  obtain ⟨t, rfl⟩ := h; simp

/-! ## C01 -/

/-- C01: classifying a string and printing the token gives the string back. -/
theorem C01_classify_print (cfg : Config) (s : Bytes) : (getTokenType cfg s).str cfg = s := by
  unfold getTokenType
  split
  · rename_i h; exact prefix_append_drop ((startsWith_iff _ _).1 h)
  · split
    · rename_i h; exact prefix_append_drop ((startsWith_iff _ _).1 h)
    · rfl

/-- C01, classification guided by a node. -/
theorem C01_classify_print_node (cfg : Config) (n : Node) (s : Bytes) :
    (n.getToken cfg s).str cfg = s := by
  unfold Node.getToken getTokenTypeNode
  split
  · rename_i h; simp only [Bool.and_eq_true] at h
    exact prefix_append_drop ((startsWith_iff _ _).1 h.2)
  · split
    · rename_i h; simp only [Bool.and_eq_true] at h
      exact prefix_append_drop ((startsWith_iff _ _).1 h.2.1)
    · rfl

/-- Consequently two different strings are never classified as the same token. -/
theorem C01_injective (cfg : Config) (s t : Bytes) (h : getTokenType cfg s = getTokenType cfg t) :
    s = t := by
  rw [← C01_classify_print cfg s, h, C01_classify_print]

/-- The other way round: a printed long token is classified as itself, and so is a printed short
token unless it happens to start with the long prefix. -/
theorem C01_print_classify (cfg : Config) (name : Bytes) :
    getTokenType cfg (Token.str cfg ⟨.long, name⟩) = ⟨.long, name⟩ ∧
    (¬ cfg.longPrefix <+: Token.str cfg ⟨.short, name⟩ →
      getTokenType cfg (Token.str cfg ⟨.short, name⟩) = ⟨.short, name⟩) := by
  constructor
  · have : startsWith cfg.longPrefix (cfg.longPrefix ++ name) = true :=
      (startsWith_iff _ _).2 (List.prefix_append _ _)
    simp [Token.str, prefixStr, getTokenType, this]
  · intro h
    have h1 : startsWith cfg.longPrefix (cfg.shortPrefix ++ name) = false := by
      rw [← Bool.not_eq_true, startsWith_iff]; exact h
    have h2 : startsWith cfg.shortPrefix (cfg.shortPrefix ++ name) = true :=
      (startsWith_iff _ _).2 (List.prefix_append _ _)
    simp [Token.str, prefixStr, getTokenType, h1, h2]

example : getTokenType .default (b "--hello") = ⟨.long, b "hello"⟩ ∧
    getTokenType .default (b "-h") = ⟨.short, b "h"⟩ ∧
    getTokenType .default (b "h--") = ⟨.none, b "h--"⟩ ∧
    ¬ Config.default.longPrefix <+: Token.str .default ⟨.short, b "h"⟩ := by decide +kernel

/-! ## C02 -/

/-- C02: a raw string selects a node exactly when it is spelled like one of its names. (C06/C07
below lift this to the node's `pre_parse`.) -/
theorem C02_selects_iff_spelled (cfg : Config) (n : Node) (s : Bytes) :
    n.matchToken (n.getToken cfg s) = true ↔ Spelled cfg n s := by
  unfold Node.getToken getTokenTypeNode Spelled Node.matchToken
  by_cases hl : n.longName.isSome ∧ cfg.longPrefix <+: s
  · obtain ⟨l, hl1⟩ := Option.isSome_iff_exists.1 hl.1
    have hs := (startsWith_iff _ _).2 hl.2
    have hp := prefix_append_drop hl.2
    simp only [hl1, Option.isSome_some, hs, Bool.and_self, if_true]
    have hnone : (n.noneName = some s ∧ ¬ (True ∧ cfg.longPrefix <+: s) ∧
      ¬ (n.shortName.isSome ∧ cfg.shortPrefix <+: s ∧ ¬ cfg.longPrefix <+: s)) ↔ False := by
      simp [hl.2]
    have hsh : (∃ x, n.shortName = some x ∧ s = cfg.shortPrefix ++ x ∧ ¬ cfg.longPrefix <+: s) ↔
      False := by simp [hl.2]
    rw [hnone, hsh]
    simp only [or_false, Option.some.injEq]
    constructor
    · intro h
      have : l = s.drop cfg.longPrefix.length := by simpa using h
      exact ⟨l, rfl, by rw [this]; exact hp.symm⟩
    · rintro ⟨_, rfl, rfl⟩; simp
  · have c1 : (n.longName.isSome && startsWith cfg.longPrefix s) = false := by
      rw [← Bool.not_eq_true, Bool.and_eq_true, startsWith_iff]; exact hl
    have hlong : (∃ l, n.longName = some l ∧ s = cfg.longPrefix ++ l) ↔ False := by
      simp only [iff_false]
      rintro ⟨l, h1, h2⟩
      exact hl ⟨by simp [h1], by rw [h2]; exact List.prefix_append _ _⟩
    rw [hlong]
    simp only [c1, Bool.false_eq_true, if_false, false_or]
    by_cases hs : n.shortName.isSome ∧ cfg.shortPrefix <+: s ∧ ¬ cfg.longPrefix <+: s
    · obtain ⟨x, hx⟩ := Option.isSome_iff_exists.1 hs.1
      have h1 := (startsWith_iff _ _).2 hs.2.1
      have h2 : startsWith cfg.longPrefix s = false := by
        rw [← Bool.not_eq_true, startsWith_iff]; exact hs.2.2
      have hp := prefix_append_drop hs.2.1
      simp only [hx, Option.isSome_some, h1, h2, Bool.not_false, Bool.and_self, if_true]
      constructor
      · intro h
        have : x = s.drop cfg.shortPrefix.length := by simpa using h
        exact .inl ⟨x, rfl, by rw [this]; exact hp.symm, hs.2.2⟩
      · rintro (⟨x', h, e, -⟩ | ⟨-, -, h⟩)
        · cases h
          have e' : s.drop cfg.shortPrefix.length = x := by rw [e]; simp
          simp [e']
        · exact absurd ⟨trivial, hs.2⟩ h
    · have c2 : (n.shortName.isSome &&
          (startsWith cfg.shortPrefix s && !startsWith cfg.longPrefix s)) = false := by
        rw [← Bool.not_eq_true, Bool.and_eq_true, Bool.and_eq_true, startsWith_iff,
          Bool.not_eq_true', ← Bool.not_eq_true, startsWith_iff]
        exact hs
      simp only [c2, Bool.false_eq_true, if_false]
      constructor
      · intro h
        have : n.noneName = some s := by simpa using h
        exact .inr ⟨this, hl, hs⟩
      · rintro (⟨x, h, e, h3⟩ | ⟨h, -, -⟩)
        · exact absurd ⟨by simp [h], by rw [e]; exact List.prefix_append _ _, h3⟩ hs
        · simp [h]

/-- The test the node applies to its first token, C02 in terms of labels. -/
theorem C02_label (cfg : Config) (n : Node) (t : Token) :
    n.matchToken (if t.pre == .none then n.getToken cfg t.name else t) = true ↔
      IsLabel cfg n t := by
  obtain ⟨p, s⟩ := t
  cases p with
  | none => simpa [IsLabel] using C02_selects_iff_spelled cfg n s
  | long => simp [IsLabel, Node.matchToken]
  | short => simp [IsLabel, Node.matchToken]

/-- A node with only a bare name (a mode, a forwarding argument) is selected by exactly that name,
whatever it looks like. -/
theorem C02_bare (cfg : Config) (n : Node) (w s : Bytes) (hl : n.longName = none)
    (hs : n.shortName = none) (hn : n.noneName = some w) :
    n.matchToken (n.getToken cfg s) = true ↔ s = w := by
  rw [C02_selects_iff_spelled]
  simp only [Spelled, hl, hs, hn]
  simp [eq_comm]

/-- A node with a long and a short name under the default prefixes. -/
theorem C02_long_short (n : Node) (l x s : Bytes) (hl : n.longName = some l)
    (hs : n.shortName = some x) (hn : n.noneName = none) (hx : x.head? ≠ (b "-").head?) :
    n.matchToken (n.getToken .default s) = true ↔ s = b "--" ++ l ∨ s = b "-" ++ x := by
  rw [C02_selects_iff_spelled]
  have hb2 : b "--" = [45, 45] := by decide +kernel
  have hb1 : b "-" = [45] := by decide +kernel
  have hno : ¬ Config.default.longPrefix <+: b "-" ++ x := by
    show ¬ b "--" <+: b "-" ++ x
    rw [hb2, hb1]
    cases x with
    | nil => decide
    | cons y ys =>
      rw [hb1] at hx
      simp only [List.head?_cons, ne_eq, Option.some.injEq] at hx
      simp only [List.cons_append, List.nil_append, List.cons_prefix_cons, not_and]
      intro _ h _; exact hx h.symm
  simp only [Spelled, hl, hs, hn]
  constructor
  · rintro (⟨_, h, e⟩ | ⟨_, h, e, -⟩ | ⟨h, -⟩)
    · cases h; exact .inl e
    · cases h; exact .inr e
    · cases h
  · rintro (e | e)
    · exact .inl ⟨l, rfl, e⟩
    · exact .inr (.inl ⟨x, rfl, e, by rw [e]; exact hno⟩)

example :
    let n : Node := .mk .flag 0 0 ⟨false, .one (.bool false), fun _ => .ub⟩
      [.longName (b "verbose"), .shortName (b "v"), .minMaxCount 0 0] []
    n.matchToken (n.getToken .default (b "-v")) = true ∧
    n.matchToken (n.getToken .default (b "--verbose")) = true ∧
    n.matchToken (n.getToken .default (b "-verbose")) = false ∧
    n.matchToken (n.getToken .default (b "v")) = false := by decide +kernel

end ArgRouter.Props
