import Verif.Spec.Groups
import Verif.Props.Leaf
import Verif.Lemmas.PreParse
import Verif.Props.Grapheme

/-!
# Lemmas about named arguments with a fixed number of values
-/

namespace ArgRouter

open Spec Props Utf8

/-- The token as the expander reads it. -/
def readToken (cfg : Config) (n : Node) (t : Token) : Token :=
  if t.pre == .none then n.getToken cfg t.name else t

theorem startsWith_prefix {p s : Bytes} : startsWith p s = true ↔ p <+: s := by
  unfold startsWith
  rw [beq_iff_eq]
  constructor
  · intro h; exact ⟨s.drop p.length, by
      have := List.take_append_drop p.length s
      rwa [h] at this⟩
  · rintro ⟨r, rfl⟩; simp

/-- A token read as short by the node is written in short form. -/
theorem readToken_short {cfg : Config} {n : Node} {t : Token}
    (h : (readToken cfg n t).pre = .short) : ShortText cfg t (readToken cfg n t).name := by
  unfold readToken at h ⊢
  by_cases hp : t.pre = .none
  · simp only [hp, beq_self_eq_true, if_true, Node.getToken, getTokenTypeNode] at h ⊢
    split at h
    · cases h
    · rename_i h1
      rw [if_neg h1]
      split at h
      · rename_i h2
        rw [if_pos h2]
        simp only [Bool.and_eq_true, Bool.not_eq_true', startsWith_prefix] at h2
        obtain ⟨-, ⟨r, hr⟩, h4⟩ := h2
        right
        refine ⟨hp, ?_, fun h5 => ?_⟩
        · rw [← hr]; simp
        · rw [← startsWith_prefix, h4] at h5; cases h5
      · cases h
  · have : (t.pre == Prefix.none) = false := by simpa using hp
    simp only [this, Bool.false_eq_true, if_false] at h ⊢
    exact .inl ⟨h, rfl⟩

/-- A node with a short name reads a token in short form as short. -/
theorem readToken_of_short {cfg : Config} {n : Node} {t : Token} {x y : Bytes}
    (hs : n.shortName = some y) (h : ShortText cfg t x) : readToken cfg n t = ⟨.short, x⟩ := by
  rcases h with ⟨h1, h2⟩ | ⟨h1, h2, h3⟩
  · obtain ⟨p, nm⟩ := t
    simp only at h1 h2
    subst h1 h2
    rfl
  · have hl : startsWith cfg.longPrefix t.name = false := by
      rw [← Bool.not_eq_true, startsWith_prefix]; exact h3
    have hsp : startsWith cfg.shortPrefix t.name = true := by
      rw [startsWith_prefix, h2]; exact List.prefix_append _ _
    simp only [readToken, h1, beq_self_eq_true, if_true, Node.getToken, getTokenTypeNode, hl,
      Bool.and_false, Bool.false_eq_true, if_false, hs, Option.isSome_some, hsp, Bool.not_false,
      Bool.and_self]
    rw [h2]; simp

theorem label_readToken {cfg : Config} {n : Node} {t : Token} :
    IsLabel cfg n t ↔ n.matchToken (readToken cfg n t) = true := by
  rw [← labelTest_iff]; rfl

/-- The expander on a command line. -/
theorem expander_eq (cfg : Config) (n : Node) (t : Token) (rest : List Token) :
    shortFormExpanderPhase cfg n ⟨[], t :: rest⟩ =
      if (readToken cfg n t).pre ≠ .short ∨
          (readToken cfg n t).name.length = (n.shortName.getD []).length then
        .ok (.ok .validNode, ⟨[], t :: rest⟩)
      else if rest.length + (readToken cfg n t).name.length = 0 then .foreign
      else (graphemes (readToken cfg n t).name).bind fun gcs =>
        .ok (.ok .validNode, ⟨[⟨.short, gcs.headD []⟩], gcs.tail.map (Token.mk .short) ++ rest⟩) := by
  have hd : (Adapter.mk [] (t :: rest)).deref Adapter.begin_ = .ok t := rfl
  have ht : (Adapter.mk [] (t :: rest)).transfer Adapter.begin_ = ⟨[t], rest⟩ := by
    have : (Adapter.mk [] (t :: rest)).isEnd Adapter.begin_ = false := by
      have : ¬ ((0 : Int) ≥ (0 + (rest.length + 1) : Nat)) := by omega
      exact decide_eq_false this
    simp only [Adapter.transfer, this]
    simp [Adapter.begin_]
  unfold shortFormExpanderPhase
  simp only [Adapter.isEmpty, List.isEmpty_nil, List.isEmpty_cons, Bool.and_false,
    Bool.false_eq_true, if_false, hd, Out.ok_bind, ht]
  rw [show (if (t.pre == .none) = true then n.getToken cfg t.name else t) = readToken cfg n t
    from rfl]
  generalize readToken cfg n t = r
  by_cases h1 : r.pre = .short
  · by_cases h2 : r.name.length = (n.shortName.getD []).length
    · simp [h1, h2]
    · have e1 : (r.pre != Prefix.short) = false := by simp [h1]
      have e2 : (r.name.length == (n.shortName.getD []).length) = false := by simpa using h2
      simp only [e1, e2, Bool.false_eq_true, if_false]
      rw [if_neg (show ¬ (r.pre ≠ .short ∨ r.name.length = (n.shortName.getD []).length) by
        simp [h1, h2])]
      by_cases h3 : rest.length + r.name.length = 0
      · have e3 : (rest.length + r.name.length == 0) = true := by simpa using h3
        simp only [e3, if_true]; rw [if_pos h3]
      · have e3 : (rest.length + r.name.length == 0) = false := by simpa using h3
        simp only [e3, h3, Bool.false_eq_true, if_false]
        show (graphemes r.name).bind _ = _
        congr 1
        funext gcs
        have hset : Adapter.set ⟨[t], gcs.tail.map (Token.mk .short) ++ rest⟩ Adapter.begin_
            ⟨.short, gcs.headD []⟩ =
            .ok ⟨[⟨.short, gcs.headD []⟩], gcs.tail.map (Token.mk .short) ++ rest⟩ := by
          have hend : Adapter.isEnd ⟨[t], gcs.tail.map (Token.mk .short) ++ rest⟩ Adapter.begin_ =
              false := by
            have : ¬ ((0 : Int) ≥ (1 + (gcs.tail.map (Token.mk .short) ++ rest).length : Nat)) := by
              omega
            exact decide_eq_false this
          simp only [Adapter.set, Adapter.transfer, hend]
          simp [Adapter.begin_]
        rw [hset]; rfl
  · have e1 : (r.pre != Prefix.short) = true := by simpa using h1
    rw [e1, if_pos rfl, if_pos (.inl h1)]
    rfl

theorem Spec.FixedCount.notGroup {cfg : Config} {c : Node} {k : Nat} (h : FixedCount cfg c k) :
    c.isGroup = false := by
  simp only [Node.isGroup, Bool.or_eq_false_iff, beq_eq_false_iff_ne, ne_eq]
  exact ⟨h.leaf.2.1, h.leaf.2.2⟩

theorem plain_phases {c : Node} (h : MatchPolicies c [.shortFormExpander, .minMaxCount 0 0]) :
    c.phases = [.shortFormExpander, .minMaxCount 0 0] := by
  rw [h.phases (by simp [Policy.priority])]
  rfl

theorem no_end_marker {cfg : Config} {c : Node} {k : Nat} (h : FixedCount cfg c k) :
    c.hasTokenEndMarker = false := by
  rcases h.matching with h | ⟨-, h⟩
  · exact no_marker h (by simp)
  · exact no_marker h (by simp)

/-- A named argument on its label. -/
theorem plain_label {cfg : Config} {c : Node} {k : Nat} (h : FixedCount cfg c k) (parents : List Node)
    (label : Token) (rest : List Token) (processed : Option Target) (validator : Validator)
    (hlen : rest.length + 1 < 2 ^ 63) (hl : IsLabel cfg c label) :
    leafPreParse cfg c parents (label :: rest) processed validator =
      guarded validator c (if k ≤ rest.length
        then pure (some (⟨c, rest.take k, []⟩, rest.drop k))
        else M.throw ⟨.minimum_count_not_reached, [c.tokenType]⟩) := by
  have hk : k ≤ sizeMax := by have := h.small; unfold sizeMax; omega
  rcases h.matching with hm | ⟨rfl, hm⟩
  · exact C07_named cfg c k k parents label rest processed validator hm h.named hk hlen hl
  · rw [leafPreParse_eq, plain_phases hm]
    rw [runPhases_cons_valid _ _ _ _ _ _ _ _ rfl]
    have he : shortFormExpanderPhase cfg c ⟨[], label :: rest⟩ =
        .ok (.ok .validNode, ⟨[], label :: rest⟩) := by
      rw [expander_eq, if_pos]
      by_cases hs : (readToken cfg c label).pre = .short
      · right
        rw [label_readToken] at hl
        simp only [Node.matchToken, hs, reduceCtorEq, beq_iff_eq, Bool.or_eq_true, Bool.and_eq_true,
          false_and, true_and, false_or, or_false] at hl
        rw [hl]; rfl
      · exact .inl hs
    simp only [Policy.phase, he, Out.ok_bind, Out.bind, Out.pure_eq]
    rw [runPhases_cons_valid _ _ _ _ _ _ _ _ rfl]
    simp only [Policy.phase, Out.bind, runPhases]
    rw [M.lift_ok_bind]
    simp only
    rw [minMaxCountPhase_eq (no_end_marker h) hk
      (by simpa [Adapter.size] using hlen) (.inl h.named)]
    have ht : labelTest cfg c label = true := (labelTest_iff _ _ _).2 hl
    simp only [h.named, if_true, Adapter.size, List.length_nil, List.length_cons, Nat.zero_add,
      tokenSeq, List.nil_append, Nat.max_zero]
    rw [if_neg (by omega)]
    have hcl : checkLabel cfg c (.ok .validNode)
        ⟨(label :: rest).take (min 1 (rest.length + 1)),
          (label :: rest).drop (min 1 (rest.length + 1))⟩ = some
        ⟨[if label.pre == .none then c.getToken cfg label.name else label], rest⟩ := by
      rw [checkLabel_named h.named (by simp) (by simp)]
      have : min 1 (rest.length + 1) = 1 := by omega
      rw [this]
      simp [tokenSeq, ht]
    rw [leafTail_some hcl]
    simp [h.named]

/-- A named argument on a token that is not for it. -/
theorem plain_other {cfg : Config} {c : Node} {k : Nat} (h : FixedCount cfg c k) (parents : List Node)
    (t : Token) (rest : List Token) (processed : Option Target) (validator : Validator)
    (hl : NotFor cfg c t) :
    leafPreParse cfg c parents (t :: rest) processed validator = pure none := by
  rcases h.matching with hm | ⟨rfl, hm⟩
  · exact C07_named_no_label cfg c k k parents (t :: rest) processed validator hm h.named
      (by rintro l hl'; simp only [List.head?_cons, Option.mem_def, Option.some.injEq] at hl'
          subst hl'; exact hl.1)
  · -- whatever the counting phase does to the tokens, the first one is not the label
    have count : ∀ (a : Adapter) (u : Token) (us : List Token), tokenSeq a = u :: us →
        labelTest cfg c u = false →
        leafTail cfg c validator (minMaxCountPhase c 0 0 a).1 (minMaxCountPhase c 0 0 a).2 [] =
          pure none := by
      intro a u us ha hu
      have hk : tokenSeq (minMaxCountPhase c 0 0 a).2 = u :: us ∧
          (minMaxCountPhase c 0 0 a).1 ≠ .ok .skipNode ∧
          (minMaxCountPhase c 0 0 a).1 ≠ .ok .skipNodeButUseSubTargets := by
        rcases minMaxCountPhase_cases c 0 0 a with ⟨ec, h, -⟩ | ⟨it, h⟩
        · rw [h]; exact ⟨ha, by simp, by simp⟩
        · rw [h]; exact ⟨((C04_transfer_any _ it).1).trans ha, by simp, by simp⟩
      refine leafTail_none ?_
      rw [checkLabel_named h.named hk.2.1 hk.2.2, hk.1]
      simp [hu]
    have hnl : labelTest cfg c t = false := by
      rw [← Bool.not_eq_true, labelTest_iff]; exact hl.1
    rw [leafPreParse_eq, plain_phases hm, runPhases_cons_valid _ _ _ _ _ _ _ _ rfl]
    simp only [Policy.phase]
    rw [expander_eq]
    split
    · simp only [Out.ok_bind, Out.bind, Out.pure_eq]
      rw [runPhases_cons_valid _ _ _ _ _ _ _ _ rfl]
      simp only [Policy.phase, Out.bind, runPhases]
      rw [M.lift_ok_bind]
      exact count _ t rest rfl hnl
    · rename_i hex
      simp only [not_or, Decidable.not_not] at hex
      obtain ⟨h1, gs, h2, h3⟩ := hl.2 _ (readToken_short hex.1)
      rw [if_neg (by
        have : 0 < (readToken cfg c t).name.length := List.length_pos_iff.2 h1
        omega), h2]
      simp only [Out.ok_bind, Out.bind, Out.pure_eq]
      rw [runPhases_cons_valid _ _ _ _ _ _ _ _ rfl]
      simp only [Policy.phase, Out.bind, runPhases]
      rw [M.lift_ok_bind]
      refine count _ ⟨.short, gs.headD []⟩ (gs.tail.map (Token.mk .short) ++ rest) rfl ?_
      rw [← Bool.not_eq_true, labelTest_iff]
      show ¬ c.shortName = some (gs.headD [])
      intro hs
      cases gs with
      | nil =>
        -- no clusters: the text would be empty
        have := ((C41_any_bytes _).2 _ h2).1
        exact h1 this.symm
      | cons g gs => exact h3 (by simpa using hs.symm)

/-- A flag on collapsed short flags that begin with it. -/
theorem fixed_collapsed {cfg : Config} {c : Node} (h : FixedCount cfg c 0)
    (hm : MatchPolicies c [.shortFormExpander, .minMaxCount 0 0]) (parents : List Node)
    (t : Token) (x g g2 : Bytes) (gs : List Bytes) (rest : List Token) (processed : Option Target)
    (validator : Validator) (hx : ShortText cfg t x) (hg : graphemes x = .ok (g :: g2 :: gs))
    (hs : c.shortName = some g) (hlen : rest.length + gs.length + 2 < 2 ^ 63) :
    leafPreParse cfg c parents (t :: rest) processed validator =
      guarded validator c (pure (some (⟨c, [], []⟩,
        (g2 :: gs).map (Token.mk .short) ++ rest))) := by
  have hr := readToken_of_short hs hx
  obtain ⟨hj, hne⟩ := (C41_any_bytes _).2 _ hg
  have hxl : x.length ≠ g.length := by
    rw [← hj]
    have := List.length_pos_iff.2 (hne g2 (by simp))
    simp only [List.flatten_cons, List.length_append]
    omega
  have hx0 : x.length ≠ 0 := by
    rw [← hj]
    have := List.length_pos_iff.2 (hne g2 (by simp))
    simp only [List.flatten_cons, List.length_append]
    omega
  rw [leafPreParse_eq, plain_phases hm, runPhases_cons_valid _ _ _ _ _ _ _ _ rfl]
  simp only [Policy.phase]
  rw [expander_eq, hr, hs]
  simp only [Option.getD_some]
  rw [if_neg (by simp [hxl]), if_neg (by omega), hg]
  simp only [Out.ok_bind, Out.bind, Out.pure_eq]
  rw [runPhases_cons_valid _ _ _ _ _ _ _ _ rfl]
  simp only [Policy.phase, Out.bind, runPhases]
  rw [M.lift_ok_bind]
  simp only
  rw [minMaxCountPhase_eq (no_end_marker h) (by unfold sizeMax; omega)
    (by simp [Adapter.size]; omega) (.inl h.named)]
  have ht : labelTest cfg c ⟨.short, g⟩ = true := (labelTest_iff _ _ _).2 hs
  simp only [h.named, if_true, Adapter.size, List.length_cons, List.length_nil, Nat.zero_add,
    List.headD_cons, List.tail_cons]
  rw [if_neg (by omega)]
  have h1 : max (min 1 (1 + ((g2 :: gs).map (Token.mk .short) ++ rest).length)) 1 = 1 := by omega
  rw [h1]
  have hcl : checkLabel cfg c (.ok .validNode)
      ⟨[⟨.short, g⟩], (g2 :: gs).map (Token.mk .short) ++ rest⟩ = some
      ⟨[⟨.short, g⟩], (g2 :: gs).map (Token.mk .short) ++ rest⟩ := by
    rw [checkLabel_named h.named (by simp) (by simp)]
    simp [tokenSeq, ht]
  have h2 : (tokenSeq ⟨[⟨.short, g⟩], (g2 :: gs).map (Token.mk .short) ++ rest⟩).take 1 =
      [⟨.short, g⟩] := rfl
  have h3 : (tokenSeq ⟨[⟨.short, g⟩], (g2 :: gs).map (Token.mk .short) ++ rest⟩).drop 1 =
      (g2 :: gs).map (Token.mk .short) ++ rest := rfl
  rw [h2, h3, leafTail_some hcl]
  simp [h.named]

end ArgRouter
