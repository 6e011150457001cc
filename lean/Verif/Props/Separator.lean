import Verif.Props.Leaf

/-!
# C08 – value separators
-/

namespace ArgRouter.Props

open Spec

theorem findFirstOf_none {s : Bytes} {c : UInt8} (h : c ∉ s) : findFirstOf s [c] = none := by
  simp only [findFirstOf, List.findIdx?_eq_none_iff]
  intro x hx
  simp only [List.contains_cons, List.contains_nil, Bool.or_false, beq_eq_false_iff_ne]
  rintro rfl; exact h hx

theorem findFirstOf_append {l v : Bytes} {c : UInt8} (h : c ∉ l) :
    findFirstOf (l ++ c :: v) [c] = some l.length := by
  induction l with
  | nil => simp [findFirstOf, List.findIdx?_cons]
  | cons x l ih =>
    have hx : (x == c) = false := by
      simp only [beq_eq_false_iff_ne]; rintro rfl; exact h List.mem_cons_self
    have := ih fun hm => h (List.mem_cons_of_mem _ hm)
    simp only [findFirstOf, List.contains_cons, List.contains_nil, Bool.or_false] at this ⊢
    rw [List.cons_append, List.findIdx?_cons, this]
    simp [hx]

theorem deref_begin (t : Token) (rest : List Token) :
    Adapter.deref ⟨[], t :: rest⟩ Adapter.begin_ = .ok t := rfl

theorem transfer_begin (t : Token) (rest : List Token) :
    Adapter.transfer ⟨[], t :: rest⟩ Adapter.begin_ = ⟨[t], rest⟩ := by
  obtain ⟨-, h2, h3⟩ := C04_transfer ⟨[], t :: rest⟩ 0 (by simp [Adapter.size])
  have hb : at_ 0 = Adapter.begin_ := rfl
  rw [hb] at h2 h3
  cases hA : Adapter.transfer ⟨[], t :: rest⟩ Adapter.begin_
  rw [hA] at h2 h3
  simp only [tokenSeq, List.nil_append, List.length_nil] at h2 h3
  rw [h2, h3]; rfl

theorem insert_second (t x : Token) (rest : List Token) :
    Adapter.insert ⟨[], t :: rest⟩ (Adapter.begin_.add 1) x =
      .ok (⟨[t, x], rest⟩, ⟨true, 1⟩) := by
  have h1 : (Adapter.begin_.add 1).add (-1) = Adapter.begin_ := rfl
  simp only [Adapter.insert, h1, transfer_begin]
  have : (if Adapter.isEnd ⟨[t], rest⟩ (Adapter.begin_.add 1) = true then
      (([t] : List Token).length : Int) else (Adapter.begin_.add 1).i) = 1 := by
    split <;> rfl
  rw [this, if_pos (by simp)]
  rfl

theorem set_first (t x : Token) (P U : List Token) :
    Adapter.set ⟨t :: P, U⟩ Adapter.begin_ x = .ok ⟨x :: P, U⟩ := by
  have : Adapter.transfer ⟨t :: P, U⟩ Adapter.begin_ = ⟨t :: P, U⟩ := by
    have he : Adapter.isEnd ⟨t :: P, U⟩ Adapter.begin_ = false := by
      simp [Adapter.isEnd, Adapter.begin_, Adapter.size]; omega
    simp only [Adapter.transfer, he, Bool.false_eq_true, if_false]
    rw [if_pos (by simp [Adapter.begin_])]
  simp only [Adapter.set, this]
  rw [if_pos (by simp [Adapter.begin_])]
  rfl

theorem separator_splits (cfg : Config) (n : Node) (p : Prefix) (l v : Bytes) (c : UInt8)
    (rest : List Token) (hl : c ∉ l) (hv : v ≠ []) :
    valueSeparatorPhase cfg n [c] ⟨[], ⟨p, l ++ c :: v⟩ :: rest⟩ =
      .ok (.ok .validNode, ⟨[⟨p, l⟩, ⟨.none, v⟩], rest⟩) := by
  have hle : l.length + 1 ≤ (l ++ c :: v).length := by simp
  have hd : (l ++ c :: v).drop (l.length + 1) = v := by simp
  have he : v.isEmpty = false := by cases v <;> simp_all
  have ht : (l ++ c :: v).take l.length = l := by simp
  simp only [valueSeparatorPhase, Adapter.isEmpty, List.isEmpty_nil, List.isEmpty_cons,
    Bool.and_false, Bool.false_eq_true, if_false, deref_begin, Out.ok_bind, findFirstOf_append hl,
    List.length_cons, List.length_nil, Nat.zero_add, if_pos hle, hd, he, ht, insert_second,
    set_first, Out.pure_eq]

theorem separator_empty_value (cfg : Config) (n : Node) (p : Prefix) (l : Bytes) (c : UInt8)
    (rest : List Token) (hl : c ∉ l) :
    valueSeparatorPhase cfg n [c] ⟨[], ⟨p, l ++ [c]⟩ :: rest⟩ =
      .ok (.ok .skipNode, ⟨[], ⟨p, l ++ [c]⟩ :: rest⟩) := by
  have hle : l.length + 1 ≤ (l ++ [c]).length := by simp
  have hd : (l ++ [c]).drop (l.length + 1) = [] := by simp
  simp only [valueSeparatorPhase, Adapter.isEmpty, List.isEmpty_nil, List.isEmpty_cons,
    Bool.and_false, Bool.false_eq_true, if_false, deref_begin, Out.ok_bind, findFirstOf_append hl,
    List.length_cons, List.length_nil, Nat.zero_add, if_pos hle, hd]
  rfl

theorem separator_absent (cfg : Config) (n : Node) (t : Token) (c : UInt8) (rest : List Token)
    (hl : c ∉ t.name) :
    valueSeparatorPhase cfg n [c] ⟨[], t :: rest⟩ =
      .ok (if n.matchToken (if t.pre == .none then getTokenType cfg t.name else t) then
        .error ⟨.missing_value_separator, [n.tokenType]⟩ else .ok .skipNode,
        ⟨[], t :: rest⟩) := by
  simp only [valueSeparatorPhase, Adapter.isEmpty, List.isEmpty_nil, List.isEmpty_cons,
    Bool.and_false, Bool.false_eq_true, if_false, deref_begin, Out.ok_bind, findFirstOf_none hl]
  generalize (if (t.pre == Prefix.none) = true then getTokenType cfg t.name else t) = x
  split <;> rfl

/-- For a node without a bare name, classifying with or without the node makes no difference. -/
theorem matchToken_classify (cfg : Config) (n : Node) (s : Bytes) (hn : n.noneName = none) :
    n.matchToken (getTokenType cfg s) = n.matchToken (n.getToken cfg s) := by
  unfold getTokenType Node.getToken getTokenTypeNode
  cases hL : startsWith cfg.longPrefix s <;> cases hS : startsWith cfg.shortPrefix s <;>
    cases hl : n.longName <;> cases hs : n.shortName <;>
    simp [Node.matchToken, hn, hl, hs] <;> rfl

theorem leaf_separator {cfg : Config} {n : Node} {sep : Bytes} {parents : List Node}
    {args : List Token} {processed : Option Target} {validator : Validator}
    (hp : MatchPolicies n [.valueSeparator sep, .minMaxCount 1 1]) {m : PreResult} {a : Adapter}
    (h : valueSeparatorPhase cfg n sep ⟨[], args⟩ = .ok (m, a)) :
    leafPreParse cfg n parents args processed validator =
      (M.lift (runPhases cfg n parents processed [.minMaxCount 1 1] m a []) >>=
        fun (m, a, subs) => leafTail cfg n validator m a subs) := by
  rw [leafPreParse_eq, hp.phases (by simp [Policy.priority])]
  have : sortPolicies [.valueSeparator sep, .minMaxCount 1 1] =
    [.valueSeparator sep, .minMaxCount 1 1] := rfl
  rw [this, runPhases_cons_valid _ _ _ _ _ _ _ _ rfl]
  simp only [Policy.phase, h]
  rfl

/-- C08: on `<label><sep><value> rest...`, split at the first separator, the node takes exactly the
value, and matches exactly when what precedes the separator is its label. The separator is any
single byte (any ASCII character); the value may contain it again. -/
theorem C08_split (cfg : Config) (n : Node) (parents : List Node) (p : Prefix) (l v : Bytes)
    (c : UInt8) (rest : List Token) (processed : Option Target) (validator : Validator)
    (hp : MatchPolicies n [.valueSeparator [c], .minMaxCount 1 1]) (hn : n.isNamed = true)
    (hlen : rest.length + 2 < 2 ^ 63) (hc : c ∉ l) (hv : v ≠ []) :
    (IsLabel cfg n ⟨p, l⟩ →
      leafPreParse cfg n parents (⟨p, l ++ c :: v⟩ :: rest) processed validator =
        guarded validator n (pure (some (⟨n, [⟨.none, v⟩], []⟩, rest)))) ∧
    (¬ IsLabel cfg n ⟨p, l⟩ →
      leafPreParse cfg n parents (⟨p, l ++ c :: v⟩ :: rest) processed validator = pure none) := by
  have key := leaf_separator (parents := parents) (processed := processed) (validator := validator)
    hp (separator_splits cfg n p l v c rest hc hv)
  rw [runPhases_cons_valid _ _ _ _ _ _ _ _ rfl] at key
  have hph := minMaxCountPhase_eq (owner := n) (mn := 1) (mx := 1)
    (a := ⟨[⟨p, l⟩, ⟨.none, v⟩], rest⟩) (no_marker hp (by simp)) (by decide)
    (by simp only [Adapter.size, List.length_cons, List.length_nil]; omega) (.inl hn)
  simp only [hn, if_true, Adapter.size, List.length_cons, List.length_nil, Nat.zero_add, tokenSeq,
    Nat.reduceAdd] at hph
  rw [if_neg (by omega)] at hph
  have hmax : max (min 2 (2 + rest.length)) 2 = 2 := by omega
  rw [hmax] at hph
  simp only [List.cons_append, List.nil_append, List.take_succ_cons, List.take_zero,
    List.drop_succ_cons, List.drop_zero] at hph
  simp only [Policy.phase, hph] at key
  rw [key]
  simp only [Out.bind, runPhases, M.lift_ok_bind]
  have hcl : checkLabel cfg n (.ok .validNode) ⟨[⟨p, l⟩, ⟨.none, v⟩], rest⟩ =
      if labelTest cfg n ⟨p, l⟩ then
        some ⟨[if p == .none then n.getToken cfg l else ⟨p, l⟩, ⟨.none, v⟩], rest⟩ else none := by
    rw [checkLabel_named hn (by simp) (by simp)]
    rfl
  constructor
  · intro h
    rw [(labelTest_iff _ _ _).2 h] at hcl
    rw [leafTail_some hcl]
    simp [hn]
  · intro h
    rw [← labelTest_iff, Bool.not_eq_true] at h
    rw [h] at hcl
    exact leafTail_none hcl

/-- C08: `<label><sep>` with nothing after the separator does not match. -/
theorem C08_empty_value (cfg : Config) (n : Node) (parents : List Node) (p : Prefix) (l : Bytes)
    (c : UInt8) (rest : List Token) (processed : Option Target) (validator : Validator)
    (hp : MatchPolicies n [.valueSeparator [c], .minMaxCount 1 1]) (hc : c ∉ l) :
    leafPreParse cfg n parents (⟨p, l ++ [c]⟩ :: rest) processed validator = pure none := by
  rw [leaf_separator hp (separator_empty_value cfg n p l c rest hc)]
  rfl

/-- C08: a first token without separator is rejected with `missing_value_separator` if it is the
node's label, and does not match otherwise. -/
theorem C08_no_separator (cfg : Config) (n : Node) (parents : List Node) (t : Token)
    (c : UInt8) (rest : List Token) (processed : Option Target) (validator : Validator)
    (hp : MatchPolicies n [.valueSeparator [c], .minMaxCount 1 1]) (hn : n.isNamed = true)
    (hnn : n.noneName = none) (hc : c ∉ t.name) :
    (IsLabel cfg n t → leafPreParse cfg n parents (t :: rest) processed validator =
      guarded validator n (M.throw ⟨.missing_value_separator, [n.tokenType]⟩)) ∧
    (¬ IsLabel cfg n t →
      leafPreParse cfg n parents (t :: rest) processed validator = pure none) := by
  rw [leaf_separator hp (separator_absent cfg n t c rest hc)]
  have hm : n.matchToken (if t.pre == .none then getTokenType cfg t.name else t) =
      labelTest cfg n t := by
    unfold labelTest
    split
    · exact matchToken_classify cfg n t.name hnn
    · rfl
  rw [hm]
  constructor
  · intro h
    have h' := (labelTest_iff _ _ _).2 h
    simp only [h', if_true, runPhases_error, M.lift_ok_bind]
    refine leafTail_error (a' := ⟨[if t.pre == .none then n.getToken cfg t.name else t], rest⟩) ?_
    rw [checkLabel_named hn (by simp) (by simp)]
    simp [tokenSeq, h']
  · intro h
    rw [← labelTest_iff, Bool.not_eq_true] at h
    simp only [h, Bool.false_eq_true, if_false, runPhases_skip, M.lift_ok_bind]
    rfl

/-! ### Separators of any length -/

theorem findFirstOf_absent {s sep : Bytes} (h : ∀ c ∈ s, c ∉ sep) : findFirstOf s sep = none := by
  simp only [findFirstOf, List.findIdx?_eq_none_iff]
  intro x hx
  simpa using h x hx

theorem findFirstOf_at {l v sep : Bytes} {c : UInt8} (h : ∀ x ∈ l, x ∉ sep) (hc : c ∈ sep) :
    findFirstOf (l ++ c :: v) sep = some l.length := by
  induction l with
  | nil => simp [findFirstOf, List.findIdx?_cons, hc]
  | cons x l ih =>
    have hx : sep.contains x = false := by simpa using h x List.mem_cons_self
    have := ih fun y hy => h y (List.mem_cons_of_mem _ hy)
    simp only [findFirstOf] at this ⊢
    rw [List.cons_append, List.findIdx?_cons, this]
    simp only [hx]
    simp

theorem separator_any (cfg : Config) (n : Node) (p : Prefix) (l v sep : Bytes) (c : UInt8)
    (rest : List Token) (hl : ∀ x ∈ l, x ∉ sep) (hc : c ∈ sep) :
    valueSeparatorPhase cfg n sep ⟨[], ⟨p, l ++ c :: v⟩ :: rest⟩ =
      if v.length + 1 < sep.length then .foreign
      else if v.length + 1 = sep.length then .ok (.ok .skipNode, ⟨[], ⟨p, l ++ c :: v⟩ :: rest⟩)
      else .ok (.ok .validNode, ⟨[⟨p, l⟩, ⟨.none, v.drop (sep.length - 1)⟩], rest⟩) := by
  have hpos : 0 < sep.length := List.length_pos_of_mem hc
  have hlen : (l ++ c :: v).length = l.length + (v.length + 1) := by simp
  have hd : (l ++ c :: v).drop (l.length + sep.length) = v.drop (sep.length - 1) := by
    obtain ⟨k, hk⟩ : ∃ k, sep.length = k + 1 := ⟨sep.length - 1, by omega⟩
    rw [hk, List.drop_append, List.drop_of_length_le (by omega), Nat.add_sub_cancel_left]
    simp
  have ht : (l ++ c :: v).take l.length = l := by simp
  simp only [valueSeparatorPhase, Adapter.isEmpty, List.isEmpty_nil, List.isEmpty_cons,
    Bool.and_false, Bool.false_eq_true, if_false, deref_begin, Out.ok_bind, findFirstOf_at hl hc, hlen,
    hd, ht]
  by_cases h1 : v.length + 1 < sep.length
  · rw [if_pos h1, if_neg (by omega)]
  · rw [if_neg h1, if_pos (by omega)]
    by_cases h2 : v.length + 1 = sep.length
    · rw [if_pos h2, if_pos (by simp only [List.isEmpty_iff, List.drop_eq_nil_iff]; omega)]
      rfl
    · rw [if_neg h2, if_neg (by simp only [List.isEmpty_iff, List.drop_eq_nil_iff]; omega), insert_second,
        Out.ok_bind]
      simp only [set_first, Out.ok_bind, Out.pure_eq]

/-- C08, what happens with a separator of any number of bytes. The first argument is divided at the first
byte that is *a byte of* the separator, and as many bytes as the separator has are left out there, whatever
they are: if fewer are left `std::out_of_range` escapes, if none remain after them the node does not match,
and otherwise the node takes what remains, if what precedes is its label. -/
theorem C08_exact (cfg : Config) (n : Node) (parents : List Node) (p : Prefix) (l v sep : Bytes)
    (c : UInt8) (rest : List Token) (processed : Option Target) (validator : Validator)
    (hp : MatchPolicies n [.valueSeparator sep, .minMaxCount 1 1]) (hn : n.isNamed = true)
    (hlen : rest.length + 2 < 2 ^ 63) (hl : ∀ x ∈ l, x ∉ sep) (hc : c ∈ sep) :
    (v.length + 1 < sep.length → ∀ s,
      leafPreParse cfg n parents (⟨p, l ++ c :: v⟩ :: rest) processed validator s = (.foreign, s)) ∧
    (v.length + 1 = sep.length →
      leafPreParse cfg n parents (⟨p, l ++ c :: v⟩ :: rest) processed validator = pure none) ∧
    (sep.length < v.length + 1 →
      (IsLabel cfg n ⟨p, l⟩ →
        leafPreParse cfg n parents (⟨p, l ++ c :: v⟩ :: rest) processed validator =
          guarded validator n (pure (some (⟨n, [⟨.none, v.drop (sep.length - 1)⟩], []⟩, rest)))) ∧
      (¬ IsLabel cfg n ⟨p, l⟩ →
        leafPreParse cfg n parents (⟨p, l ++ c :: v⟩ :: rest) processed validator = pure none)) := by
  have hph := separator_any cfg n p l v sep c rest hl hc
  refine ⟨fun h s => ?_, fun h => ?_, fun h => ?_⟩
  · rw [if_pos h] at hph
    rw [leafPreParse_eq, hp.phases (by simp [Policy.priority])]
    have : sortPolicies [.valueSeparator sep, .minMaxCount 1 1] =
      [.valueSeparator sep, .minMaxCount 1 1] := rfl
    rw [this, runPhases_cons_valid _ _ _ _ _ _ _ _ rfl]
    simp only [Policy.phase, hph]
    rfl
  · rw [if_neg (by omega), if_pos h] at hph
    rw [leaf_separator hp hph]
    rfl
  · rw [if_neg (by omega), if_neg (by omega)] at hph
    generalize v.drop (sep.length - 1) = w at hph ⊢
    have key := leaf_separator (parents := parents) (processed := processed) (validator := validator)
      hp hph
    rw [runPhases_cons_valid _ _ _ _ _ _ _ _ rfl] at key
    have hph := minMaxCountPhase_eq (owner := n) (mn := 1) (mx := 1)
      (a := ⟨[⟨p, l⟩, ⟨.none, w⟩], rest⟩) (no_marker hp (by simp)) (by decide)
      (by simp only [Adapter.size, List.length_cons, List.length_nil]; omega) (.inl hn)
    simp only [hn, if_true, Adapter.size, List.length_cons, List.length_nil, Nat.zero_add, tokenSeq,
      Nat.reduceAdd] at hph
    rw [if_neg (by omega)] at hph
    have hmax : max (min 2 (2 + rest.length)) 2 = 2 := by omega
    rw [hmax] at hph
    simp only [List.cons_append, List.nil_append, List.take_succ_cons, List.take_zero,
      List.drop_succ_cons, List.drop_zero] at hph
    simp only [Policy.phase, hph] at key
    rw [key]
    simp only [Out.bind, runPhases, M.lift_ok_bind]
    have hcl : checkLabel cfg n (.ok .validNode) ⟨[⟨p, l⟩, ⟨.none, w⟩], rest⟩ =
        if labelTest cfg n ⟨p, l⟩ then
          some ⟨[if p == .none then n.getToken cfg l else ⟨p, l⟩, ⟨.none, w⟩], rest⟩ else none := by
      rw [checkLabel_named hn (by simp) (by simp)]
      rfl
    constructor
    · intro h
      rw [(labelTest_iff _ _ _).2 h] at hcl
      rw [leafTail_some hcl]
      simp [hn]
    · intro h
      rw [← labelTest_iff, Bool.not_eq_true] at h
      rw [h] at hcl
      exact leafTail_none hcl

/-- `--level=...` -/
def sepNode : Node := .mk .arg 0 0 ⟨false, .one (.int 0), fun s => .ok (.str s)⟩
  [.minMaxCount 1 1, .longName (b "level"), .shortName (b "l"), .valueSeparator (b "=")] []

example : MatchPolicies sepNode [.valueSeparator [61], .minMaxCount 1 1] ∧
    sepNode.isNamed = true ∧ sepNode.noneName = none ∧
    IsLabel .default sepNode ⟨.none, b "--level"⟩ ∧ (61 : UInt8) ∉ b "--level" :=
  ⟨List.Perm.swap _ _ _, by decide +kernel, by decide +kernel,
    .inl ⟨b "level", by decide +kernel, by decide +kernel⟩, by decide +kernel⟩

/-- A separator that is not ASCII: the policy accepts any one character. -/
def sepNodeE : Node := .mk .arg 0 0 ⟨false, .one (.int 0), fun s => .ok (.str s)⟩
  [.minMaxCount 1 1, .longName (b "level"), .valueSeparator (b "é")] []

/-- What a node took and what it left, if it matched. -/
def taken (r : Out (Option (Target × List Token)) × St) : Out (Option (List Token × List Token)) :=
  match r.1 with
  | .ok (some (t, rest)) => .ok (some (t.tokens, rest))
  | .ok none => .ok none
  | .throw e => .throw e
  | .foreign => .foreign
  | .ub => .ub
  | .diverge => .diverge

/-- C08 is false for separators outside ASCII: with separator `é`, the argument `--levelè5`, which
does not contain the separator, is taken as `--level` with value `5`; and the argument `--level©`
makes the library throw `std::out_of_range`. -/
theorem C08_non_ascii_false :
    taken (leafPreParse .default sepNodeE [] [⟨.none, b "--levelè5"⟩] none alwaysTrue .fresh) =
      .ok (some ([⟨.none, b "5"⟩], [])) ∧
    taken (leafPreParse .default sepNodeE [] [⟨.none, b "--level©"⟩] none alwaysTrue .fresh) =
      .foreign := by
  decide +kernel

/-- The cases of `C08_exact` all occur with the separator `é`, which is two bytes. -/
example : MatchPolicies sepNodeE [.valueSeparator (b "é"), .minMaxCount 1 1] ∧
    sepNodeE.isNamed = true ∧ (b "é").length = 2 ∧ (∀ x ∈ b "--level", x ∉ b "é") ∧
    (0xC3 : UInt8) ∈ b "é" ∧ (0xA9 : UInt8) ∈ b "é" ∧ IsLabel .default sepNodeE ⟨.none, b "--level"⟩ :=
  ⟨List.Perm.swap _ _ _, by decide +kernel, by decide +kernel, by decide +kernel, by decide +kernel,
    by decide +kernel, .inl ⟨b "level", by decide +kernel, by decide +kernel⟩⟩

end ArgRouter.Props
