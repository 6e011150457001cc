import Verif.Spec.HandedOver
import Verif.Props.Following
import Verif.Props.Labels

/-!
# C126: values that are handed over arrive
-/

namespace ArgRouter.Props

open Spec

variable {cfg : Config} {mode root : Node} {names : List Bytes} {depth : Nat}

/-! ## One value -/

theorem writes_parse {t : ValueType} {x : Scalar} {w : Bytes} (h : Writes t x w) :
    t.parse w = .ok x := by
  cases h with
  | @number t n _ hb hh hn hm =>
    have : parseInt t w = .ok n := by
      obtain ⟨bits, signed⟩ := t
      cases signed with
      | true => exact ((C85_signed_partial bits hb w).1 n).2 ⟨hn, hh⟩
      | false => exact ((C85_unsigned_partial bits hb w (hm rfl)).1 n).2 ⟨hn, hh⟩
    simp only [intType, this]
    rfl
  | text => rfl
  | yes => rfl
  | no => rfl

theorem writes_single {t : ValueType} {x : Scalar} {w : Bytes} (h : Writes t x w) :
    t.isList = false := by
  cases h <;> rfl

theorem writes_gives {c : Node} {sh : Shape} {x : Scalar} {w : Bytes} (hs : Standard c sh)
    (ht : TakesValues c = true) (hw : Writes c.vt x w) (hj : Judged c (.one x) (.ok ())) :
    Gives ⟨c, [⟨.none, w⟩]⟩ (.ok (.one x)) := by
  refine .value ht (.one (writes_single hw) rfl ?_) hj
  have := Parses.standard (n := c) (s := w) hs.parser
  rw [writes_parse hw] at this
  exact this

theorem writes_list {c : Node} {sh : Shape} {t : ValueType} {xs : List Scalar} {ws : List Bytes}
    (hs : Standard c sh) (ht : TakesValues c = true) (hvt : c.vt = listOf t)
    (hw : Zip (Writes t) xs ws) (hj : Judged c (.many xs) (.ok ())) :
    Gives ⟨c, ws.map (Token.mk .none)⟩ (.ok (.many xs)) := by
  refine .value ht (.list (by show c.vt.isList = true; rw [hvt]; rfl) ?_) hj
  show OneByOne _ (ws.map (Token.mk .none)) _
  clear hj
  induction hw with
  | nil => exact .nothing
  | @cons x w xs ws h _ ih =>
    refine .next ?_ ih
    have := Parses.standard (n := c) (s := w) hs.parser
    rw [hvt, show (listOf t).parse w = t.parse w from rfl, writes_parse h] at this
    exact this

/-! ## The uses of one child -/

/-- What the words for one child are. -/
structure Block (cfg : Config) (mode : Node) (k : Nat) (c : Node) (v : Value) (ws : List Bytes)
    (qs : List TypedArg) : Prop where
  typed : typed qs = ws
  argument : ∀ q ∈ qs, q.argument = (k, c)
  fits : ∀ q ∈ qs, q.Fits cfg mode
  once : qs.Pairwise fun _ _ => ¬ OnceOnly c
  plain : ∀ q ∈ qs, q.shape.needs = none ∧ q.shape.aliasOf = none
  parse : qs ≠ [] → c.hasParse = true
  gives : ∀ q ∈ qs, ∃ v, Gives q.use (.ok v)
  value : HasValue qs (c, k) v

theorem filter_all {qs : List TypedArg} {k : Nat} {c : Node} (h : ∀ q ∈ qs, q.argument = (k, c)) :
    qs.filter (fun p => p.argument.1 == k) = qs := by
  rw [List.filter_eq_self]
  intro q hq
  simp [h q hq]

theorem argumentsFrom_one {c : Node} (h : c.kind ≠ .mode ∧ c.kind ≠ .aliasGroup ∧ c.kind ≠ .oneOf)
    (i : Nat) (cs : List Node) : argumentsFrom i (c :: cs) = (i, c) :: argumentsFrom (i + 1) cs := by
  rw [argumentsFrom, if_neg (by simpa using h.1), members_leaf h]
  rfl

theorem arguments_split {before cs : List Node} {c : Node} (hm : mode.children = before ++ c :: cs)
    (hb : ∀ d ∈ before, d.kind ≠ .mode ∧ d.kind ≠ .aliasGroup ∧ d.kind ≠ .oneOf)
    (hc : c.kind ≠ .mode ∧ c.kind ≠ .aliasGroup ∧ c.kind ≠ .oneOf) :
    ∃ as bs, arguments mode = as ++ (before.length, c) :: bs ∧ ∀ x ∈ as, x.2 ∈ before := by
  refine ⟨argumentsFrom 0 before, argumentsFrom (before.length + 1) cs, ?_, ?_⟩
  · rw [arguments, hm, argumentsFrom_append, Nat.zero_add, argumentsFrom_one hc]
  · generalize 0 = i
    clear hm
    induction before generalizing i with
    | nil => exact fun x hx => nomatch hx
    | cons d ds ih =>
      rw [argumentsFrom_one (hb d List.mem_cons_self)]
      intro x hx
      rcases List.mem_cons.1 hx with hx | hx
      · subst hx
        exact List.mem_cons_self
      · exact List.mem_cons_of_mem _ (ih (fun d hd => hb d (List.mem_cons_of_mem _ hd)) _ x hx)

theorem fits_word {before cs : List Node} {c : Node} {sh : Shape} {l : Bytes} {more : List Bytes}
    (hm : mode.children = before ++ c :: cs)
    (hb : ∀ d ∈ before, d.kind ≠ .mode ∧ d.kind ≠ .aliasGroup ∧ d.kind ≠ .oneOf)
    (hs : Standard c sh) (hn : c.isNamed = true) (hl : Spelled cfg c l) (hu : Unclaimed cfg before l)
    (h1 : TakesWords sh more.length) :
    TypedArg.Fits cfg mode ⟨(before.length, c), sh, l, more, more.map (Token.mk .none)⟩ := by
  obtain ⟨as, bs, h, h'⟩ := arguments_split hm hb hs.declared.leaf
  exact C114_label hs.declared hn h1.1 h1.2.1 h1.2.2.1 h1.2.2.2 hl
    ⟨as, bs, h, fun x hx => hu _ (h' x hx)⟩

theorem not_repeatable {c : Node} (h : OnceOnly c) (hs : c.children = []) : ¬ Repeatable c := by
  rintro (h1 | ⟨d, hd, -⟩)
  · exact h1 h
  · rw [hs] at hd
    cases hd

theorem once_value {c : Node} {k : Nat} {q : TypedArg} {v : Value} (hq : q.argument = (k, c))
    (ho : OnceOnly c) (hs : c.children = []) (hg : Gives q.use (.ok v)) : HasValue [q] (c, k) v := by
  refine .typed ?_ (.other (not_repeatable ho hs))
  rw [filter_all (c := c) (by simpa using hq)]
  exact .once (by rw [hq]; exact ho) hg .nothing

theorem counted_adds {c : Node} {k : Nat} {q : TypedArg} {width : Nat} (hq : q.argument = (k, c))
    (hk : c.kind = .countingFlag)
    (hmerge : ∀ old v, Merges c old v (countingMerge width old v)) (m n : Nat) (h : m + n < 2 ^ width)
    (hm : 0 < m) :
    Adds (List.replicate n q) (some (.one (.int m))) (some (.one (.int (m + n : Nat)))) := by
  induction n generalizing m with
  | zero => exact .nothing
  | succ n ih =>
    rw [List.replicate_succ]
    refine .more (r' := some (.one (.int (m + 1 : Nat)))) (.flag (.inr (by
      show q.argument.2.kind = _; rw [hq]; exact hk))) ?_ ?_
    · rw [hq]
      have := hmerge (some (.one (.int m))) (.one (.bool true))
      have he : countingMerge width (some (.one (.int m))) (.one (.bool true)) =
          some (.one (.int (m + 1 : Nat))) := by
        simp only [countingMerge]
        congr 3
        rw [Int.emod_eq_of_lt (by omega) (by
          have : ((m + 1 : Nat) : Int) < ((2 ^ width : Nat) : Int) := by omega
          simpa using this)]
        rfl
      rw [he] at this
      exact this
    · have := ih (m + 1) (by omega) (by omega)
      rw [show m + 1 + n = m + (n + 1) by omega] at this
      exact this

/-- A label of an argument, its values, and the end marker of the argument. -/
theorem fits_marked {c : Node} {i : Nat} {sh : Shape} {word m : Bytes} {ws : List Bytes}
    (hd : Declared c sh) (hn : c.isNamed = true) (hs : sh.separator = none) (hm : sh.marker = some m)
    (hmin : sh.min ≤ ws.length) (hmax : ws.length ≤ sh.max) (hw : m ∉ ws) (hl : Spelled cfg c word)
    (hf : ∃ before after, arguments mode = before ++ (i, c) :: after ∧
      ∀ x ∈ before, x.2.isNamed = true ∧ ¬ Mentions cfg x.2 ⟨.none, word⟩) :
    TypedArg.Fits cfg mode ⟨(i, c), sh, word, ws ++ [m], ws.map (Token.mk .none)⟩ := by
  refine ⟨hd, hn, fun rest => ⟨_, .label hs hl, ?_⟩, hf⟩
  have h1 : ∀ rest, beforeMarker m (ws.map (Token.mk .none) ++ ⟨.none, m⟩ :: rest) =
      ws.map (Token.mk .none) ∧
      afterMarker m (ws.map (Token.mk .none) ++ ⟨.none, m⟩ :: rest) = rest := by
    intro rest
    have h2 : ∀ t ∈ ws.map (Token.mk .none), (t.name != m) = true := by
      intro t ht
      obtain ⟨x, hx, rfl⟩ := List.mem_map.1 ht
      simp only [bne_iff_ne]
      rintro rfl
      exact hw hx
    simp only [beforeMarker, afterMarker]
    rw [List.takeWhile_append_of_pos h2, List.dropWhile_append_of_pos h2]
    simp
  simp only [List.map_append, List.map_cons, List.map_nil, List.append_assoc, List.singleton_append,
    Shape.values, hm, h1, List.length_map]
  rw [if_neg (by omega), if_neg (by omega)]

/-- One use is the block of an argument that can be given once. -/
theorem one_block {k : Nat} {c : Node} {sh : Shape} {word : Bytes} {more : List Bytes}
    {values : List Token} {v : Value}
    (hs : Standard c sh) (ht : TakesValues c = true) (ho : OnceOnly c)
    (hf : TypedArg.Fits cfg mode ⟨(k, c), sh, word, more, values⟩) (hg : Gives ⟨c, values⟩ (.ok v)) :
    Block cfg mode k c v (word :: more) [⟨(k, c), sh, word, more, values⟩] := by
  refine ⟨by simp [typed, TypedArg.words], by simp, ?_, List.pairwise_singleton _ _, ?_, fun _ => ?_, ?_,
    once_value rfl ho hs.single hg⟩
  · simpa using hf
  · simp [hs.needs, hs.alias]
  · unfold TakesValues at ht
    unfold Node.hasParse
    split at ht <;> simp_all
  · simp only [List.mem_cons, List.not_mem_nil, or_false, forall_eq]
    exact ⟨_, hg⟩

theorem hands_block {before cs : List Node} {c : Node} {sh : Shape} {v : Value} {ws : List Bytes}
    (hm : mode.children = before ++ c :: cs)
    (hb : ∀ d ∈ before, d.kind ≠ .mode ∧ d.kind ≠ .aliasGroup ∧ d.kind ≠ .oneOf)
    (hs : Standard c sh) (hn : c.isNamed = true) (h : Hands cfg before c sh v ws) :
    ∃ qs, Block cfg mode before.length c v ws qs := by
  cases h with
  | default h1 h2 =>
    exact ⟨[], rfl, by simp, by simp, .nil, by simp, by simp, by simp, .default .nothing h1 h2⟩
  | @flag l h1 h2 h3 h5 h6 =>
    have hg : Gives ⟨c, []⟩ (.ok (.one (.bool true))) := .flag (.inl h1)
    refine ⟨[⟨(before.length, c), sh, l, [], []⟩], rfl, by simp, ?_, List.pairwise_singleton _ _, ?_,
      fun _ => ?_, ?_, once_value rfl h2 hs.single hg⟩
    · simp only [List.mem_cons, List.not_mem_nil, or_false, forall_eq]
      exact fits_word (more := []) hm hb hs hn h5 h6 h3
    · simp [hs.needs, hs.alias]
    · simp [Node.hasParse, h1]
    · simp only [List.mem_cons, List.not_mem_nil, or_false, forall_eq]
      exact ⟨_, hg⟩
  | @counted l width n h1 h2 h3 h5 h6 h7 h8 h9 =>
    have hg : Gives ⟨c, []⟩ (.ok (.one (.bool true))) := .flag (.inr h1)
    have hr : ¬ OnceOnly c := by
      intro ho
      obtain ⟨_, _, f, hp, _⟩ := h2 none (.one (.bool true))
      exact ho f (by rw [hp]; simp)
    refine ⟨List.replicate n ⟨(before.length, c), sh, l, [], []⟩, ?_, ?_, ?_, ?_, ?_, fun _ => ?_, ?_, ?_⟩
    · clear h7 h8 h9
      induction n with
      | zero => rfl
      | succ n ih =>
        rw [List.replicate_succ, List.replicate_succ, ← ih]
        rfl
    · intro q hq
      rw [List.eq_of_mem_replicate hq]
    · intro q hq
      rw [List.eq_of_mem_replicate hq]
      exact fits_word (more := []) hm hb hs hn h5 h6 h3
    · exact List.pairwise_replicate.2 (.inr hr)
    · intro q hq
      rw [List.eq_of_mem_replicate hq]
      exact ⟨hs.needs, hs.alias⟩
    · simp [Node.hasParse, h1]
    · intro q hq
      rw [List.eq_of_mem_replicate hq]
      exact ⟨_, hg⟩
    · refine .typed ?_ (.merged (.inl hr) h9)
      rw [filter_all (c := c) (fun q hq => by rw [List.eq_of_mem_replicate hq])]
      obtain ⟨m, rfl⟩ : ∃ m, n = m + 1 := ⟨n - 1, by omega⟩
      rw [List.replicate_succ]
      refine .more (r' := some (.one (.int (1 : Nat)))) hg ?_ ?_
      · have := h2 none (.one (.bool true))
        have he : countingMerge width none (.one (.bool true)) = some (.one (.int (1 : Nat))) := by
          simp only [countingMerge]
          congr 3
          rw [Int.emod_eq_of_lt (by omega) (by
            have : ((1 : Nat) : Int) < ((2 ^ width : Nat) : Int) := by omega
            simpa using this)]
          rfl
        rw [he] at this
        exact this
      · have := counted_adds (q := ⟨(before.length, c), sh, l, [], []⟩) rfl h1 h2 1 m (by omega)
          (by omega)
        rw [show 1 + m = m + 1 by omega] at this
        exact this
  | @value l w x h1 h2 h3 h5 h6 h7 h8 =>
    exact ⟨_, one_block hs h1 h2 (fits_word (more := [w]) hm hb hs hn h5 h6 h3) (writes_gives hs h1 h7 h8)⟩
  | @joined l w ch x h1 h2 h3 h4 h5 h6 h7 h8 h9 h10 =>
    obtain ⟨as, bs, h, h'⟩ := arguments_split hm hb hs.declared.leaf
    exact ⟨_, one_block hs h1 h2 (C114_separator hs.declared h3 h4 h6 h7 h5
      ⟨as, bs, h, fun x hx => h8 _ (h' x hx)⟩) (writes_gives hs h1 h9 h10)⟩
  | @several l ws t xs h1 h2 h3 h4 h5 h6 h7 h8 =>
    exact ⟨_, one_block hs h1 h2 (fits_word hm hb hs hn h4 h5 h3) (writes_list hs h1 h6 h7 h8)⟩
  | @marked l m ws t xs h1 h2 h3 h4 h5 h6 h7 h8 h9 h10 h11 h12 =>
    obtain ⟨as, bs, h, h'⟩ := arguments_split hm hb hs.declared.leaf
    exact ⟨_, one_block hs h1 h2 (fits_marked hs.declared hn h3 h4 h5 h6 h7 h8
      ⟨as, bs, h, fun x hx => h9 _ (h' x hx)⟩) (writes_list hs h1 h10 h11 h12)⟩

/-! ## All of them -/

/-- What the words for the children from number `k` on are. -/
structure Blocks (cfg : Config) (mode : Node) (k : Nat) (cs : List Node) (vs : List Value)
    (ws : List Bytes) (ps : List TypedArg) : Prop where
  typed : typed ps = ws
  at_ : ∀ p ∈ ps, k ≤ p.argument.1 ∧ cs[p.argument.1 - k]? = some p.argument.2
  fits : ∀ before p after, ps = before ++ p :: after →
    p.Fits cfg mode ∨ after = [] ∧ p.AtTheEnd cfg mode
  once : ps.Pairwise fun p q => p.argument.1 = q.argument.1 →
    p.argument = q.argument ∧ ¬ OnceOnly q.argument.2
  plain : ∀ p ∈ ps, p.shape.needs = none ∧ p.shape.aliasOf = none ∧ p.argument.2.hasParse = true
  gives : ∀ p ∈ ps, ∃ v, Gives p.use (.ok v)
  standard : ∀ c ∈ cs, ∃ sh, Standard c sh
  value : ∀ ps0 : List TypedArg, (∀ p ∈ ps0, p.argument.1 < k) →
    Zip (HasValue (ps0 ++ ps)) (cs.zipIdx k) vs

theorem filter_none {ps : List TypedArg} {k : Nat} (h : ∀ p ∈ ps, p.argument.1 ≠ k) :
    ps.filter (fun p => p.argument.1 == k) = [] := by
  rw [List.filter_eq_nil_iff]
  intro p hp
  simpa using h p hp

theorem hands_all {before cs : List Node} {vs : List Value} {ws : List Bytes}
    (h : HandsAll cfg before cs vs ws) (hm : mode.children = before ++ cs)
    (hb : ∀ d ∈ before, d.kind ≠ .mode ∧ d.kind ≠ .aliasGroup ∧ d.kind ≠ .oneOf) :
    ∃ ps, Blocks cfg mode before.length cs vs ws ps := by
  induction h with
  | done =>
    exact ⟨[], rfl, by simp, by simp, .nil, by simp, by simp, by simp, fun _ _ => .nil⟩
  | @next before cs c sh v vs ws more hs hn hh _ ih =>
    obtain ⟨qs, hq⟩ := hands_block hm hb hs hn hh
    obtain ⟨ps, hp⟩ := ih (by rw [hm]; simp) (by
      intro d hd
      rcases List.mem_append.1 hd with hd | hd
      · exact hb d hd
      · simp only [List.mem_cons, List.not_mem_nil, or_false] at hd
        subst hd
        exact hs.declared.leaf)
    rw [List.length_append, List.length_singleton] at hp
    refine ⟨qs ++ ps, ?_, ?_, ?_, ?_, ?_, ?_, ?_, ?_⟩
    · rw [typed_append, hq.typed, hp.typed]
    · intro p hp'
      rcases List.mem_append.1 hp' with hp' | hp'
      · rw [hq.argument p hp']
        simp
      · obtain ⟨h1, h2⟩ := hp.at_ p hp'
        refine ⟨by omega, ?_⟩
        rw [show p.argument.1 - before.length = p.argument.1 - (before.length + 1) + 1 by omega]
        exact h2
    · intro xs p ys he
      rcases List.append_eq_append_iff.1 he with ⟨zs, h1, h2⟩ | ⟨zs, h1, h2⟩
      · exact hp.fits _ _ _ h2
      · cases zs with
        | nil => exact hp.fits [] _ _ h2.symm
        | cons z zs =>
          injection h2 with h2 h3
          subst h2
          exact .inl (hq.fits _ (by rw [h1]; simp))
    · refine List.pairwise_append.2 ⟨?_, hp.once, ?_⟩
      · refine List.Pairwise.imp_of_mem (fun {x y} hx hy h _ => ?_) hq.once
        rw [hq.argument x hx, hq.argument y hy]
        exact ⟨rfl, h⟩
      · intro x hx y hy he
        have := (hp.at_ y hy).1
        rw [hq.argument x hx] at he
        simp only at he
        omega
    · intro p hp'
      rcases List.mem_append.1 hp' with hp' | hp'
      · refine ⟨(hq.plain p hp').1, (hq.plain p hp').2, ?_⟩
        rw [hq.argument p hp']
        exact hq.parse (List.ne_nil_of_mem hp')
      · exact hp.plain p hp'
    · intro p hp'
      rcases List.mem_append.1 hp' with hp' | hp'
      · exact hq.gives p hp'
      · exact hp.gives p hp'
    · intro d hd
      rcases List.mem_cons.1 hd with rfl | hd
      · exact ⟨_, hs⟩
      · exact hp.standard d hd
    · intro ps0 h0
      rw [List.zipIdx_cons]
      refine .cons ?_ ?_
      · refine hasValue_same ?_ hq.value
        simp only [List.filter_append]
        rw [filter_none (ps := ps0) (fun p hp' => by have := h0 p hp'; omega),
          filter_none (ps := ps) (fun p hp' => by have := (hp.at_ p hp').1; omega)]
        simp
      · rw [← List.append_assoc]
        refine hp.value (ps0 ++ qs) (fun p hp' => ?_)
        rcases List.mem_append.1 hp' with hp' | hp'
        · have := h0 p hp'
          omega
        · rw [hq.argument p hp']
          simp
  | @last before c sh t xs w ws hs hn ht ho hmk hvt h1 h2 hu hw hj =>
    have hg := writes_list hs ht hvt hw hj
    refine ⟨[⟨(before.length, c), sh, w, ws, (w :: ws).map (Token.mk .none)⟩], ?_, by simp, ?_,
      List.pairwise_singleton _ _, ?_, ?_, ?_, ?_⟩
    · simp [typed, TypedArg.words]
    · intro xs' p ys he
      cases xs' with
      | cons x xs' => simp at he
      | nil =>
        simp only [List.nil_append, List.cons.injEq] at he
        obtain ⟨rfl, rfl⟩ := he
        obtain ⟨as, bs, h3, h4⟩ := arguments_split hm hb hs.declared.leaf
        exact .inr ⟨rfl, hs.declared, hn, hmk, ⟨h1, h2⟩, rfl, as, bs, h3,
          fun x hx => hu _ (h4 x hx)⟩
    · simp only [List.mem_cons, List.not_mem_nil, or_false, forall_eq]
      refine ⟨hs.needs, hs.alias, ?_⟩
      unfold TakesValues at ht
      unfold Node.hasParse
      split at ht <;> simp_all
    · simp only [List.mem_cons, List.not_mem_nil, or_false, forall_eq]
      exact ⟨_, hg⟩
    · intro d hd
      simp only [List.mem_cons, List.not_mem_nil, or_false] at hd
      subst hd
      exact ⟨_, hs⟩
    · intro ps0 h0
      refine .cons ?_ .nil
      refine hasValue_same ?_ (once_value (q := ⟨(before.length, c), sh, w, ws,
        (w :: ws).map (Token.mk .none)⟩) rfl ho hs.single hg)
      simp only [List.filter_append]
      rw [filter_none (ps := ps0) (fun p hp' => by have := h0 p hp'; omega)]
      simp
  | @lastDefault before c sh v hs h1 h2 =>
    refine ⟨[], rfl, by simp, by simp, .nil, by simp, by simp, ?_, ?_⟩
    · intro d hd
      simp only [List.mem_cons, List.not_mem_nil, or_false] at hd
      subst hd
      exact ⟨_, hs⟩
    · intro ps0 h0
      refine .cons ?_ .nil
      refine .default ?_ h1 h2
      simp only [List.append_nil]
      rw [filter_none (ps := ps0) (fun p hp' => by have := h0 p hp'; omega)]
      exact .nothing

theorem blocks_proper {vs : List Value} {ws : List Bytes} {ps : List TypedArg} {chosen : Choices}
    (h : Blocks cfg mode 0 mode.children vs ws ps)
    (hh : mode.children.Pairwise fun c d => c.hash ≠ d.hash) : Proper cfg mode chosen ps where
  typed := h.fits
  once := h.once
  needs := by
    intro before p after he refs hr
    rw [(h.plain p (by rw [he]; simp)).1] at hr
    cases hr
  alternatives := by
    rintro p hp o ⟨h1, -⟩
    have h2 := (h.at_ p hp).2
    rw [Nat.sub_zero] at h2
    obtain ⟨sh, hs⟩ := h.standard _ (List.mem_of_getElem? h2)
    rw [oneOfAt, h2] at h1
    simp only [Option.filter_some, beq_iff_eq, Option.ite_none_right_eq_some] at h1
    exact hs.declared.leaf.2.2 h1.1
  own := by
    intro p hp
    have h2 := (h.at_ p hp).2
    rw [Nat.sub_zero] at h2
    obtain ⟨sh, hs⟩ := h.standard _ (List.mem_of_getElem? h2)
    obtain ⟨h3, h4, h5⟩ := h.plain p hp
    refine ⟨h4, ⟨⟨_, h2, ?_⟩, ?_⟩, ?_⟩
    · exact ⟨_, by rw [nodes_single hs.single]; exact List.mem_cons_self, hs.declared.leaf.1, h5, rfl⟩
    · rintro j c hj hc ⟨n, hn, -, -, hn'⟩
      obtain ⟨sh', hs'⟩ := h.standard _ (List.mem_of_getElem? hc)
      rw [nodes_single hs'.single] at hn
      simp only [List.mem_cons, List.not_mem_nil, or_false] at hn
      subst hn
      obtain ⟨hj1, hj2⟩ := List.getElem?_eq_some_iff.1 hc
      obtain ⟨hi1, hi2⟩ := List.getElem?_eq_some_iff.1 h2
      have := List.pairwise_iff_getElem.1 hh j p.argument.1 hj1 hi1 hj
      rw [hj2, hi2] at this
      exact this hn'
    · intro c hc
      rw [h2] at hc
      cases hc
      refine ⟨[], [], by rw [nodes_single hs.single]; rfl, ⟨hs.declared.leaf.1, h5, rfl⟩, by simp⟩

section

variable (hc : compiles cfg depth defaultRules root = true) (hu : Conventional root)
  (hobj : (root.nodes.map Node.uid).Nodup)
include hc hu hobj

/-- C126: if values are written on a command line for the arguments of a mode, the router of the mode is
called with exactly these values. -/
theorem C126_arrive {vals : List Value} {ws : List Bytes} (s : St)
    (hl : LedTo cfg root mode names ws) (hw : HandsAll cfg [] mode.children vals ws)
    (htypes : mode.children.Pairwise fun c d => c.hash ≠ d.hash) (hrouter : .router ∈ mode.policies)
    (htext : ∀ x ∈ names ++ ws, Readable cfg ⟨.none, x⟩)
    (hlen : ((names ++ ws).map List.length).sum + (names ++ ws).length < 2 ^ 63) :
    (parseArgs cfg root (names ++ ws) s).1 = .ok () ∧
    (parseArgs cfg root (names ++ ws) s).2.calls = s.calls ++ [⟨mode.uid, vals⟩] := by
  obtain ⟨ps, hp⟩ := hands_all hw rfl (by simp)
  have ht := hp.typed
  subst ht
  refine (C123_accepted hc hu hobj s hl (blocks_proper hp htypes) hrouter htext hlen vals).2
    ⟨hp.gives, ?_⟩
  have hv : valued mode.children = mode.children.zipIdx := by
    rw [valued, List.filter_eq_self]
    rintro ⟨c, i⟩ hx
    obtain ⟨sh, hs⟩ := hp.standard c (List.fst_mem_of_mem_zipIdx hx)
    simp [hs.value]
  rw [hv]
  exact hp.value [] (by simp)

end

/-- The value of every number a type can hold can be written. -/
theorem C126_numbers {t : IntType} {n : Int} (hb : 8 < t.bits) (hn : IntType.Holds t n) :
    ∃ w, Writes (intType t) (.int n) w := by
  have hd : ∀ m : Nat, ∃ w, Digits w m := by
    intro m
    induction m using Nat.strongRecOn with
    | ind m ih =>
      have hc : ∀ d : Nat, d < 10 → 48 ≤ (UInt8.ofNat (48 + d)).toNat ∧
          (UInt8.ofNat (48 + d)).toNat ≤ 57 ∧ (UInt8.ofNat (48 + d)).toNat - 48 = d := by
        intro d hd
        rw [UInt8.toNat_ofNat', Nat.mod_eq_of_lt (by omega)]
        omega
      by_cases h : m < 10
      · obtain ⟨h1, h2, h3⟩ := hc m h
        have := Digits.one ⟨h1, h2⟩
        rw [h3] at this
        exact ⟨_, this⟩
      · obtain ⟨w, hw⟩ := ih (m / 10) (by omega)
        obtain ⟨h1, h2, h3⟩ := hc (m % 10) (by omega)
        have := Digits.more hw ⟨h1, h2⟩
        rw [h3, show 10 * (m / 10) + m % 10 = m by omega] at this
        exact ⟨_, this⟩
  obtain ⟨w, hw⟩ := hd n.natAbs
  by_cases h : 0 ≤ n
  · refine ⟨w, .number hb hn ?_ ?_⟩
    · have := Number.plain hw
      rwa [show ((n.natAbs : Nat) : Int) = n by omega] at this
    · rintro - r rfl
      obtain ⟨c, cs, h1, h2⟩ := decimal_cons hw
      have h3 : c = 45 := by
        rw [show b "-" = [45] by decide +kernel] at h1
        injection h1 with h1 _
        exact h1.symm
      subst h3
      revert h2
      decide
  · refine ⟨b "-" ++ w, .number hb hn ?_ (fun hs => ?_)⟩
    · have := Number.minus hw
      rwa [show -((n.natAbs : Nat) : Int) = n by omega] at this
    · simp only [IntType.Holds, hs] at hn
      simp at hn
      omega

/-- A long name is a label that nothing else claims, if the names differ. -/
theorem C126_label {before : List Node} {c : Node} {l : Bytes} (hl : c.longName = some l)
    (hb : ∀ d ∈ before, d.isNamed = true ∧ d.longName ≠ some l ∧ d.noneName = none ∧
      ∀ s, .valueSeparator s ∉ d.policies) :
    Spelled cfg c (cfg.longPrefix ++ l) ∧ Unclaimed cfg before (cfg.longPrefix ++ l) := by
  refine ⟨.inl ⟨l, hl, rfl⟩, fun d hd => ?_⟩
  obtain ⟨h1, h2, h3, h4⟩ := hb d hd
  refine ⟨h1, ?_⟩
  rintro (h | ⟨_, _, _, _, h, _⟩ | ⟨x, _, _, _, h, _⟩)
  · rcases h with ⟨l', h5, h6⟩ | ⟨l', _, _, h6⟩ | ⟨h5, _⟩
    · have : l = l' := List.append_cancel_left h6
      exact h2 (this ▸ h5)
    · exact h6 ⟨l, rfl⟩
    · rw [h3] at h5
      cases h5
  · exact h4 _ h
  · rcases h with ⟨h, _⟩ | ⟨_, _, h⟩
    · cases h
    · exact h ⟨l, rfl⟩

/-! ## Example -/

def handLevel : Node := mkArg 402 402 (intType ⟨32, true⟩) [.longName (b "level"), .required]
def handTitle : Node := mkArg 403 403 textType [.longName (b "title"), .required]
def handQuiet : Node := mkFlag .default 404 404 [.longName (b "quiet"), .shortName (b "q")]
def handVerbose : Node :=
  mkCountingFlag .default 405 405 8 [.longName (b "verbose"), .shortName (b "v")]
def handSizes : Node := mkPositional 406 406 (listOf (intType ⟨16, false⟩)) [.displayName (b "SIZES")]
def handFolds : Node := mkMultiArg 409 409 (listOf (intType ⟨64, true⟩))
  [.longName (b "folds"), .tokenEndMarker (b ";")]
def handDepth : Node := mkArg 410 410 (intType ⟨64, false⟩)
  [.longName (b "depth"), .valueSeparator (b "="), .required]
def handMode : Node := mkMode 407 407 [.router]
  [handLevel, handTitle, handQuiet, handVerbose, handFolds, handDepth, handSizes]
def handRoot : Node := mkRoot 408 408 [handMode]

theorem hand_standard {c : Node} (h1 : declaredTest c = true) (h2 : c.children = [])
    (h3 : c.hasNoResult = false) (h4 : c.policies.all (fun | .customParser _ => false | _ => true) = true)
    (h5 : (shapeOf c).aliasOf = none ∧ (shapeOf c).needs = none) : Standard c (shapeOf c) :=
  ⟨declared_of_test h1, h2, h3, fun f hf => by
    have := List.all_eq_true.1 h4 _ hf
    simp at this, h5.1, h5.2⟩

theorem judged_plain {c : Node} (v : Value)
    (h : c.policies.all (fun | .minMaxValue _ _ _ => false | .validation _ _ => false | _ => true) = true) :
    Judged c v (.ok ()) := by
  refine .fine (fun p hp => .indifferent ?_ ?_)
  · rintro lo hi less rfl
    have := List.all_eq_true.1 h _ hp
    simp at this
  · rintro tag f rfl
    have := List.all_eq_true.1 h _ hp
    simp at this

theorem bare_unmentioned {c : Node} {w : Bytes} (hs : ¬ Config.default.shortPrefix <+: w)
    (hn : c.noneName = none) : ¬ Mentions .default c ⟨.none, w⟩ := by
  have hl : ∀ l more : Bytes, w = l ++ more → ¬ IsLabel .default c ⟨.none, l⟩ := by
    rintro l more rfl (⟨l', _, h4⟩ | ⟨l', _, h4, _⟩ | ⟨h', _⟩)
    · exact hs ⟨b "-" ++ l' ++ more, by rw [show l = _ from h4]; rfl⟩
    · exact hs ⟨l' ++ more, by rw [show l = _ from h4]; exact (List.append_assoc ..).symm⟩
    · rw [hn] at h'; cases h'
  rintro (h' | ⟨l, ch, v, h', _, h3⟩ | ⟨x, g', gs, _, h', h3, h4⟩)
  · exact hl w [] (by simp) h'
  · exact hl l _ h' h3
  · rcases h' with ⟨h', _⟩ | ⟨_, h', _⟩
    · cases h'
    · exact hs ⟨x, by rw [show w = _ from h']⟩

/-- For all values of the arguments: the words
`--level n --title t --verbose … --folds f … ; --depth=d sizes…`. -/
theorem hand_words {n d : Int} {w t u : Bytes} {k : Nat} {xs fs : List Scalar} {y : Bytes}
    {ys zs : List Bytes}
    (hn : Writes (intType ⟨32, true⟩) (.int n) w) (hk : 0 < k) (hk' : k < 256)
    (hf : Zip (Writes (intType ⟨64, true⟩)) fs zs) (hz : 1 ≤ zs.length) (hz' : zs.length ≤ sizeMax)
    (hz'' : b ";" ∉ zs) (hd : Writes (intType ⟨64, false⟩) (.int d) u) (hu : u ≠ [])
    (hx : Zip (Writes (intType ⟨16, false⟩)) xs (y :: ys)) (hy : ¬ Config.default.shortPrefix <+: y)
    (hlen : (y :: ys).length ≤ sizeMax) :
    HandsAll .default [] handMode.children
      [.one (.int n), .one (.str t), .one (.bool false), .one (.int k), .many fs, .one (.int d), .many xs]
      ([b "--level", w] ++ ([b "--title", t] ++ ([] ++ (List.replicate k (b "--verbose") ++
        ((b "--folds" :: (zs ++ [b ";"])) ++ ([b "--depth" ++ 61 :: u] ++ (y :: ys))))))) := by
  have hm : ∀ l : Bytes, ∀ before : List Node, (∀ d ∈ before, d.isNamed = true ∧
      d.longName ≠ some l ∧ d.noneName = none ∧ d.policies.all (fun
        | .valueSeparator _ => false | _ => true) = true) → ∀ c : Node, c.longName = some l →
      Spelled .default c (b "--" ++ l) ∧ Unclaimed .default before (b "--" ++ l) := by
    intro l before h c hc
    refine C126_label (cfg := .default) hc (fun d hd => ?_)
    obtain ⟨h1, h2, h3, h4⟩ := h d hd
    refine ⟨h1, h2, h3, fun s hs => ?_⟩
    have := List.all_eq_true.1 h4 _ hs
    simp at this
  have once : ∀ c : Node, c.isMultiStage = false → OnceOnly c := fun c h => (onceOnly_iff c).2 h
  refine .next (sh := shapeOf handLevel) (hand_standard (by decide +kernel) rfl rfl rfl ⟨rfl, rfl⟩)
    rfl ?_ ?_
  · obtain ⟨h1, h2⟩ := hm (b "level") [] (by simp) handLevel rfl
    exact .value rfl (once _ rfl) ⟨rfl, rfl, rfl, rfl⟩ h1 h2 hn (judged_plain _ rfl)
  refine .next (sh := shapeOf handTitle) (hand_standard (by decide +kernel) rfl rfl rfl ⟨rfl, rfl⟩)
    rfl ?_ ?_
  · obtain ⟨h1, h2⟩ := hm (b "title") [handLevel] (by
      simp only [List.mem_cons, List.not_mem_nil, or_false, forall_eq]
      exact ⟨rfl, by decide +kernel, rfl, rfl⟩) handTitle rfl
    exact .value rfl (once _ rfl) ⟨rfl, rfl, rfl, rfl⟩ h1 h2 .text (judged_plain _ rfl)
  refine .next (sh := shapeOf handQuiet) (hand_standard (by decide +kernel) rfl rfl rfl ⟨rfl, rfl⟩)
    rfl ?_ ?_
  · refine .default ⟨?_, rfl⟩ (judged_plain _ rfl)
    rintro (h | ⟨_, h⟩) <;> simp [handQuiet, mkFlag, expanderIf, Node.policies] at h
  refine .next (sh := shapeOf handVerbose)
    (hand_standard (by decide +kernel) rfl rfl rfl ⟨rfl, rfl⟩) rfl ?_ ?_
  · obtain ⟨h1, h2⟩ := hm (b "verbose") [handLevel, handTitle, handQuiet] (by
      simp only [List.mem_cons, List.not_mem_nil, or_false, forall_eq_or_imp, forall_eq]
      exact ⟨⟨rfl, by decide +kernel, rfl, rfl⟩, ⟨rfl, by decide +kernel, rfl, rfl⟩,
        ⟨rfl, by decide +kernel, rfl, rfl⟩⟩) handVerbose rfl
    exact .counted (width := 8) rfl (fun old v => ⟨[], _, countingMerge 8, rfl, by simp, rfl⟩)
      ⟨rfl, rfl, rfl, rfl⟩ h1 h2 hk hk' (judged_plain _ rfl)
  refine .next (sh := shapeOf handFolds)
    (hand_standard (by decide +kernel) rfl rfl rfl ⟨rfl, rfl⟩) rfl ?_ ?_
  · obtain ⟨h1, h2⟩ := hm (b "folds") [handLevel, handTitle, handQuiet, handVerbose] (by
      simp only [List.mem_cons, List.not_mem_nil, or_false, forall_eq_or_imp, forall_eq]
      exact ⟨⟨rfl, by decide +kernel, rfl, rfl⟩, ⟨rfl, by decide +kernel, rfl, rfl⟩,
        ⟨rfl, by decide +kernel, rfl, rfl⟩, ⟨rfl, by decide +kernel, rfl, rfl⟩⟩) handFolds rfl
    exact .marked rfl (once _ rfl) rfl rfl hz hz' hz'' h1 h2 rfl hf (judged_plain _ rfl)
  refine .next (sh := shapeOf handDepth)
    (hand_standard (by decide +kernel) rfl rfl rfl ⟨rfl, rfl⟩) rfl ?_ ?_
  · have h1 : Spelled .default handDepth (b "--depth") := .inl ⟨b "depth", rfl, rfl⟩
    refine .joined rfl (once _ rfl) rfl rfl h1 (by decide +kernel) hu ?_ hd (judged_plain _ rfl)
    have hm' : ∀ d : Node, d.isNamed = true → d.noneName = none → (∀ x ∈ d.longName, (61 : UInt8) ∉ x) →
        d.policies.all (fun | .valueSeparator _ => false | _ => true) = true →
        d.isNamed = true ∧ ¬ Mentions .default d ⟨.none, b "--depth" ++ 61 :: u⟩ := by
      intro d h1 h2 h3 h4
      refine ⟨h1, ?_⟩
      rintro (h | ⟨_, _, _, _, h, _⟩ | ⟨x, _, _, _, h, _⟩)
      · rcases h with ⟨l', h5, h6⟩ | ⟨l', _, _, h6⟩ | ⟨h5, _⟩
        · refine h3 l' h5 ?_
          have : b "depth" ++ 61 :: u = l' := List.append_cancel_left (as := b "--") h6
          rw [← this]
          simp
        · exact h6 ⟨b "depth" ++ 61 :: u, rfl⟩
        · rw [h2] at h5
          cases h5
      · have := List.all_eq_true.1 h4 _ h
        simp at this
      · rcases h with ⟨h, _⟩ | ⟨_, _, h⟩
        · cases h
        · exact h ⟨b "depth" ++ 61 :: u, rfl⟩
    intro d hd
    have hd : d = handLevel ∨ d = handTitle ∨ d = handQuiet ∨ d = handVerbose ∨ d = handFolds := by
      simpa using hd
    rcases hd with rfl | rfl | rfl | rfl | rfl
    all_goals exact hm' _ rfl rfl (by decide +kernel) rfl
  refine .last (sh := shapeOf handSizes)
    (hand_standard (by decide +kernel) rfl rfl rfl ⟨rfl, rfl⟩) rfl rfl (once _ rfl) rfl rfl
    (Nat.zero_le _) hlen ?_ hx (judged_plain _ rfl)
  intro d hd
  have hd : d = handLevel ∨ d = handTitle ∨ d = handQuiet ∨ d = handVerbose ∨ d = handFolds ∨
    d = handDepth := by simpa using hd
  rcases hd with rfl | rfl | rfl | rfl | rfl | rfl
  all_goals exact ⟨rfl, bare_unmentioned hy rfl⟩

theorem writes_plain {t : IntType} {w : Bytes} {n : Nat} (hb : 8 < t.bits) (hh : IntType.Holds t n)
    (hd : Digits w n) : Writes (intType t) (.int n) w := by
  refine .number hb hh (.plain hd) ?_
  rintro - r rfl
  obtain ⟨c, cs, h1, h2⟩ := decimal_cons hd
  rw [show b "-" = [45] by decide +kernel] at h1
  injection h1 with h1 _
  subst h1
  revert h2
  decide

/-- The hypotheses of C126 are met, by
`--level -12 --title --level --verbose --verbose --folds 7 ; --depth=65535 7 65535`. -/
example : compiles .default 100 defaultRules handRoot = true ∧ Conventional handRoot ∧
    (handRoot.nodes.map Node.uid).Nodup ∧ .router ∈ handMode.policies ∧
    (∀ rest, LedTo .default handRoot handMode [] rest) ∧
    (handMode.children.Pairwise fun c d => c.hash ≠ d.hash) ∧
    HandsAll .default [] handMode.children
      [.one (.int (-12)), .one (.str (b "--level")), .one (.bool false), .one (.int 2), .many [.int 7],
        .one (.int 65535), .many [.int 7, .int 65535]]
      [b "--level", b "-12", b "--title", b "--level", b "--verbose", b "--verbose", b "--folds", b "7",
        b ";", b "--depth=65535", b "7", b "65535"] ∧
    parseArgs .default handRoot
      [b "--level", b "-12", b "--title", b "--level", b "--verbose", b "--verbose", b "--folds", b "7",
        b ";", b "--depth=65535", b "7", b "65535"]
      .fresh = (.ok (), ⟨[], [⟨407, [.one (.int (-12)), .one (.str (b "--level")), .one (.bool false),
        .one (.int 2), .many [.int 7], .one (.int 65535), .many [.int 7, .int 65535]]⟩]⟩) := by
  refine ⟨by decide +kernel, conventional_of_test (by decide +kernel), by decide,
    by simp [handMode, mkMode, modePolicies, Node.policies], ?_, by decide, ?_, by decide +kernel⟩
  · refine fun rest => ⟨⟨[], handMode, [], rfl, .unnamed rfl (by decide), fun d hd => nomatch hd⟩, ?_⟩
    intro t _ d hd hk
    have : ∀ d ∈ handMode.children, d.kind ≠ .mode := by decide
    exact absurd hk (this d hd)
  · have h1 : Digits (b "12") 12 := .more (.one (c := 49) (by decide)) (c := 50) (by decide)
    have h2 : Digits (b "7") 7 := .one (c := 55) (by decide)
    have h3 : Digits (b "65535") 65535 :=
      .more (.more (.more (.more (.one (c := 54) (by decide)) (c := 53) (by decide)) (c := 53) (by decide))
        (c := 51) (by decide)) (c := 53) (by decide)
    exact hand_words (w := b "-12") (k := 2) (u := b "65535")
      (.number (by decide) (by simp [IntType.Holds]) (.minus h1) (fun h => nomatch h))
      (by decide) (by decide)
      (.cons (writes_plain (by decide) (by simp [IntType.Holds]) h2) .nil) (by decide) (by decide)
      (by decide +kernel) (writes_plain (by decide) (by simp [IntType.Holds]) h3) (by decide)
      (.cons (writes_plain (by decide) (by simp [IntType.Holds]) h2)
        (.cons (writes_plain (by decide) (by simp [IntType.Holds]) h3) .nil))
      (by decide) (by decide)

end ArgRouter.Props
