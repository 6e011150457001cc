import Verif.Props.Separator
import Verif.Spec.Links

/-!
# C10 – token end markers
-/

namespace ArgRouter.Props

open Spec

theorem cut_some {m : Bytes} {l : List Token} {k : Nat}
    (h : l.findIdx? (fun t => t.name == m) = some k) :
    beforeMarker m l = l.take k ∧ afterMarker m l = l.drop (k + 1) := by
  induction l generalizing k with
  | nil => simp at h
  | cons t l ih =>
    rw [List.findIdx?_cons] at h
    by_cases ht : t.name = m
    · simp only [ht, beq_self_eq_true, if_true, Option.some.injEq] at h
      subst h
      simp [beforeMarker, afterMarker, ht]
    · have h1 : (t.name == m) = false := by simpa using ht
      simp only [h1, Bool.false_eq_true, if_false, Option.map_eq_some_iff] at h
      obtain ⟨j, hj, rfl⟩ := h
      obtain ⟨i1, i2⟩ := ih hj
      simp only [beforeMarker, afterMarker] at i1 i2 ⊢
      have h2 : (t.name != m) = true := by simpa using ht
      rw [List.takeWhile_cons_of_pos (by simpa using ht),
        List.dropWhile_cons_of_pos (by simpa using ht), i1, i2]
      simp

theorem cut_none {m : Bytes} {l : List Token} (h : l.findIdx? (fun t => t.name == m) = none) :
    beforeMarker m l = l ∧ afterMarker m l = [] := by
  rw [List.findIdx?_eq_none_iff] at h
  have h' : ∀ t ∈ l, (t.name != m) = true := by
    intro t ht; have := h t ht; simpa using this
  clear h
  induction l with
  | nil => exact ⟨rfl, rfl⟩
  | cons t l ih =>
    have ht := h' t List.mem_cons_self
    obtain ⟨i1, i2⟩ := ih (fun t ht => h' t (List.mem_cons_of_mem _ ht))
    simp only [beforeMarker, afterMarker] at i1 i2 ⊢
    rw [List.takeWhile_cons_of_pos (by exact ht), List.dropWhile_cons_of_pos (by exact ht), i1]
    exact ⟨rfl, i2⟩

theorem markerPhase {owner : Node} {m : Bytes} {pre rest : List Token}
    (hpre : pre.length = if owner.isNamed then 1 else 0) :
    tokenEndMarkerPhase owner m ⟨[], pre ++ rest⟩ =
      .ok (.ok .validNode, ⟨pre ++ beforeMarker m rest, afterMarker m rest⟩) := by
  have hb : Adapter.begin_.add (if owner.isNamed then 1 else 0) = at_ pre.length := by
    rw [hpre]; simp only [at_]; split <;> rfl
  have hb' : Adapter.begin_.add (if owner.isNamed then (1 : Int) else 0) = at_ pre.length := by
    rw [hpre]; simp only [at_]; split <;> rfl
  have hseq : tokenSeq ⟨[], pre ++ rest⟩ = pre ++ rest := rfl
  have hsz : Adapter.size ⟨[], pre ++ rest⟩ = pre.length + rest.length := by
    simp [Adapter.size]
  have hf := C03_find ⟨[], pre ++ rest⟩ (fun t => t.name == m) pre.length
    (by rw [hseq]; simp) (Adapter.size ⟨[], pre ++ rest⟩ + 1) (by omega)
  rw [hseq, List.drop_left] at hf
  simp only [tokenEndMarkerPhase, hb', hf]
  cases hk : rest.findIdx? (fun t => t.name == m) with
  | none =>
    obtain ⟨h1, h2⟩ := cut_none hk
    simp only [Out.ok_bind]
    have hend : Adapter.isEnd ⟨[], pre ++ rest⟩ (at_ (pre ++ rest).length) = true := by
      rw [isEnd_at, size_eq, hseq]; simp
    obtain ⟨t1, t2⟩ := C04_transfer_end _ _ hend
    have hA : Adapter.transfer ⟨[], pre ++ rest⟩ (at_ (pre ++ rest).length) =
        ⟨pre ++ rest, []⟩ := by
      cases hA : Adapter.transfer ⟨[], pre ++ rest⟩ (at_ (pre ++ rest).length)
      rw [hA] at t1 t2; simp only [hseq] at t1 t2; rw [t1, t2]
    have hend' : Adapter.isEnd ⟨pre ++ rest, []⟩ (at_ (pre ++ rest).length) = true := by
      rw [isEnd_at, size_eq]; simp [tokenSeq]
    rw [hA, C03_erase_end _ _ hend', h1, h2]
    rfl
  | some k =>
    obtain ⟨h1, h2⟩ := cut_some hk
    have hklt : k < rest.length := by
      have := List.findIdx?_eq_some_iff_findIdx_eq.1 hk
      exact this.1
    simp only [Out.ok_bind]
    obtain ⟨-, t2, t3⟩ := C04_transfer ⟨[], pre ++ rest⟩ (pre.length + k) (by rw [hsz]; omega)
    have hA : Adapter.transfer ⟨[], pre ++ rest⟩ (at_ (pre.length + k)) =
        ⟨pre ++ rest.take (k + 1), rest.drop (k + 1)⟩ := by
      cases hA : Adapter.transfer ⟨[], pre ++ rest⟩ (at_ (pre.length + k))
      rw [hA] at t2 t3
      simp only [hseq, List.length_nil, Nat.max_zero] at t2 t3
      rw [t2, t3, Nat.add_assoc, List.take_length_add_append, List.drop_length_add_append]
    rw [hA]
    have hlen : (pre ++ rest.take (k + 1)).length = pre.length + (k + 1) := by
      rw [List.length_append, List.length_take]; omega
    have he : Adapter.isEnd ⟨pre ++ rest.take (k + 1), rest.drop (k + 1)⟩
        (at_ (pre.length + k)) = false := by
      rw [isEnd_at]; simp only [Adapter.size, hlen, decide_eq_false_iff_not]; omega
    have hi : (at_ (pre.length + k)).i = ((pre.length + k : Nat) : Int) := by
      simp [at_, AIter.add, Adapter.begin_]
    simp only [Adapter.erase, he, Bool.false_eq_true, if_false, hi, hlen]
    rw [if_neg (by omega), if_pos (by omega)]
    simp only [Out.ok_bind, Out.pure_eq, Int.toNat_natCast, Out.ok.injEq, Prod.mk.injEq, true_and,
      Adapter.mk.injEq, h1, h2, and_true]
    rw [List.eraseIdx_append_of_length_le (by omega)]
    congr 1
    have : pre.length + k - pre.length = k := by omega
    rw [this, List.take_succ_eq_append_getElem hklt,
      List.eraseIdx_append_of_length_le (by rw [List.length_take]; omega)]
    have : k - (rest.take k).length = 0 := by rw [List.length_take]; omega
    rw [this]; simp

/-- The counting phase after the marker has been dealt with. -/
theorem countAfterMarker {owner : Node} {mn mx : Nat} {P U : List Token}
    (hm : owner.hasTokenEndMarker = true) (hmx : mx ≤ sizeMax) (hlen : P.length < 2 ^ 63)
    (hpos : P ≠ [] ∨ U = [] ∨ mx = sizeMax) :
    minMaxCountPhase owner mn mx ⟨P, U⟩ =
      if mx + (if owner.isNamed then 1 else 0) < P.length then
        (.error ⟨.maximum_count_exceeded, [owner.tokenType]⟩, ⟨P, U⟩)
      else if P.length < mn + (if owner.isNamed then 1 else 0) then
        (.error ⟨.minimum_count_not_reached, [owner.tokenType]⟩, ⟨P, U⟩)
      else (.ok .validNode, ⟨P, U⟩) := by
  have hsm : sizeMax = 18446744073709551615 := by decide
  unfold minMaxCountPhase
  simp only [hm, Bool.true_and, if_true, decide_eq_true_eq, gt_iff_lt]
  generalize hoff : (if owner.isNamed then 1 else 0) = off at *
  have hoff' : off ≤ 1 := by rw [← hoff]; split <;> omega
  have c1 : (P.length < if mn = sizeMax then mn else mn + off) ↔ P.length < mn + off := by
    split <;> omega
  have c2 : ((if mx = sizeMax then mx else mx + off) < P.length) ↔ mx + off < P.length := by
    split <;> omega
  simp only [c1, c2]
  split
  · rfl
  · split
    · rfl
    · rename_i h1 h2
      congr 1
      by_cases hP : P = []
      · subst hP
        rcases hpos with h | h | h
        · exact absurd rfl h
        · subst h
          have h1 := (C04_transfer_any ⟨[], []⟩ (Adapter.begin_.add (toDiff (min (sizePred
            (if mx = sizeMax then mx else mx + off)) (sizePred ([] : List Token).length))))).1
          simp only [tokenSeq, List.append_nil, List.append_eq_nil_iff] at h1
          cases hA : Adapter.transfer ⟨[], []⟩ (Adapter.begin_.add (toDiff (min (sizePred
            (if mx = sizeMax then mx else mx + off)) (sizePred ([] : List Token).length))))
          rw [hA] at h1
          simp_all
        · subst h
          have : toDiff (min (sizePred (if sizeMax = sizeMax then sizeMax else sizeMax + off))
              (sizePred ([] : List Token).length)) = -2 := by rfl
          rw [this]
          have he : Adapter.isEnd ⟨[], U⟩ (Adapter.begin_.add (-2)) = false := by
            have hneg : ¬ (Adapter.begin_.add (-2)).i ≥ ((Adapter.size ⟨[], U⟩ : Nat) : Int) := by
              have : (Adapter.begin_.add (-2)).i = -2 := rfl
              rw [this]; omega
            show (!true || decide _) = false
            rw [decide_eq_false hneg]; rfl
          simp only [Adapter.transfer, he, Bool.false_eq_true, if_false]
          rw [if_pos (by left; decide)]
      · have hl : 0 < P.length := List.length_pos_iff.2 hP
        have hsp : sizePred P.length = P.length - 1 := by simp [sizePred, hP]
        generalize hk : min (sizePred (if mx = sizeMax then mx else mx + off)) (sizePred P.length)
          = k
        have hkl : k ≤ P.length - 1 := by rw [← hk, hsp]; exact Nat.min_le_right _ _
        have hd : toDiff k = (k : Int) := by simp only [toDiff]; rw [if_pos (by omega)]
        rw [hd]
        obtain ⟨-, t2, t3⟩ := C04_transfer ⟨P, U⟩ k (by simp [Adapter.size]; omega)
        have hmax : max (k + 1) P.length = P.length := by omega
        simp only [tokenSeq, hmax, List.take_left, List.drop_left] at t2 t3
        show Adapter.transfer _ (at_ k) = _
        cases hA : Adapter.transfer ⟨P, U⟩ (at_ k)
        rw [hA] at t2 t3
        simp only at t2 t3
        rw [t2, t3]

theorem hasMarker {n : Node} {ps : List Policy} {m : Bytes} (h : MatchPolicies n ps)
    (hm : .tokenEndMarker m ∈ ps) : n.hasTokenEndMarker = true := by
  have : Policy.tokenEndMarker m ∈ n.policies.filter Policy.matters := h.mem_iff.2 hm
  simp only [Node.hasTokenEndMarker, List.any_eq_true]
  exact ⟨_, (List.mem_filter.1 this).1, rfl⟩

theorem leaf_marker {cfg : Config} {n : Node} {mk : Bytes} {mn mx : Nat} {parents : List Node}
    {args : List Token} {processed : Option Target} {validator : Validator}
    (hp : MatchPolicies n [.tokenEndMarker mk, .minMaxCount mn mx]) {a : Adapter}
    (h : tokenEndMarkerPhase n mk ⟨[], args⟩ = .ok (.ok .validNode, a)) :
    leafPreParse cfg n parents args processed validator =
      leafTail cfg n validator (minMaxCountPhase n mn mx a).1 (minMaxCountPhase n mn mx a).2 [] := by
  rw [leafPreParse_eq, hp.phases (by simp [Policy.priority])]
  have : sortPolicies [.tokenEndMarker mk, .minMaxCount mn mx] =
    [.tokenEndMarker mk, .minMaxCount mn mx] := rfl
  rw [this, runPhases_cons_valid _ _ _ _ _ _ _ _ rfl]
  simp only [Policy.phase, h]
  rfl

/-- C10 for named nodes: on `label rest...` the node takes exactly the tokens of `rest` before the
first marker; the marker disappears; everything after it is left. Too many or too few values are
errors. -/
theorem C10_named (cfg : Config) (n : Node) (mk : Bytes) (mn mx : Nat) (parents : List Node)
    (label : Token) (rest : List Token) (processed : Option Target) (validator : Validator)
    (hp : MatchPolicies n [.tokenEndMarker mk, .minMaxCount mn mx]) (hn : n.isNamed = true)
    (hmx : mx ≤ sizeMax) (hlen : rest.length + 1 < 2 ^ 63) (hl : IsLabel cfg n label) :
    leafPreParse cfg n parents (label :: rest) processed validator =
      guarded validator n (
        if mx < (beforeMarker mk rest).length then
          M.throw ⟨.maximum_count_exceeded, [n.tokenType]⟩
        else if (beforeMarker mk rest).length < mn then
          M.throw ⟨.minimum_count_not_reached, [n.tokenType]⟩
        else pure (some (⟨n, beforeMarker mk rest, []⟩, afterMarker mk rest))) := by
  have hph := markerPhase (owner := n) (m := mk) (pre := [label]) (rest := rest) (by simp [hn])
  rw [show label :: rest = [label] ++ rest from rfl, leaf_marker hp hph]
  have hbl : (beforeMarker mk rest).length ≤ rest.length :=
    (List.takeWhile_prefix _).length_le
  rw [countAfterMarker (hasMarker hp List.mem_cons_self) hmx (by simp; omega) (.inl (by simp))]
  have ht : labelTest cfg n label = true := (labelTest_iff _ _ _).2 hl
  have hcl : ∀ m : PreResult, m ≠ .ok .skipNode → m ≠ .ok .skipNodeButUseSubTargets →
      checkLabel cfg n m ⟨[label] ++ beforeMarker mk rest, afterMarker mk rest⟩ = some
        ⟨(if label.pre == .none then n.getToken cfg label.name else label) ::
          beforeMarker mk rest, afterMarker mk rest⟩ := by
    intro m h1 h2
    rw [checkLabel_named hn h1 h2]
    simp [tokenSeq, ht]
  simp only [hn, if_true, List.length_append, List.length_cons, List.length_nil]
  by_cases h1 : mx < (beforeMarker mk rest).length
  · rw [if_pos (by omega), if_pos h1]
    exact leafTail_error (hcl _ (by simp) (by simp))
  · rw [if_neg (by omega), if_neg h1]
    by_cases h2 : (beforeMarker mk rest).length < mn
    · rw [if_pos (by omega), if_pos h2]
      exact leafTail_error (hcl _ (by simp) (by simp))
    · rw [if_neg (by omega), if_neg h2, leafTail_some (hcl _ (by simp) (by simp))]
      simp [hn]

/-- C10 for nodes without a name. The hypothesis excludes the one failing case (see `C10_false`):
nothing precedes the marker, something follows it, and the maximum count is finite. -/
theorem C10_unnamed_partial (cfg : Config) (n : Node) (mk : Bytes) (mn mx : Nat)
    (parents : List Node) (args : List Token) (processed : Option Target) (validator : Validator)
    (hp : MatchPolicies n [.tokenEndMarker mk, .minMaxCount mn mx]) (hn : n.isNamed = false)
    (hmx : mx ≤ sizeMax) (hlen : args.length < 2 ^ 63)
    (hok : beforeMarker mk args ≠ [] ∨ afterMarker mk args = [] ∨ mx = sizeMax) :
    leafPreParse cfg n parents args processed validator =
      guarded validator n (
        if mx < (beforeMarker mk args).length then
          M.throw ⟨.maximum_count_exceeded, [n.tokenType]⟩
        else if (beforeMarker mk args).length < mn then
          M.throw ⟨.minimum_count_not_reached, [n.tokenType]⟩
        else pure (some (⟨n, beforeMarker mk args, []⟩, afterMarker mk args))) := by
  have hph := markerPhase (owner := n) (m := mk) (pre := []) (rest := args) (by simp [hn])
  simp only [List.nil_append] at hph
  rw [leaf_marker hp hph]
  have hbl : (beforeMarker mk args).length ≤ args.length :=
    (List.takeWhile_prefix _).length_le
  rw [countAfterMarker (hasMarker hp List.mem_cons_self) hmx (by omega) hok]
  simp only [hn, Bool.false_eq_true, if_false, Nat.add_zero]
  split
  · exact leafTail_error (checkLabel_unnamed hn (by simp))
  · split
    · exact leafTail_error (checkLabel_unnamed hn (by simp))
    · rw [leafTail_some (checkLabel_unnamed hn (by simp))]
      simp [hn]

/-- C10, what happens in the case that `C10_unnamed_partial` leaves out: nothing precedes the marker, something
follows it, and the maximum count is finite. The node takes as many of the tokens *after* the marker as it may,
unless it needs some (then it reports that it has none) or its maximum does not fit `std::ptrdiff_t` (then
it takes none). -/
theorem C10_unnamed_exact (cfg : Config) (n : Node) (mk : Bytes) (mn mx : Nat)
    (parents : List Node) (args : List Token) (processed : Option Target) (validator : Validator)
    (hp : MatchPolicies n [.tokenEndMarker mk, .minMaxCount mn mx]) (hn : n.isNamed = false)
    (hmx : mx < sizeMax) (hbefore : beforeMarker mk args = []) :
    leafPreParse cfg n parents args processed validator =
      guarded validator n (
        if 0 < mn then M.throw ⟨.minimum_count_not_reached, [n.tokenType]⟩
        else if mx ≤ 2 ^ 63 then
          pure (some (⟨n, (afterMarker mk args).take mx, []⟩, (afterMarker mk args).drop mx))
        else pure (some (⟨n, [], []⟩, afterMarker mk args))) := by
  have hsm : sizeMax = 18446744073709551615 := by decide
  have hph := markerPhase (owner := n) (m := mk) (pre := []) (rest := args) (by simp [hn])
  simp only [List.nil_append, hbefore] at hph
  rw [leaf_marker hp hph]
  generalize afterMarker mk args = U
  have hm := hasMarker hp List.mem_cons_self
  have h0 : minMaxCountPhase n mn mx ⟨[], U⟩ =
      if 0 < mn then (.error ⟨.minimum_count_not_reached, [n.tokenType]⟩, ⟨[], U⟩)
      else if mx ≤ 2 ^ 63 then (.ok .validNode, ⟨U.take mx, U.drop mx⟩)
      else (.ok .validNode, ⟨[], U⟩) := by
    unfold minMaxCountPhase
    simp only [hm, hn, Bool.true_and, if_true, decide_eq_true_eq, gt_iff_lt, List.length_nil,
      Bool.false_eq_true, if_false, Nat.add_zero, Nat.not_lt_zero, ite_self]
    by_cases h1 : 0 < mn
    · rw [if_pos h1, if_pos h1]
    · rw [if_neg h1, if_neg h1]
      have hmin : min (sizePred mx) (sizePred 0) = sizePred mx := by
        simp only [sizePred, if_true]; split <;> omega
      rw [hmin]
      have hneg : ∀ i : Int, i < 0 → Adapter.transfer ⟨[], U⟩ (Adapter.begin_.add i) = ⟨[], U⟩ := by
        intro i hi
        have hii : (Adapter.begin_.add i).i = i := by simp [AIter.add, Adapter.begin_]
        have he : Adapter.isEnd ⟨[], U⟩ (Adapter.begin_.add i) = false := by
          have hneg : ¬ (Adapter.begin_.add i).i ≥ ((Adapter.size ⟨[], U⟩ : Nat) : Int) := by
            rw [hii]; omega
          show (!true || decide _) = false
          rw [decide_eq_false hneg]; rfl
        simp only [Adapter.transfer, he, Bool.false_eq_true, if_false, hii]
        rw [if_pos (.inl hi)]
      by_cases h2 : mx ≤ 2 ^ 63
      · rw [if_pos h2]
        by_cases h3 : mx = 0
        · subst h3
          rw [hneg _ (by decide)]
          simp
        · have hd : toDiff (sizePred mx) = ((mx - 1 : Nat) : Int) := by
            simp only [toDiff, sizePred, if_neg h3]; rw [if_pos (by omega)]
          rw [hd]
          show (_, Adapter.transfer _ (at_ (mx - 1))) = _
          by_cases h4 : mx - 1 < U.length
          · obtain ⟨-, t2, t3⟩ := C04_transfer ⟨[], U⟩ (mx - 1) (by simp [Adapter.size]; omega)
            have hx : max (mx - 1 + 1) 0 = mx := by omega
            simp only [tokenSeq, List.nil_append, List.length_nil, hx] at t2 t3
            cases hA : Adapter.transfer ⟨[], U⟩ (at_ (mx - 1))
            rw [hA] at t2 t3
            simp only at t2 t3
            rw [t2, t3]
          · obtain ⟨t2, t3⟩ := C04_transfer_end ⟨[], U⟩ (at_ (mx - 1)) (by
              rw [isEnd_at]; simp [Adapter.size]; omega)
            simp only [tokenSeq, List.nil_append] at t2
            cases hA : Adapter.transfer ⟨[], U⟩ (at_ (mx - 1))
            rw [hA] at t2 t3
            simp only at t2 t3
            rw [t2, t3, List.take_of_length_le (by omega), List.drop_eq_nil_of_le (by omega)]
      · rw [if_neg h2, hneg]
        have hs : sizePred mx = mx - 1 := by simp only [sizePred]; rw [if_neg (by omega)]
        rw [hs]
        simp only [toDiff]
        rw [if_neg (by omega)]
        omega
  rw [h0]
  by_cases h1 : 0 < mn
  · simp only [if_pos h1]
    exact leafTail_error (checkLabel_unnamed hn (by simp))
  · simp only [if_neg h1]
    by_cases h2 : mx ≤ 2 ^ 63
    · simp only [if_pos h2]
      rw [leafTail_some (checkLabel_unnamed hn (by simp))]
      simp [hn]
    · simp only [if_neg h2]
      rw [leafTail_some (checkLabel_unnamed hn (by simp))]
      simp [hn]

/-- Files up to `--`, at most three of them. -/
def markerNode : Node := .mk .positional 0 0 ⟨true, .many [], fun s => .ok (.str s)⟩
  [.minMaxCount 0 3, .displayName (b "FILES"), .tokenEndMarker (b "--")] []

/-- C10 is false for a leading marker and a finite maximum: `-- x` gives `x`, which follows the
marker, to the list that the marker should have ended. -/
theorem C10_false :
    beforeMarker (b "--") [⟨.none, b "--"⟩, ⟨.none, b "x"⟩] = [] ∧
    taken (leafPreParse .default markerNode [] [⟨.none, b "--"⟩, ⟨.none, b "x"⟩] none alwaysTrue
      .fresh) = .ok (some ([⟨.none, b "x"⟩], [])) := by
  decide +kernel

example : MatchPolicies markerNode [.tokenEndMarker (b "--"), .minMaxCount 0 3] ∧
    beforeMarker (b "--") [⟨.none, b "a"⟩, ⟨.none, b "--"⟩, ⟨.none, b "x"⟩] ≠ [] ∧
    taken (leafPreParse .default markerNode []
      [⟨.none, b "a"⟩, ⟨.none, b "--"⟩, ⟨.none, b "x"⟩] none alwaysTrue
      .fresh) = .ok (some ([⟨.none, b "a"⟩], [⟨.none, b "x"⟩])) :=
  ⟨List.Perm.swap _ _ _, by decide +kernel, by decide +kernel⟩

/-- `C10_unnamed_exact` applies to four tokens after a leading marker: three of them are taken. -/
example : markerNode.isNamed = false ∧
    beforeMarker (b "--") ([⟨.none, b "--"⟩] ++ List.replicate 4 ⟨.none, b "x"⟩) = [] ∧
    taken (leafPreParse .default markerNode [] ([⟨.none, b "--"⟩] ++ List.replicate 4 ⟨.none, b "x"⟩) none
      alwaysTrue .fresh) = .ok (some (List.replicate 3 ⟨.none, b "x"⟩, [⟨.none, b "x"⟩])) := by
  decide +kernel

end ArgRouter.Props
