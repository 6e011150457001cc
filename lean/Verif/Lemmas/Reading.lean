import Verif.Spec.Reading
import Verif.Lemmas.Fixed
import Verif.Lemmas.Safe
import Verif.Props.EndMarker
import Verif.Props.Depend

/-!
# Lemmas for the reference reading: one argument and one command line
-/

namespace ArgRouter

open Spec Props Utf8

theorem _root_.ArgRouter.Spec.Declared.phases {c : Node} {sh : Shape} (h : Declared c sh) :
    c.phases = sh.policies := by
  obtain ⟨s, e, m, mn, mx, al, ne⟩ := sh
  rw [h.policies.phases]
  · cases s <;> cases e <;> cases m <;> cases al <;> cases ne <;> rfl
  · cases s <;> cases e <;> cases m <;> cases al <;> cases ne <;>
      simp [Shape.policies, Policy.priority]

theorem _root_.ArgRouter.Spec.Declared.noMarker {c : Node} {sh : Shape} (h : Declared c sh)
    (hm : sh.marker = none) : c.hasTokenEndMarker = false := by
  refine no_marker h.policies ?_
  obtain ⟨s, e, m, mn, mx, al, ne⟩ := sh
  simp only at hm
  subst hm
  cases s <;> cases e <;> cases al <;> cases ne <;> simp [Shape.policies]

theorem _root_.ArgRouter.Spec.Declared.hasMarker {c : Node} {sh : Shape} (h : Declared c sh)
    {m : Bytes} (hm : sh.marker = some m) : c.hasTokenEndMarker = true := by
  refine Props.hasMarker (m := m) h.policies ?_
  obtain ⟨s, e, m', mn, mx, al, ne⟩ := sh
  simp only at hm
  subst hm
  cases s <;> cases e <;> cases al <;> cases ne <;> simp [Shape.policies]

theorem _root_.ArgRouter.Spec.Declared.notGroup {c : Node} {sh : Shape} (h : Declared c sh) :
    c.isGroup = false := by
  simp only [Node.isGroup, Bool.or_eq_false_iff, beq_eq_false_iff_ne, ne_eq]
  exact ⟨h.leaf.2.1, h.leaf.2.2⟩

/-- The policies that run after the counting. -/
def Spec.Shape.tail (sh : Shape) : List Policy :=
  (sh.aliasOf.map Policy.alias).toList ++ (sh.needs.map Policy.dependent).toList

/-- The policies from the marker on. -/
def Spec.Shape.body (sh : Shape) : List Policy :=
  (sh.marker.map Policy.tokenEndMarker).toList ++ (Policy.minMaxCount sh.min sh.max :: sh.tail)

/-- The counting, with or without an end marker. `lab` is the label token, if the node has one. -/
theorem count_body {cfg : Config} {c : Node} {sh : Shape} (h : Declared c sh)
    {parents : List Node} {processed : Option Target} {lab U : List Token} {a : Adapter}
    (hlab : lab.length = if c.isNamed then 1 else 0) (ha : tokenSeq a = lab ++ U)
    (hp : a.processed.length ≤ sh.max + lab.length)
    (hmk : sh.marker.isSome → a.processed = []) (hlen : lab.length + U.length < 2 ^ 63) :
    ∃ a', (∃ V, tokenSeq a' = lab ++ V) ∧
      runPhases cfg c parents processed sh.body (.ok .validNode) a [] =
        match sh.values c U with
        | .error e => .ok (.error e, a', [])
        | .ok (vs, left) =>
          runPhases cfg c parents processed sh.tail (.ok .validNode) ⟨lab ++ vs, left⟩ [] := by
  have hsz : a.size = lab.length + U.length := by rw [size_eq, ha, List.length_append]
  cases hm : sh.marker with
  | none =>
    refine ⟨a, ⟨U, ha⟩, ?_⟩
    have hb : sh.body = Policy.minMaxCount sh.min sh.max :: sh.tail := by
      simp [Shape.body, hm]
    rw [hb, runPhases_cons_valid _ _ _ _ _ _ _ _ rfl]
    simp only [Policy.phase]
    have hpos : c.isNamed = true ∨ 0 < sh.max := by
      cases hn : c.isNamed
      · exact .inr (h.positional hn)
      · exact .inl rfl
    rw [minMaxCountPhase_eq (h.noMarker hm) h.sizes (by omega) hpos]
    simp only [Shape.values, hm, ← hlab, hsz]
    by_cases hc : U.length < sh.min
    · rw [if_pos (by omega), if_pos hc]
      simp only [Out.bind]
      exact runPhases_error _ _ _ _ _ _ _ _
    · rw [if_neg (by omega), if_neg hc]
      simp only [Out.bind]
      have hmax : max (min (sh.max + lab.length) (lab.length + U.length)) a.processed.length =
          lab.length + min sh.max U.length := by
        have : a.processed.length ≤ a.size := by simp [Adapter.size]
        omega
      rw [hmax, ha, List.take_length_add_append, List.drop_length_add_append]
      by_cases hx : sh.max ≤ U.length
      · rw [Nat.min_eq_left hx]
      · rw [Nat.min_eq_right (by omega), List.take_length, List.take_of_length_le (by omega),
          List.drop_length, List.drop_eq_nil_of_le (by omega)]
  | some mk =>
    have hap : a = ⟨[], lab ++ U⟩ := by
      obtain ⟨P, Q⟩ := a
      have : P = [] := hmk (by rw [hm]; rfl)
      subst this
      simp only [tokenSeq, List.nil_append] at ha
      rw [ha]
    subst hap
    refine ⟨⟨lab ++ beforeMarker mk U, afterMarker mk U⟩, ⟨beforeMarker mk U ++ afterMarker mk U,
      by simp [tokenSeq]⟩, ?_⟩
    have hb : sh.body = Policy.tokenEndMarker mk :: Policy.minMaxCount sh.min sh.max :: sh.tail := by
      simp [Shape.body, hm]
    rw [hb, runPhases_cons_valid _ _ _ _ _ _ _ _ rfl]
    simp only [Policy.phase]
    rw [markerPhase hlab]
    simp only [Out.ok_bind, Out.bind, Out.pure_eq]
    rw [runPhases_cons_valid _ _ _ _ _ _ _ _ rfl]
    simp only [Policy.phase]
    have hbl : (beforeMarker mk U).length ≤ U.length := (List.takeWhile_prefix _).length_le
    have hok : lab ++ beforeMarker mk U ≠ [] ∨ afterMarker mk U = [] ∨ sh.max = sizeMax := by
      cases hn : c.isNamed
      · exact .inr (.inr ((h.marked (by rw [hm]; rfl)).2.2 hn))
      · left
        rw [hn] at hlab
        intro h0
        rw [List.append_eq_nil_iff] at h0
        rw [h0.1] at hlab
        simp at hlab
    rw [countAfterMarker (h.hasMarker hm) h.sizes
      (by rw [List.length_append]; omega) hok]
    simp only [Shape.values, hm, ← hlab, List.length_append]
    by_cases h1 : sh.max < (beforeMarker mk U).length
    · rw [if_pos (by omega), if_pos h1]
      simp only [Out.bind]
      exact runPhases_error _ _ _ _ _ _ _ _
    · rw [if_neg (by omega), if_neg h1]
      by_cases h2 : (beforeMarker mk U).length < sh.min
      · rw [if_pos (by omega), if_pos h2]
        simp only [Out.bind]
        exact runPhases_error _ _ _ _ _ _ _ _
      · rw [if_neg (by omega), if_neg h2]
        rfl

/-- What a claim means for the function. -/
def Answers (f : M (Option (Target × List Token))) (v : Validator) (c : Node) : Claim → Prop
  | .refuses e => f = guarded v c (M.throw e)
  | .takes uses left => ∃ tgt, flattenMatch tgt = uses ∧
      f = guarded v c (pure (some (tgt, left)))

/-- The label test on the label token, if the node has one. -/
def labelOk (cfg : Config) (c : Node) (lab : List Token) : Prop := ∀ t ∈ lab, IsLabel cfg c t

theorem checkLabel_ok {cfg : Config} {c : Node} {m : PreResult} {lab V : List Token} {a : Adapter}
    (hlab : lab.length = if c.isNamed then 1 else 0) (ha : tokenSeq a = lab ++ V)
    (hl : labelOk cfg c lab) (h1 : m ≠ .ok .skipNode) (h2 : m ≠ .ok .skipNodeButUseSubTargets) :
    ∃ a', checkLabel cfg c m a = some a' := by
  cases hn : c.isNamed
  · exact ⟨a, checkLabel_unnamed hn h1⟩
  · rw [hn] at hlab
    match lab, hlab with
    | [t], _ =>
      rw [checkLabel_named hn h1 h2, ha]
      have : labelTest cfg c t = true := (labelTest_iff _ _ _).2 (hl t (by simp))
      simp only [List.cons_append, this, if_true]
      exact ⟨_, rfl⟩

theorem checkLabel_exact {cfg : Config} {c : Node} {lab vs left : List Token}
    (hlab : lab.length = if c.isNamed then 1 else 0) (hl : labelOk cfg c lab) :
    ∃ lab', lab'.length = lab.length ∧
      checkLabel cfg c (.ok .validNode) ⟨lab ++ vs, left⟩ = some ⟨lab' ++ vs, left⟩ := by
  cases hn : c.isNamed
  · exact ⟨lab, rfl, checkLabel_unnamed hn (by simp)⟩
  · rw [hn] at hlab
    match lab, hlab with
    | [t], _ =>
      refine ⟨[if t.pre == .none then c.getToken cfg t.name else t], rfl, ?_⟩
      rw [checkLabel_named hn (by simp) (by simp)]
      have : labelTest cfg c t = true := (labelTest_iff _ _ _).2 (hl t (by simp))
      simp [tokenSeq, this]

theorem nearest_self {mode c : Node} {parents : List Node} (hr : mode.hasRouter = true)
    (hc : c.hasRouter = false) : nearestModeLike (c :: mode :: parents) = some mode := by
  simp [nearestModeLike, hr, hc]

theorem nearest_mode {mode : Node} {parents : List Node} (hr : mode.hasRouter = true) :
    nearestModeLike (mode :: parents) = some mode := by
  simp [nearestModeLike, hr]

theorem values_length {c : Node} {sh : Shape} {U vs left : List Token}
    (hm : sh.marker = none) (h : sh.values c U = .ok (vs, left)) (he : sh.min = sh.max) :
    vs.length = sh.min := by
  simp only [Shape.values, hm] at h
  split at h
  · cases h
  · simp only [Except.ok.injEq, Prod.mk.injEq] at h
    rw [← h.1, List.length_take]
    omega

/-- The label fits: the three outcomes. -/
theorem body_label {cfg : Config} {mode c : Node} {sh : Shape} (h : Declared c sh)
    {parents : List Node} {sofar : List Leaf} {lab U : List Token} {a : Adapter} {v : Validator}
    (hr : mode.hasRouter = true)
    (htg : ∀ refs, sh.aliasOf = some refs → namedNodes mode refs ≠ [])
    (hlab : lab.length = if c.isNamed then 1 else 0) (ha : tokenSeq a = lab ++ U)
    (hp : a.processed.length ≤ sh.max + lab.length)
    (hmk : sh.marker.isSome → a.processed = []) (hlen : lab.length + U.length < 2 ^ 63)
    (hl : labelOk cfg c lab) :
    let f := M.lift (runPhases cfg c (mode :: parents) (some ⟨mode, [], sofar⟩) sh.body
      (.ok .validNode) a []) >>= fun (m, a, subs) => leafTail cfg c v m a subs
    (∀ e, sh.values c U = .error e → Answers f v c (.refuses e)) ∧
    (∀ vs left, sh.values c U = .ok (vs, left) →
      (∀ d, Lacks mode sofar sh d →
        Answers f v c (.refuses ⟨.dependent_argument_missing, [d.tokenType]⟩)) ∧
      ((∀ d, ¬ Lacks mode sofar sh d) → Answers f v c (.takes (sh.uses mode c vs) left))) := by
  intro f
  obtain ⟨a', ⟨V, hV⟩, hrun⟩ := count_body (cfg := cfg) (parents := mode :: parents)
    (processed := some ⟨mode, [], sofar⟩) h hlab ha hp hmk hlen
  refine ⟨fun e he => ?_, fun vs left hv => ?_⟩
  · simp only [he] at hrun
    obtain ⟨a'', hc⟩ := checkLabel_ok (m := .error e) hlab hV hl (by simp) (by simp)
    show f = _
    simp only [f, hrun, M.lift_ok_bind]
    exact leafTail_error hc
  · simp only [hv] at hrun
    obtain ⟨lab', hl', hex⟩ := checkLabel_exact (vs := vs) (left := left) hlab hl
    have plain : sh.aliasOf = none → leafTail cfg c v (.ok .validNode) ⟨lab ++ vs, left⟩ [] =
        guarded v c (pure (some (⟨c, vs, []⟩, left))) := by
      intro _
      rw [leafTail_some hex]
      have : (if c.isNamed then (lab' ++ vs).tail else lab' ++ vs) = vs := by
        cases hn : c.isNamed
        · rw [hn] at hlab
          have : lab' = [] := List.length_eq_zero_iff.1 (by rw [hl', hlab]; rfl)
          simp [this]
        · rw [hn, if_pos rfl] at hlab
          match lab', hl' with
          | [x], _ => rfl
          | [], hl' => rw [hlab] at hl'; cases hl'
          | _ :: _ :: _, hl' => rw [hlab] at hl'; simp at hl'
      simp only [this]
    cases hal : sh.aliasOf with
    | some refs =>
      obtain ⟨hn, hmn, hcnt, hcr, hmk0, hnd⟩ := h.aliased (by rw [hal]; rfl)
      have nolack : ∀ d, ¬ Lacks mode sofar sh d := by
        rintro d ⟨refs', _, _, h1, -⟩
        rw [hnd] at h1; cases h1
      refine ⟨fun d hd => absurd hd (nolack d), fun _ => ?_⟩
      have htail : sh.tail = [Policy.alias refs] := by simp [Shape.tail, hal, hnd]
      have hvl := values_length hmk0 hv hmn
      rw [hn, if_pos rfl] at hlab
      match lab, hlab, hl with
      | [t], _, hl =>
        have ht : c.matchToken (if t.pre == .none then c.getToken cfg t.name else t) = true :=
          (labelTest_iff _ _ _).2 (hl t (by simp))
        rw [htail, runPhases_cons_valid _ _ _ _ _ _ _ _ rfl] at hrun
        simp only [Policy.phase, aliasPhase, hcnt, nearest_self hr hcr] at hrun
        have hsz : ¬ sh.min + 1 > Adapter.size ⟨[t] ++ vs, left⟩ := by
          simp only [Adapter.size, List.length_append, List.length_cons, List.length_nil]; omega
        rw [if_neg hsz] at hrun
        have hdr : Adapter.deref ⟨[t] ++ vs, left⟩ Adapter.begin_ = .ok t := by rfl
        simp only [hdr, Out.ok_bind, ht, Bool.not_true, Bool.false_eq_true, if_false] at hrun
        obtain ⟨-, t2, t3⟩ := C04_transfer ⟨t :: vs, left⟩ sh.min
          (by simp only [Adapter.size, List.length_cons]; omega)
        have htr : Adapter.transfer ⟨[t] ++ vs, left⟩ (Adapter.begin_.add sh.min) =
            ⟨t :: vs, left⟩ := by
          have hmax : max (sh.min + 1) (vs.length + 1) = (t :: vs).length := by
            simp only [List.length_cons]; omega
          simp only [tokenSeq, List.length_cons, hmax] at t2 t3
          simp only [List.length_cons] at hmax
          rw [← List.length_cons (a := t), List.take_left] at t2
          rw [← List.length_cons (a := t), List.drop_left] at t3
          cases hA : Adapter.transfer ⟨[t] ++ vs, left⟩ (Adapter.begin_.add sh.min)
          have hA' : Adapter.transfer ⟨t :: vs, left⟩ (at_ sh.min) = _ := hA
          rw [hA'] at t2 t3
          simp only at t2 t3
          rw [t2, t3]
        have e1 : ((t :: vs) ++ left).drop 1 = vs ++ left := rfl
        have e2 : (vs ++ left).take sh.min = vs := by rw [← hvl, List.take_left]
        have e3 : (t :: vs).drop (sh.min + 1) = [] := by
          rw [List.drop_eq_nil_of_le]; simp only [List.length_cons]; omega
        simp only [htr, e1, e2, e3, List.nil_append, Out.pure_eq, Out.bind, runPhases] at hrun
        refine ⟨⟨c, [], (namedNodes mode refs).map fun d => ⟨d, vs⟩⟩, ?_, ?_⟩
        · simp only [flattenMatch, Shape.uses, hal]
          have := htg refs hal
          cases hnn : namedNodes mode refs with
          | nil => exact absurd hnn this
          | cons x xs => rfl
        · simp only [f, hrun, M.lift_ok_bind]
          rw [leafTail_some (a' := ⟨[], left⟩) rfl]
          simp [hn, namedNodes]
    | none =>
      cases hnd : sh.needs with
      | none =>
        have nolack : ∀ d, ¬ Lacks mode sofar sh d := by
          rintro d ⟨refs', _, _, h1, -⟩
          rw [hnd] at h1; cases h1
        refine ⟨fun d hd => absurd hd (nolack d), fun _ => ?_⟩
        have htail : sh.tail = [] := by simp [Shape.tail, hal, hnd]
        rw [htail] at hrun
        simp only [runPhases] at hrun
        refine ⟨⟨c, vs, []⟩, ?_, ?_⟩
        · simp [flattenMatch, Shape.uses, hal]
        · simp only [f, hrun, M.lift_ok_bind]
          exact plain hal
      | some refs =>
        have htail : sh.tail = [Policy.dependent refs] := by simp [Shape.tail, hal, hnd]
        rw [htail, runPhases_cons_valid _ _ _ _ _ _ _ _ rfl] at hrun
        simp only [Policy.phase, dependentPhase, nearest_mode hr] at hrun
        constructor
        · rintro d ⟨refs', pre, post, h1, h2, h3, h4⟩
          rw [hnd, Option.some.injEq] at h1
          subst h1
          have hsome : (mode.owners refs).find? (fun n => !(mode.hash == n.hash ||
              sofar.any fun s => s.node.hash == n.hash)) = some d := by
            rw [List.find?_eq_some_iff_append]
            refine ⟨?_, pre, post, h2, ?_⟩
            · rw [← seen_iff] at h4; simpa using h4
            · intro x hx
              have := (seen_iff ⟨mode, [], sofar⟩ x).2 (h3 x hx)
              simp only at this
              simp [this]
          simp only [hsome, Out.ok_bind, Out.pure_eq, Out.bind, runPhases] at hrun
          obtain ⟨a'', hc⟩ := checkLabel_ok (m := .error ⟨.dependent_argument_missing,
            [d.tokenType]⟩) (a := ⟨lab ++ vs, left⟩) (V := vs ++ left) hlab (by simp [tokenSeq]) hl
            (by simp) (by simp)
          show f = _
          simp only [f, hrun, M.lift_ok_bind]
          exact leafTail_error hc
        · intro hno
          have hnone : (mode.owners refs).find? (fun n => !(mode.hash == n.hash ||
              sofar.any fun s => s.node.hash == n.hash)) = none := by
            cases hf : (mode.owners refs).find? (fun n => !(mode.hash == n.hash ||
              sofar.any fun s => s.node.hash == n.hash)) with
            | none => rfl
            | some d =>
              exfalso
              rw [List.find?_eq_some_iff_append] at hf
              obtain ⟨h1, pre, post, h2, h3⟩ := hf
              refine hno d ⟨refs, pre, post, hnd, h2, ?_, ?_⟩
              · intro x hx
                rw [← seen_iff]
                simpa using h3 x hx
              · rw [← seen_iff]
                simpa using h1
          simp only [hnone, Out.ok_bind, Out.pure_eq, Out.bind, runPhases] at hrun
          refine ⟨⟨c, vs, []⟩, ?_, ?_⟩
          · simp [flattenMatch, Shape.uses, hal]
          · simp only [f, hrun, M.lift_ok_bind]
            exact plain hal

theorem checkLabel_other {cfg : Config} {c : Node} {m : PreResult} {t : Token} {V : List Token}
    {a : Adapter} (hn : c.isNamed = true) (ha : tokenSeq a = t :: V) (hl : ¬ IsLabel cfg c t)
    (h2 : m ≠ .ok .skipNodeButUseSubTargets) : checkLabel cfg c m a = none := by
  by_cases h1 : m = .ok .skipNode
  · rw [h1]; rfl
  · rw [checkLabel_named hn h1 h2, ha]
    have : labelTest cfg c t = false := by
      rw [← Bool.not_eq_true, labelTest_iff]; exact hl
    simp [this]

/-- The label does not fit: no match. -/
theorem body_other {cfg : Config} {mode c : Node} {sh : Shape} (h : Declared c sh)
    {parents : List Node} {sofar : List Leaf} {t : Token} {U : List Token} {a : Adapter}
    {v : Validator} (hr : mode.hasRouter = true) (hn : c.isNamed = true)
    (ha : tokenSeq a = t :: U) (hp : a.processed.length ≤ sh.max + 1)
    (hmk : sh.marker.isSome → a.processed = []) (hlen : 1 + U.length < 2 ^ 63)
    (hl : ¬ IsLabel cfg c t) :
    (M.lift (runPhases cfg c (mode :: parents) (some ⟨mode, [], sofar⟩) sh.body
      (.ok .validNode) a []) >>= fun (m, a, subs) => leafTail cfg c v m a subs) = pure none := by
  obtain ⟨a', ⟨V, hV⟩, hrun⟩ := count_body (cfg := cfg) (parents := mode :: parents)
    (processed := some ⟨mode, [], sofar⟩) (lab := [t]) h (by simp [hn]) ha hp hmk hlen
  cases hv : sh.values c U with
  | error e =>
    simp only [hv] at hrun
    rw [hrun, M.lift_ok_bind]
    exact leafTail_none (checkLabel_other hn hV hl (by simp))
  | ok r =>
    obtain ⟨vs, left⟩ := r
    simp only [hv] at hrun
    have fin : ∀ m : PreResult, m ≠ .ok .skipNodeButUseSubTargets →
        leafTail cfg c v m ⟨[t] ++ vs, left⟩ [] = pure none := fun m hm =>
      leafTail_none (checkLabel_other hn (V := vs ++ left) (by simp [tokenSeq]) hl hm)
    cases hal : sh.aliasOf with
    | some refs =>
      obtain ⟨-, hmn, hcnt, hcr, hmk0, hnd⟩ := h.aliased (by rw [hal]; rfl)
      have htail : sh.tail = [Policy.alias refs] := by simp [Shape.tail, hal, hnd]
      have hvl := values_length hmk0 hv hmn
      have ht : c.matchToken (if t.pre == .none then c.getToken cfg t.name else t) = false := by
        rw [← Bool.not_eq_true]
        exact fun hc => hl ((labelTest_iff _ _ _).1 hc)
      rw [htail, runPhases_cons_valid _ _ _ _ _ _ _ _ rfl] at hrun
      simp only [Policy.phase, aliasPhase, hcnt, nearest_self hr hcr] at hrun
      have hsz : ¬ sh.min + 1 > Adapter.size ⟨[t] ++ vs, left⟩ := by
        simp only [Adapter.size, List.length_append, List.length_cons, List.length_nil]; omega
      rw [if_neg hsz] at hrun
      have hdr : Adapter.deref ⟨[t] ++ vs, left⟩ Adapter.begin_ = .ok t := by rfl
      simp only [hdr, Out.ok_bind, ht, Bool.not_false, if_true, Out.pure_eq, Out.bind,
        runPhases] at hrun
      rw [hrun, M.lift_ok_bind]
      exact fin _ (by simp)
    | none =>
      cases hnd : sh.needs with
      | none =>
        have htail : sh.tail = [] := by simp [Shape.tail, hal, hnd]
        rw [htail] at hrun
        simp only [runPhases] at hrun
        rw [hrun, M.lift_ok_bind]
        exact fin _ (by simp)
      | some refs =>
        have htail : sh.tail = [Policy.dependent refs] := by simp [Shape.tail, hal, hnd]
        rw [htail, runPhases_cons_valid _ _ _ _ _ _ _ _ rfl] at hrun
        simp only [Policy.phase, dependentPhase, nearest_mode hr] at hrun
        cases hf : (mode.owners refs).find? (fun n => !(mode.hash == n.hash ||
              sofar.any fun s => s.node.hash == n.hash)) with
        | none =>
          simp only [hf, Out.ok_bind, Out.pure_eq, Out.bind, runPhases] at hrun
          rw [hrun, M.lift_ok_bind]
          exact fin _ (by simp)
        | some d =>
          simp only [hf, Out.ok_bind, Out.pure_eq, Out.bind, runPhases] at hrun
          rw [hrun, M.lift_ok_bind]
          exact fin _ (by simp)

/-! ## From the tokens on the command line to the label -/

/-- A bound on the number of tokens the command line can be expanded to. -/
def weight (l : List Token) : Nat := (l.map fun t => max t.name.length 1).sum

@[simp] theorem weight_nil : weight [] = 0 := rfl
@[simp] theorem weight_cons (t : Token) (l : List Token) :
    weight (t :: l) = max t.name.length 1 + weight l := rfl
theorem weight_append (l l' : List Token) : weight (l ++ l') = weight l + weight l' := by
  simp [weight, List.sum_append]

theorem length_le_weight (l : List Token) : l.length ≤ weight l := by
  induction l with
  | nil => simp
  | cons t l ih => simp only [List.length_cons, weight_cons]; omega

theorem weight_drop (l : List Token) (k : Nat) : weight (l.drop k) ≤ weight l := by
  have := weight_append (l.take k) (l.drop k)
  rw [List.take_append_drop] at this
  omega

theorem weight_shorts {gs : List Bytes} (h : ∀ g ∈ gs, g ≠ []) :
    weight (gs.map (Token.mk .short)) = gs.flatten.length := by
  induction gs with
  | nil => rfl
  | cons g gs ih =>
    have h1 := List.length_pos_iff.2 (h g (by simp))
    have h2 := ih fun x hx => h x (List.mem_cons_of_mem _ hx)
    simp only [List.map_cons, weight_cons, h2, List.flatten_cons, List.length_append]
    omega

theorem shortText_length {cfg : Config} {t : Token} {x : Bytes} (h : ShortText cfg t x) :
    x.length ≤ t.name.length := by
  rcases h with ⟨-, h⟩ | ⟨-, h, -⟩
  · rw [h]; exact Nat.le_refl _
  · rw [h, List.length_append]; omega

/-- The pre-parse of a leaf as its first policy and the rest. -/
theorem leaf_plain {cfg : Config} {c : Node} {sh : Shape} (h : Declared c sh)
    {parents : List Node} {args : List Token} {processed : Option Target} {v : Validator}
    (hs : sh.separator = none) (he : sh.expands = false) :
    leafPreParse cfg c parents args processed v =
      (M.lift (runPhases cfg c parents processed sh.body (.ok .validNode) ⟨[], args⟩ []) >>=
        fun (m, a, subs) => leafTail cfg c v m a subs) := by
  rw [leafPreParse_eq, h.phases]
  have : sh.policies = sh.body := by
    simp [Shape.policies, Shape.body, Shape.tail, hs, he]
  rw [this]

theorem leaf_expander {cfg : Config} {c : Node} {sh : Shape} (h : Declared c sh)
    {parents : List Node} {args : List Token} {processed : Option Target} {v : Validator}
    (hs : sh.separator = none) (he : sh.expands = true) {m : PreResult} {a : Adapter}
    (hx : shortFormExpanderPhase cfg c ⟨[], args⟩ = .ok (m, a)) :
    leafPreParse cfg c parents args processed v =
      (M.lift (runPhases cfg c parents processed sh.body m a []) >>=
        fun (m, a, subs) => leafTail cfg c v m a subs) := by
  rw [leafPreParse_eq, h.phases]
  have : sh.policies = Policy.shortFormExpander :: sh.body := by
    simp [Shape.policies, Shape.body, Shape.tail, hs, he]
  rw [this, runPhases_cons_valid _ _ _ _ _ _ _ _ rfl]
  simp only [Policy.phase, hx]
  rfl

theorem leaf_sep {cfg : Config} {c : Node} {sh : Shape} (h : Declared c sh)
    {parents : List Node} {args : List Token} {processed : Option Target} {v : Validator}
    {ch : UInt8} (hs : sh.separator = some ch) {m : PreResult} {a : Adapter}
    (hx : valueSeparatorPhase cfg c [ch] ⟨[], args⟩ = .ok (m, a)) :
    leafPreParse cfg c parents args processed v =
      (M.lift (runPhases cfg c parents processed sh.body m a []) >>=
        fun (m, a, subs) => leafTail cfg c v m a subs) := by
  have he : sh.expands = false := (h.separated (by rw [hs]; rfl)).2.2.2.2
  rw [leafPreParse_eq, h.phases]
  have : sh.policies = Policy.valueSeparator [ch] :: sh.body := by
    simp [Shape.policies, Shape.body, Shape.tail, hs, he]
  rw [this, runPhases_cons_valid _ _ _ _ _ _ _ _ rfl]
  simp only [Policy.phase, hx]
  rfl

/-- The expander does nothing on a label. -/
theorem expander_label {cfg : Config} {c : Node} {t : Token} {rest : List Token}
    (hl : IsLabel cfg c t) : shortFormExpanderPhase cfg c ⟨[], t :: rest⟩ =
      .ok (.ok .validNode, ⟨[], t :: rest⟩) := by
  rw [expander_eq, if_pos]
  by_cases hs : (readToken cfg c t).pre = .short
  · right
    rw [label_readToken] at hl
    simp only [Node.matchToken, hs, reduceCtorEq, beq_iff_eq, Bool.or_eq_true, Bool.and_eq_true,
      false_and, true_and, false_or, or_false] at hl
    rw [hl]; rfl
  · exact .inl hs

/-- What an argument claims is what it does. -/
theorem claim_answers {cfg : Config} {mode c : Node} {sh : Shape} (h : Declared c sh)
    {parents : List Node} {sofar : List Leaf} {t : Token} {rest : List Token} {v : Validator}
    (hr : mode.hasRouter = true)
    (htg : ∀ refs, sh.aliasOf = some refs → namedNodes mode refs ≠ [])
    (hlen : weight (t :: rest) < 2 ^ 63) {cl : Claim}
    (hcl : ClaimsAs cfg mode sofar c sh t rest cl) :
    Answers (leafPreParse cfg c (mode :: parents) (t :: rest) (some ⟨mode, [], sofar⟩) v) v c
      cl := by
  have hl0 := length_le_weight rest
  simp only [weight_cons] at hlen
  have key : ∀ follows, Labels cfg c sh t rest follows →
      ∃ lab a, lab.length = (if c.isNamed then 1 else 0) ∧ tokenSeq a = lab ++ follows ∧
        a.processed.length ≤ sh.max + lab.length ∧ (sh.marker.isSome → a.processed = []) ∧
        lab.length + follows.length < 2 ^ 63 ∧ labelOk cfg c lab ∧
        leafPreParse cfg c (mode :: parents) (t :: rest) (some ⟨mode, [], sofar⟩) v =
        (M.lift (runPhases cfg c (mode :: parents) (some ⟨mode, [], sofar⟩) sh.body
          (.ok .validNode) a []) >>= fun (m, a, subs) => leafTail cfg c v m a subs) := by
    intro follows hl
    cases hl with
    | label hs hl =>
      refine ⟨[t], ⟨[], t :: rest⟩, by simp [IsLabel.named hl], rfl, by simp, fun _ => rfl,
        by simp only [List.length_cons, List.length_nil]; omega, ?_, ?_⟩
      · intro x hx; rw [List.mem_singleton.1 hx]; exact hl
      · cases he : sh.expands
        · exact leaf_plain h hs he
        · exact leaf_expander h hs he (expander_label hl)
    | @collapsed x g g2 gs he hx hg hsn =>
      have hn := h.expanded he
      have hs : sh.separator = none := by
        cases hs : sh.separator with
        | none => rfl
        | some ch =>
          have := (h.separated (by rw [hs]; rfl)).2.2.2.2
          rw [he] at this; cases this
      obtain ⟨hj, hne⟩ := (C41_any_bytes _).2 _ hg
      have hxl := shortText_length hx
      have hg2 := List.length_pos_iff.2 (hne g2 (by simp))
      have hg1 := List.length_pos_iff.2 (hne g (by simp))
      have hjl : x.length = g.length + (g2 :: gs).flatten.length := by
        rw [← hj]; simp [List.length_append]
      have hw := weight_shorts (gs := g2 :: gs) fun y hy => hne y (List.mem_cons_of_mem _ hy)
      have hwl := length_le_weight ((g2 :: gs).map (Token.mk .short))
      have hgl : g2.length ≤ (g2 :: gs).flatten.length := by simp [List.length_append]
      refine ⟨[⟨.short, g⟩], ⟨[⟨.short, g⟩], (g2 :: gs).map (Token.mk .short) ++ rest⟩,
        by simp [hn], rfl, by simp, fun hm => ?_, ?_, ?_, ?_⟩
      · have := (h.marked hm).2.1
        rw [he] at this; cases this
      · rw [List.length_append, List.length_singleton]
        omega
      · intro y hy; rw [List.mem_singleton.1 hy]; exact hsn
      · refine leaf_expander h hs he ?_
        rw [expander_eq, readToken_of_short hsn hx, hsn]
        simp only [Option.getD_some]
        rw [if_neg (by simp; omega), if_neg (by omega), hg]
        rfl
    | @separated ch l w hs ht hc hv hl =>
      obtain ⟨hn, hnn, h1, h2, -⟩ := h.separated (by rw [hs]; rfl)
      have hwl := List.length_pos_iff.2 hv
      have htl : t.name.length = l.length + (w.length + 1) := by
        rw [ht]; simp [List.length_append]
      refine ⟨[⟨t.pre, l⟩], ⟨[⟨t.pre, l⟩, ⟨.none, w⟩], rest⟩, by simp [hn], rfl, ?_, ?_, ?_, ?_, ?_⟩
      · simp [h2]
      · intro hm
        have := (h.marked hm).1
        rw [hs] at this; cases this
      · simp only [List.length_cons, List.length_nil]; omega
      · intro y hy; rw [List.mem_singleton.1 hy]; exact hl
      · refine leaf_sep h hs ?_
        have : t = ⟨t.pre, l ++ ch :: w⟩ := by rw [← ht]
        rw [this]
        exact separator_splits cfg c t.pre l w ch rest hc hv
    | positional hn =>
      refine ⟨[], ⟨[], t :: rest⟩, by simp [hn], rfl, by simp, fun _ => rfl,
        by simp only [List.length_cons, List.length_nil]; omega, ?_, ?_⟩
      · intro x hx; cases hx
      · have hs : sh.separator = none := by
          cases hs : sh.separator with
          | none => rfl
          | some ch =>
            have := (h.separated (by rw [hs]; rfl)).1
            rw [hn] at this; cases this
        have he : sh.expands = false := by
          cases he : sh.expands with
          | false => rfl
          | true =>
            have := h.expanded he
            rw [hn] at this; cases this
        exact leaf_plain h hs he
  cases hcl with
  | @noSeparator ch hs hc hl =>
    obtain ⟨hn, hnn, -, -, -⟩ := h.separated (by rw [hs]; rfl)
    show leafPreParse _ _ _ _ _ _ = _
    rw [leaf_sep h hs (separator_absent cfg c t ch rest hc)]
    have hm : c.matchToken (if t.pre == .none then getTokenType cfg t.name else t) =
        labelTest cfg c t := by
      unfold labelTest
      split
      · exact matchToken_classify cfg c t.name hnn
      · rfl
    rw [hm]
    have h' := (labelTest_iff _ _ _).2 hl
    simp only [h', if_true, runPhases_error, M.lift_ok_bind]
    refine leafTail_error (a' := ⟨[if t.pre == .none then c.getToken cfg t.name else t], rest⟩) ?_
    rw [checkLabel_named hn (by simp) (by simp)]
    simp [tokenSeq, h']
  | count hl hv =>
    obtain ⟨lab, a, h1, h2, h3, h4, h5, h6, h7⟩ := key _ hl
    rw [h7]
    exact (body_label h hr htg h1 h2 h3 h4 h5 h6).1 _ hv
  | lacks hl hv hd =>
    obtain ⟨lab, a, h1, h2, h3, h4, h5, h6, h7⟩ := key _ hl
    rw [h7]
    exact ((body_label h hr htg h1 h2 h3 h4 h5 h6).2 _ _ hv).1 _ hd
  | takes hl hv hd =>
    obtain ⟨lab, a, h1, h2, h3, h4, h5, h6, h7⟩ := key _ hl
    rw [h7]
    exact ((body_label h hr htg h1 h2 h3 h4 h5 h6).2 _ _ hv).2 hd

/-- Whatever is labelled is claimed. -/
theorem labels_claims {cfg : Config} {mode c : Node} {sh : Shape} {sofar : List Leaf} {t : Token}
    {rest follows : List Token} (h : Labels cfg c sh t rest follows) :
    ∃ cl, ClaimsAs cfg mode sofar c sh t rest cl := by
  cases hv : sh.values c follows with
  | error e => exact ⟨_, .count h hv⟩
  | ok r =>
    obtain ⟨vs, left⟩ := r
    by_cases hd : ∃ d, Lacks mode sofar sh d
    · obtain ⟨d, hd⟩ := hd
      exact ⟨_, .lacks h hv hd⟩
    · exact ⟨_, .takes h hv fun d hd' => hd ⟨d, hd'⟩⟩

theorem split_first {s : Bytes} {ch : UInt8} (h : ch ∈ s) :
    ∃ l w, s = l ++ ch :: w ∧ ch ∉ l := by
  induction s with
  | nil => cases h
  | cons x s ih =>
    by_cases hx : ch = x
    · subst hx; exact ⟨[], s, rfl, by simp⟩
    · obtain ⟨l, w, h1, h2⟩ := ih ((List.mem_cons.1 h).resolve_left hx)
      exact ⟨x :: l, w, by rw [h1]; rfl, by simp [hx, h2]⟩

/-- An argument that claims nothing does not match. -/
theorem no_claim {cfg : Config} {mode c : Node} {sh : Shape} (h : Declared c sh)
    {parents : List Node} {sofar : List Leaf} {t : Token} {rest : List Token} {v : Validator}
    (hr : mode.hasRouter = true) (hlen : weight (t :: rest) < 2 ^ 63)
    (hread : sh.expands = true → Readable cfg t)
    (hno : ∀ cl, ¬ ClaimsAs cfg mode sofar c sh t rest cl) :
    leafPreParse cfg c (mode :: parents) (t :: rest) (some ⟨mode, [], sofar⟩) v = pure none := by
  have nolabel : ∀ follows, ¬ Labels cfg c sh t rest follows := by
    intro follows hl
    obtain ⟨cl, hcl⟩ := labels_claims (mode := mode) (sofar := sofar) hl
    exact hno cl hcl
  have hl0 := length_le_weight rest
  simp only [weight_cons] at hlen
  have hn : c.isNamed = true := by
    cases hn : c.isNamed
    · exact absurd (.positional hn) (nolabel _)
    · rfl
  cases hs : sh.separator with
  | some ch =>
    obtain ⟨-, hnn, h1, h2, -⟩ := h.separated (by rw [hs]; rfl)
    by_cases hc : ch ∈ t.name
    · obtain ⟨l, w, hw, hl⟩ := split_first hc
      have ht : t = ⟨t.pre, l ++ ch :: w⟩ := by rw [← hw]
      by_cases hwe : w = []
      · subst hwe
        rw [ht, leaf_sep h hs (separator_empty_value cfg c t.pre l ch rest hl), runPhases_skip,
          M.lift_ok_bind]
        rfl
      · have hnl : ¬ IsLabel cfg c ⟨t.pre, l⟩ := fun hx =>
          nolabel _ (.separated hs hw hl hwe hx)
        rw [ht, leaf_sep h hs (separator_splits cfg c t.pre l w ch rest hl hwe)]
        have hwl := List.length_pos_iff.2 hwe
        have htl : t.name.length = l.length + (w.length + 1) := by
          rw [hw]; simp [List.length_append]
        refine body_other h hr hn (t := ⟨t.pre, l⟩) (U := ⟨.none, w⟩ :: rest) rfl (by simp [h2])
          ?_ (by simp only [List.length_cons]; omega) hnl
        intro hm
        have := (h.marked hm).1
        rw [hs] at this; cases this
    · have hnl : ¬ IsLabel cfg c t := fun hx => hno _ (.noSeparator hs hc hx)
      rw [leaf_sep h hs (separator_absent cfg c t ch rest hc)]
      have hm : c.matchToken (if t.pre == .none then getTokenType cfg t.name else t) =
          labelTest cfg c t := by
        unfold labelTest
        split
        · exact matchToken_classify cfg c t.name hnn
        · rfl
      rw [hm]
      rw [← labelTest_iff, Bool.not_eq_true] at hnl
      simp only [hnl, Bool.false_eq_true, if_false, runPhases_skip, M.lift_ok_bind]
      rfl
  | none =>
    have hnl : ¬ IsLabel cfg c t := fun hx => nolabel _ (.label hs hx)
    cases he : sh.expands with
    | false =>
      rw [leaf_plain h hs he]
      exact body_other h hr hn (t := t) (U := rest) rfl (by simp) (fun _ => rfl) (by omega) hnl
    | true =>
      have hmk : sh.marker = none := by
        cases hm : sh.marker with
        | none => rfl
        | some m =>
          have := (h.marked (by rw [hm]; rfl)).2.1
          rw [he] at this; cases this
      have hx := expander_eq cfg c t rest
      by_cases hex : (readToken cfg c t).pre ≠ .short ∨
          (readToken cfg c t).name.length = (c.shortName.getD []).length
      · rw [if_pos hex] at hx
        rw [leaf_expander h hs he hx]
        exact body_other h hr hn (t := t) (U := rest) rfl (by simp) (fun _ => rfl) (by omega) hnl
      · rw [if_neg hex] at hx
        simp only [not_or, Decidable.not_not] at hex
        have hst := readToken_short hex.1
        obtain ⟨hne, htext⟩ := hread he _ hst
        obtain ⟨gs, hg, hgs⟩ := text_graphemes htext
        have hpos := List.length_pos_iff.2 hne
        rw [if_neg (by omega), hg] at hx
        rw [leaf_expander h hs he (m := .ok .validNode) hx]
        obtain ⟨hj, hge⟩ := (C41_any_bytes _).2 _ hg
        have hxl := shortText_length hst
        cases gs with
        | nil => exact absurd hj.symm hne
        | cons g gs =>
          have hw := weight_shorts (gs := gs) fun y hy => hge y (List.mem_cons_of_mem _ hy)
          have hwl := length_le_weight (gs.map (Token.mk .short))
          have hg1 := List.length_pos_iff.2 (hge g (by simp))
          have hjl : (readToken cfg c t).name.length = g.length + gs.flatten.length := by
            rw [← hj]; simp [List.length_append]
          refine body_other h hr hn (t := ⟨.short, g⟩)
            (U := gs.map (Token.mk .short) ++ rest) rfl (by simp) (fun hm => ?_) ?_ ?_
          · rw [hmk] at hm; cases hm
          · rw [List.length_append]; omega
          · intro hlab
            have hsn : c.shortName = some g := hlab
            cases gs with
            | nil =>
              apply hex.2
              rw [hsn, ← hj]; simp
            | cons g2 gs => exact nolabel _ (.collapsed he hst hg hsn)

/-- A policy list that begins with an off switch. -/
theorem runPhases_off {cfg : Config} {n : Node} {parents : List Node} {processed : Option Target}
    {q : Policy} {qs : List Policy} (hq : q.disables = true) (a : Adapter) (subs : List Leaf) :
    runPhases cfg n parents processed (q :: qs) (.ok .validNode) a subs =
      .ok (.ok .skipNode, a, subs) := by
  have hpp : q.hasPreParse = true := by
    cases q <;> simp [Policy.disables, Policy.hasPreParse] at hq ⊢
  have hph : q.phase cfg n parents processed a subs = .ok (.ok .skipNode, a, subs) := by
    cases q with
    | runtimeEnable e =>
      have : e = false := by simpa [Policy.disables] using hq
      subst this; rfl
    | runtimeEnableRequired e v =>
      have : e = false := by simpa [Policy.disables] using hq
      subst this; rfl
    | _ => simp [Policy.disables] at hq
  rw [runPhases_cons_valid _ _ _ _ _ _ _ _ hpp, hph]
  exact runPhases_skip ..

/-- The first of the policies that matter is an off switch, if a switch is off and the others are of
lower priority. -/
theorem head_off {q : Policy} {qs : List Policy} (hd : Desc (q :: qs))
    (hm : q.matters = true) (hs : ∀ s, q ≠ .valueSeparator s) (he : q ≠ .shortFormExpander)
    (hp : ∃ p ∈ q :: qs, p.disables = true) : q.disables = true := by
  obtain ⟨p, hp, hdp⟩ := hp
  have hpri : p.priority = 800 := by
    cases p <;> simp [Policy.disables, Policy.priority] at hdp ⊢
  have hge : 800 ≤ q.priority := by
    rcases List.mem_cons.1 hp with rfl | h
    · omega
    · have := (List.pairwise_cons.1 hd).1 p h; omega
  cases q with
  | valueSeparator s => exact absurd rfl (hs s)
  | shortFormExpander => exact absurd rfl he
  | _ => simp_all [Policy.priority, Policy.matters, Policy.disables]

/-- An argument that is switched off does not match. -/
theorem disabled_none {cfg : Config} {c : Node} (hdis : Disabled c)
    (hsep : ∀ s, Policy.valueSeparator s ∉ c.policies)
    (h1 : c.policies.Pairwise fun p q => ¬ (p = .shortFormExpander ∧ q = .shortFormExpander))
    {parents : List Node} {args : List Token} {processed : Option Target} {v : Validator}
    (hread : Policy.shortFormExpander ∈ c.policies → ∀ t ∈ args.head?, Readable cfg t) :
    leafPreParse cfg c parents args processed v = pure none := by
  rw [leafPreParse_eq]
  obtain ⟨p, hp, hdp⟩ := hdis
  have hpm : p.matters = true := by
    cases p <;> simp [Policy.disables, Policy.matters] at hdp ⊢ <;> exact hdp
  have hmem : p ∈ c.phases := mem_sortPolicies.2 (List.mem_filter.2 ⟨hp, hpm⟩)
  have hdesc : Desc c.phases := sortPolicies_desc _
  have hall : ∀ q ∈ c.phases, q.matters = true ∧ ∀ s, q ≠ .valueSeparator s := by
    intro q hq
    obtain ⟨h1, h2⟩ := List.mem_filter.1 (mem_sortPolicies.1 hq)
    exact ⟨h2, fun s hs => hsep s (hs ▸ h1)⟩
  have honce : c.phases.Pairwise fun p q => ¬ (p = .shortFormExpander ∧ q = .shortFormExpander) := by
    have h1 := h1.sublist (List.filter_sublist (p := Policy.matters))
    refine (List.Perm.pairwise_iff ?_ (sortPolicies_perm _)).2 h1
    intro x y hxy hyx
    exact hxy ⟨hyx.2, hyx.1⟩
  cases hph : c.phases with
  | nil => rw [hph] at hmem; cases hmem
  | cons q qs =>
    rw [hph] at hmem hdesc hall honce
    obtain ⟨hqm, hqs⟩ := hall q (by simp)
    by_cases hqe : q = .shortFormExpander
    · subst hqe
      have hp' : p ∈ qs := by
        rcases List.mem_cons.1 hmem with rfl | h
        · simp [Policy.disables] at hdp
        · exact h
      cases qs with
      | nil => cases hp'
      | cons r rs =>
        obtain ⟨hrm, hrs⟩ := hall r (by simp)
        have hre : r ≠ .shortFormExpander := fun hr =>
          (List.pairwise_cons.1 honce).1 r (by simp) ⟨rfl, hr⟩
        have hrd := head_off (List.pairwise_cons.1 hdesc).2 hrm hrs hre ⟨p, hp', hdp⟩
        rw [runPhases_cons_valid _ _ _ _ _ _ _ _ rfl]
        have hx : ∃ a, shortFormExpanderPhase cfg c ⟨[], args⟩ = .ok (.ok .validNode, a) := by
          cases args with
          | nil => exact ⟨_, rfl⟩
          | cons t rest =>
          rw [expander_eq]
          by_cases hex : (readToken cfg c t).pre ≠ .short ∨
              (readToken cfg c t).name.length = (c.shortName.getD []).length
          · rw [if_pos hex]; exact ⟨_, rfl⟩
          · rw [if_neg hex]
            simp only [not_or, Decidable.not_not] at hex
            have hin : Policy.shortFormExpander ∈ c.policies :=
              (List.mem_filter.1 (mem_sortPolicies.1
                (show _ ∈ c.phases by rw [hph]; exact List.mem_cons_self))).1
            obtain ⟨hne, htext⟩ := hread hin t rfl _ (readToken_short hex.1)
            obtain ⟨gs, hg, -⟩ := text_graphemes htext
            have hpos := List.length_pos_iff.2 hne
            rw [if_neg (by omega), hg]
            exact ⟨_, rfl⟩
        obtain ⟨a, hx⟩ := hx
        simp only [Policy.phase, hx, Out.ok_bind, Out.pure_eq, Out.bind]
        rw [runPhases_off hrd]
        rfl
    · have hqd := head_off hdesc hqm hqs hqe ⟨p, hmem, hdp⟩
      rw [runPhases_off hqd]
      rfl

theorem off_none {cfg : Config} {c : Node} (h : Off c) {parents : List Node}
    {t : Token} {rest : List Token} {processed : Option Target} {v : Validator}
    (hread : Policy.shortFormExpander ∈ c.policies → Readable cfg t) :
    leafPreParse cfg c parents (t :: rest) processed v = pure none :=
  disabled_none h.disabled h.separator h.once fun hx u hu => by
    simp only [List.head?_cons, Option.mem_def, Option.some.injEq] at hu
    exact hu ▸ hread hx

theorem declared_not_off {c : Node} {sh : Shape} (h : Declared c sh) : ¬ Disabled c := by
  rintro ⟨p, hp, hdp⟩
  have hpm : p.matters = true := by
    cases p <;> simp [Policy.disables, Policy.matters] at hdp ⊢ <;> exact hdp
  have := h.policies.mem_iff.1 (List.mem_filter.2 ⟨hp, hpm⟩)
  simp only [Shape.policies, List.mem_append, Option.mem_toList, Option.map_eq_some_iff,
    List.mem_singleton] at this
  rcases this with (((((⟨_, _, rfl⟩ | h) | ⟨_, _, rfl⟩) | rfl) | ⟨_, _, rfl⟩) | ⟨_, _, rfl⟩)
  all_goals first
    | (simp [Policy.disables] at hdp; done)
    | skip
  split at h
  · rw [List.mem_singleton.1 h] at hdp; simp [Policy.disables] at hdp
  · cases h

/-- What is left when an argument has taken its part is no longer, and of the same kind. -/
theorem takes_left {cfg : Config} {mode c : Node} {sh : Shape} (h : Declared c sh)
    {sofar uses : List Leaf} {t : Token} {rest left : List Token}
    (hcl : ClaimsAs cfg mode sofar c sh t rest (.takes uses left)) :
    weight left ≤ weight (t :: rest) ∧
    ((∀ x ∈ t :: rest, Readable cfg x) → ∀ x ∈ left, Readable cfg x) := by
  cases hcl with
  | @takes follows vs _ hl hv hd =>
  have hsuf : ∃ k, left = follows.drop k ∧ (sh.marker = none → k = sh.max) := by
    unfold Shape.values at hv
    split at hv
    · rename_i hm
      split at hv
      · cases hv
      · simp only [Except.ok.injEq, Prod.mk.injEq] at hv
        exact ⟨_, hv.2.symm, fun _ => rfl⟩
    · rename_i m hm
      split at hv
      · cases hv
      · split at hv
        · cases hv
        · simp only [Except.ok.injEq, Prod.mk.injEq] at hv
          refine ⟨(follows.takeWhile fun t => t.name != m).length + 1, ?_, fun h => ?_⟩
          · rw [← hv.2, afterMarker, ← List.drop_drop]
            congr 1
            conv => rhs; rw [← List.takeWhile_append_dropWhile (p := fun t => t.name != m)
              (l := follows), List.takeWhile_append_dropWhile]
            conv => rhs; arg 2; rw [← List.takeWhile_append_dropWhile (p := fun t => t.name != m)
              (l := follows)]
            rw [List.drop_left]
          · rw [hm] at h; cases h
  obtain ⟨k, rfl, hk⟩ := hsuf
  have hw := weight_drop follows k
  have hmem : ∀ x ∈ follows.drop k, x ∈ follows := fun x hx => List.mem_of_mem_drop hx
  cases hl with
  | label hs hl =>
    simp only [weight_cons]
    exact ⟨by omega, fun hr x hx => hr x (List.mem_cons_of_mem _ (hmem x hx))⟩
  | @collapsed x g g2 gs he hx hg hsn =>
    obtain ⟨hj, hne⟩ := (C41_any_bytes _).2 _ hg
    have hxl := shortText_length hx
    have hjl : x.length = g.length + (g2 :: gs).flatten.length := by
      rw [← hj]; simp [List.length_append]
    have hws := weight_shorts (gs := g2 :: gs) fun y hy => hne y (List.mem_cons_of_mem _ hy)
    rw [weight_append, hws] at hw
    simp only [weight_cons]
    refine ⟨by omega, fun hr y hy => ?_⟩
    rcases List.mem_append.1 (hmem y hy) with h1 | h1
    · obtain ⟨g', hg', rfl⟩ := List.mem_map.1 h1
      obtain ⟨hx1, hx2⟩ := hr t (by simp) x hx
      obtain ⟨gs', hg1, hg2⟩ := text_graphemes hx2
      rw [hg, Out.ok.injEq] at hg1
      subst hg1
      have := hg2 g' (List.mem_cons_of_mem _ hg')
      rintro z (⟨-, rfl⟩ | ⟨h, -⟩)
      · exact ⟨this.2, this.1⟩
      · cases h
    · exact hr y (List.mem_cons_of_mem _ h1)
  | @separated ch l w hs ht hc hv' hl =>
    obtain ⟨-, -, -, h2, -⟩ := h.separated (by rw [hs]; rfl)
    have hm : sh.marker = none := by
      cases hm : sh.marker with
      | none => rfl
      | some m =>
        have := (h.marked (by rw [hm]; rfl)).1
        rw [hs] at this; cases this
    rw [hk hm, h2]
    simp only [weight_cons, List.drop_succ_cons, List.drop_zero]
    exact ⟨by omega, fun hr x hx => hr x (List.mem_cons_of_mem _ hx)⟩
  | positional hn =>
    exact ⟨by simpa using hw, fun hr x hx => hr x (hmem x hx)⟩

/-! ## One step of the loop -/

/-- The check of a match: the duplicate check, inside that of the `one_of` if there is one. -/
def checkAt (g : Option Node) (already : Bool) (front : Token) : Validator :=
  match g with
  | none => verifyMatch already front
  | some o => oneOfValidator o (verifyMatch already front)

/-- The second check of a `one_of`. -/
def confirm (g : Option Node) (already : Bool) (front : Token) (c : Node) : M Unit :=
  match g with
  | none => pure ()
  | some o => oneOfValidator o (verifyMatch already front) c >>= fun _ => pure ()

/-- One pass over a list of arguments; `grp`: the `one_of` at the number. -/
def argStep (cfg : Config) (grp : Nat → Option Node) (parents : List Node) (target : Target)
    (matched : List Bool) (front : Token) (args : List Token) :
    List (Nat × Node) → M (Option (Nat × Target × List Token))
  | [] => pure none
  | (i, c) :: cs => do
    match ← leafPreParse cfg c parents args (some target)
      (checkAt (grp i) (matched[i]?.getD false) front) with
    | some (t, args') => do
      confirm (grp i) (matched[i]?.getD false) front c
      pure (some (i, t, args'))
    | none => argStep cfg grp parents target matched front args cs

/-- One pass over leaves. -/
def leafStep (cfg : Config) (parents : List Node) (args : List Token) (processed : Option Target)
    (validator : Validator) : List Node → M (Option (Target × List Token))
  | [] => pure none
  | c :: cs => do
    match ← leafPreParse cfg c parents args processed validator with
    | some r => pure (some r)
    | none => leafStep cfg parents args processed validator cs

theorem leafStep_append (cfg : Config) (parents : List Node) (args : List Token)
    (processed : Option Target) (validator : Validator) (l l' : List Node) :
    leafStep cfg parents args processed validator (l ++ l') =
      (leafStep cfg parents args processed validator l >>= fun
        | some r => pure (some r)
        | none => leafStep cfg parents args processed validator l') := by
  induction l with
  | nil => rfl
  | cons c cs ih =>
    simp only [List.cons_append, leafStep, ih, M.bind_assoc]
    congr 1
    funext o
    cases o with
    | none => rfl
    | some r => rfl

mutual
theorem preParse_leaves (cfg : Config) (parents : List Node) (args : List Token)
    (processed : Option Target) (validator : Validator) : ∀ n : Node,
    (∀ c ∈ leaves n, c.isGroup = false) →
    preParse cfg parents args processed n validator =
      leafStep cfg parents args processed validator (leaves n)
  | .mk k u h v p cs, hl => by
    by_cases hk : k = .aliasGroup
    · subst hk
      have : leaves (.mk .aliasGroup u h v p cs) = leavesList cs := by simp [leaves]
      rw [this] at hl ⊢
      rw [preParse_aliasGroup]
      exact preParseGroup_leaves cfg parents args processed validator cs hl
    · have : leaves (.mk k u h v p cs) = [.mk k u h v p cs] := by simp [leaves, hk]
      rw [this] at hl ⊢
      rw [preParse_leaf _ _ _ _ _ _ (hl _ (by simp)), leafStep]
      funext s
      simp only [M.bind_apply]
      match leafPreParse cfg (.mk k u h v p cs) parents args processed validator s with
      | (.ok (some r), s1) => rfl
      | (.ok none, s1) => rfl
      | (.throw e, s1) => rfl
      | (.foreign, s1) => rfl
      | (.ub, s1) => rfl
      | (.diverge, s1) => rfl
theorem preParseGroup_leaves (cfg : Config) (parents : List Node) (args : List Token)
    (processed : Option Target) (validator : Validator) : ∀ ns : List Node,
    (∀ c ∈ leavesList ns, c.isGroup = false) →
    preParseGroup cfg parents args processed validator ns =
      leafStep cfg parents args processed validator (leavesList ns)
  | [], _ => by simp [preParseGroup, leavesList, leafStep]
  | c :: cs, hl => by
    rw [leavesList] at hl ⊢
    rw [preParseGroup, leafStep_append,
      preParse_leaves cfg parents args processed validator c
        fun x hx => hl x (List.mem_append_left _ hx),
      preParseGroup_leaves cfg parents args processed validator cs
        fun x hx => hl x (List.mem_append_right _ hx)]
    congr 1
end

theorem argStep_leaves (cfg : Config) (grp : Nat → Option Node) (parents : List Node)
    (target : Target) (matched : List Bool) (front : Token) (args : List Token) (i : Nat)
    (hg : grp i = none) (l : List Node) (l' : List (Nat × Node)) :
    argStep cfg grp parents target matched front args (l.map (fun n => (i, n)) ++ l') =
      (leafStep cfg parents args (some target) (verifyMatch (matched[i]?.getD false) front) l >>=
        fun
        | some (t, args') => pure (some (i, t, args'))
        | none => argStep cfg grp parents target matched front args l') := by
  induction l with
  | nil => rfl
  | cons c cs ih =>
    simp only [List.map_cons, List.cons_append, argStep, leafStep, ih, M.bind_assoc, hg, checkAt,
      confirm]
    congr 1
    funext o
    cases o with
    | none => rfl
    | some r => rfl

/-- One pass over the alternatives of a `one_of`. -/
theorem argStep_oneOf (cfg : Config) (grp : Nat → Option Node) (parents : List Node)
    (target : Target) (matched : List Bool) (front : Token) (args : List Token) (i : Nat) (o : Node)
    (hg : grp i = some o) (l : List Node) (hl : ∀ c ∈ l, c.isGroup = false)
    (l' : List (Nat × Node)) :
    argStep cfg grp parents target matched front args (l.map (fun n => (i, n)) ++ l') =
      (preParseOneOf cfg parents args (some target)
        (oneOfValidator o (verifyMatch (matched[i]?.getD false) front)) l >>= fun
        | some (t, args') => pure (some (i, t, args'))
        | none => argStep cfg grp parents target matched front args l') := by
  induction l with
  | nil => simp only [preParseOneOf]; rfl
  | cons c cs ih =>
    simp only [List.map_cons, List.cons_append, argStep, preParseOneOf, M.bind_assoc,
      ih fun x hx => hl x (List.mem_cons_of_mem _ hx), hg, checkAt, confirm,
      preParse_leaf _ _ _ _ _ _ (hl c (by simp))]
    congr 1
    funext r
    cases r with
    | none => rfl
    | some r =>
      simp only [M.bind_assoc]
      congr 1

/-- One pass over the children of a mode is one pass over its arguments. -/
theorem modeStep_arguments (cfg : Config) (grp : Nat → Option Node) (parents : List Node)
    (target : Target) (matched : List Bool) (front : Token) (args : List Token) (cs : List Node)
    (i : Nat) (hl : ∀ a ∈ argumentsFrom i cs, a.2.isGroup = false)
    (hg : ∀ j c, cs[j]? = some c → grp (i + j) = if c.kind == .oneOf then some c else none) :
    modeStep cfg parents target matched front args cs i =
      argStep cfg grp parents target matched front args (argumentsFrom i cs) := by
  induction cs generalizing i with
  | nil => rfl
  | cons c cs ih =>
    rw [argumentsFrom] at hl ⊢
    rw [modeStep, ih _ (fun a ha => hl a (List.mem_append_right _ ha)) (by
      intro j d hd
      have := hg (j + 1) d hd
      rwa [show i + 1 + j = i + (j + 1) by omega])]
    split
    · rfl
    · rename_i hk
      rw [if_neg hk] at hl
      have h0 := hg 0 c rfl
      rw [Nat.add_zero] at h0
      by_cases ho : c.kind = .oneOf
      · rw [if_pos (by simp [ho])] at h0
        have hm : members c = c.children := by rw [members, if_pos (by simp [ho])]
        rw [hm] at hl ⊢
        rw [argStep_oneOf _ _ _ _ _ _ _ _ c h0 _ fun x hx =>
          hl (i, x) (List.mem_append_left _ (List.mem_map.2 ⟨x, hx, rfl⟩))]
        obtain ⟨k, u, h, v, p, xs⟩ := c
        simp only [Node.kind] at ho
        subst ho
        simp only [preParse]
        congr 1
      · rw [if_neg (by simp [ho])] at h0
        have hm : members c = leaves c := by rw [members, if_neg (by simp [ho])]
        rw [hm] at hl ⊢
        rw [argStep_leaves _ _ _ _ _ _ _ _ h0, preParse_leaves _ _ _ _ _ _ fun x hx =>
          hl (i, x) (List.mem_append_left _ (List.mem_map.2 ⟨x, hx, rfl⟩))]
        congr 1

theorem argumentsFrom_index {cs : List Node} {i : Nat} {a : Nat × Node}
    (h : a ∈ argumentsFrom i cs) : i ≤ a.1 ∧ a.1 < i + cs.length := by
  induction cs generalizing i with
  | nil => cases h
  | cons c cs ih =>
    rw [argumentsFrom] at h
    rcases List.mem_append.1 h with h | h
    · split at h
      · cases h
      · obtain ⟨x, -, rfl⟩ := List.mem_map.1 h
        simp
    · have := ih h
      simp only [List.length_cons]
      omega

/-! ## The loop -/

/-- The state of the loop: which children have been used. -/
structure Tracks (mode : Node) (used : List Nat) (matched : List Bool) : Prop where
  length : matched.length = mode.children.length
  used : ∀ i, i < mode.children.length → matched[i]? = some (decide (i ∈ used))

theorem Tracks.start (mode : Node) :
    Tracks mode [] (List.replicate mode.children.length false) := by
  refine ⟨by simp, fun i hi => ?_⟩
  rw [List.getElem?_replicate, if_pos hi]
  simp

theorem Tracks.set {mode : Node} {used : List Nat} {matched : List Bool}
    (h : Tracks mode used matched) (j : Nat) : Tracks mode (j :: used) (matched.set j true) := by
  refine ⟨by rw [List.length_set, h.length], fun i hi => ?_⟩
  rw [List.getElem?_set]
  by_cases hj : j = i
  · subst hj
    rw [if_pos rfl, if_pos (by rw [h.length]; exact hi)]
    simp
  · rw [if_neg hj, h.used i hi]
    have : i ≠ j := fun h => hj h.symm
    simp [this]

theorem Tracks.all {mode : Node} {used : List Nat} {matched : List Bool}
    (h : Tracks mode used matched) :
    matched.all id = true ↔ ∀ i, i < mode.children.length → i ∈ used := by
  rw [List.all_eq_true]
  constructor
  · intro ha i hi
    have h1 := h.used i hi
    have := ha _ (List.mem_of_getElem? h1)
    simpa using this
  · intro ha b hb
    obtain ⟨i, hi⟩ := List.mem_iff_getElem?.1 hb
    have hlt : i < mode.children.length := by
      rw [← h.length]
      exact (List.getElem?_eq_some_iff.1 hi).1
    have h1 := h.used i hlt
    rw [hi] at h1
    have h2 := ha i hlt
    simp only [h2, decide_true, Option.some.injEq] at h1
    rw [h1]; rfl

theorem Tracks.get {mode : Node} {used : List Nat} {matched : List Bool}
    (h : Tracks mode used matched) {a : Nat × Node} (ha : a ∈ arguments mode) :
    matched[a.1]?.getD false = decide (a.1 ∈ used) := by
  have := (argumentsFrom_index ha).2
  rw [h.used a.1 (by omega)]
  rfl

/-- What the duplicate check does. -/
theorem verify_guarded {used : List Nat} {a : Nat × Node} {front : Token}
    {m : M (Option (Target × List Token))} :
    (Available used a → guarded (verifyMatch (decide (a.1 ∈ used)) front) a.2 m = m) ∧
    (¬ Available used a → a.2.isNamed = true →
      guarded (verifyMatch (decide (a.1 ∈ used)) front) a.2 m =
        M.throw ⟨.argument_has_already_been_set, [front]⟩) ∧
    (¬ Available used a → a.2.isNamed = false →
      guarded (verifyMatch (decide (a.1 ∈ used)) front) a.2 m = pure none) := by
  unfold Available guarded verifyMatch
  by_cases hm : a.2.isMultiStage = true
  · rw [if_pos hm, M.pure_bind]
    exact ⟨fun _ => rfl, fun h => absurd (.inl hm) h, fun h => absurd (.inl hm) h⟩
  · rw [if_neg hm]
    by_cases hu : a.1 ∈ used
    · rw [decide_eq_true hu]
      refine ⟨fun h => absurd hu (h.resolve_left hm), fun _ hn => ?_, fun _ hn => ?_⟩
      · rw [if_pos hn]; rfl
      · rw [hn]; rfl
    · rw [decide_eq_false hu]
      refine ⟨fun _ => ?_, fun h => absurd (.inr hu) h, fun h => absurd (.inr hu) h⟩
      split <;> rfl

section
variable {cfg : Config} {mode : Node} {parents : List Node}

/-- The pre-parse of an argument of the mode. -/
theorem argument_answers (ho : Ordinary mode) {a : Nat × Node} (ha : a ∈ arguments mode)
    {sofar : List Leaf} {t : Token} {rest : List Token} (hw : weight (t :: rest) < 2 ^ 63)
    (hr : Expanding mode → Readable cfg t) (v : Validator) :
    (∀ cl, Claims cfg mode sofar a.2 t rest cl →
      Answers (leafPreParse cfg a.2 (mode :: parents) (t :: rest) (some ⟨mode, [], sofar⟩) v) v a.2
        cl) ∧
    ((∀ cl, ¬ Claims cfg mode sofar a.2 t rest cl) →
      leafPreParse cfg a.2 (mode :: parents) (t :: rest) (some ⟨mode, [], sofar⟩) v =
        pure none) := by
  rcases ho.arguments a ha with hoff | ⟨sh, hd, htg⟩
  · refine ⟨?_, fun _ => off_none hoff fun h => hr ⟨a, ha, h⟩⟩
    rintro cl ⟨sh, hd, -⟩
    exact absurd hoff.disabled (declared_not_off hd)
  · refine ⟨?_, fun hno => ?_⟩
    · rintro cl ⟨sh', hd', hcl⟩
      have hsh : sh'.aliasOf = sh.aliasOf := by
        have h1 := hd'.phases
        rw [hd.phases] at h1
        have h2 : ∀ r, (Policy.alias r ∈ sh.policies ↔ sh.aliasOf = some r) := by
          intro r; simp [Shape.policies]
        have h3 : ∀ r, (Policy.alias r ∈ sh'.policies ↔ sh'.aliasOf = some r) := by
          intro r; simp [Shape.policies]
        cases h4 : sh'.aliasOf with
        | some r => exact ((h2 r).1 (h1 ▸ (h3 r).2 h4)).symm
        | none =>
          cases h5 : sh.aliasOf with
          | none => rfl
          | some r =>
            have := (h3 r).1 (h1 ▸ (h2 r).2 h5)
            rw [h4] at this; cases this
      exact claim_answers hd' (ho.router (List.ne_nil_of_mem ha)) (fun r hr' => htg r (hsh ▸ hr')) hw hcl
    · refine no_claim hd (ho.router (List.ne_nil_of_mem ha)) hw (fun he => hr ⟨a, ha, ?_⟩) fun cl hcl => hno cl ⟨sh, hd, hcl⟩
      exact (List.mem_filter.1 (hd.policies.mem_iff.2 (by simp [Shape.policies, he]))).1

/-- The `one_of` at a number. -/
def groupAt (mode : Node) (i : Nat) : Option Node := mode.children[i]?.filter fun o => o.kind == .oneOf

/-- Arguments that do not want the command line are passed over. -/
theorem argStep_pass (ho : Ordinary mode) {sofar : List Leaf} {used : List Nat}
    {matched : List Bool} (ht : Tracks mode used matched) {t : Token} {rest : List Token}
    (hw : weight (t :: rest) < 2 ^ 63) (hr : Expanding mode → Readable cfg t) (l l' : List (Nat × Node))
    (hl : ∀ a ∈ l, a ∈ arguments mode ∧ ¬ Wants cfg mode sofar used t rest a) :
    argStep cfg (groupAt mode) (mode :: parents) ⟨mode, [], sofar⟩ matched t (t :: rest) (l ++ l') =
      argStep cfg (groupAt mode) (mode :: parents) ⟨mode, [], sofar⟩ matched t (t :: rest) l' := by
  induction l with
  | nil => rfl
  | cons a l ih =>
    obtain ⟨i, c⟩ := a
    obtain ⟨ha, hnw⟩ := hl (i, c) (by simp)
    have hnone : leafPreParse cfg c (mode :: parents) (t :: rest) (some ⟨mode, [], sofar⟩)
        (checkAt (groupAt mode i) (matched[i]?.getD false) t) = pure none := by
      rw [ht.get ha]
      by_cases hc : ∃ cl, Claims cfg mode sofar c t rest cl
      · obtain ⟨cl, hcl⟩ := hc
        have hun : c.isNamed = false ∧ ¬ Available used (i, c) := by
          simp only [Wants, not_and, not_or] at hnw
          obtain ⟨h3, h4⟩ := hnw ⟨cl, hcl⟩
          exact ⟨by simpa using h3, h4⟩
        have hg : groupAt mode i = none := by
          cases hg : groupAt mode i with
          | none => rfl
          | some o =>
            have := ho.alternatives _ ha o hg
            rw [hun.1] at this; cases this
        rw [hg]
        have hA := (argument_answers (cfg := cfg) (parents := parents) ho ha (sofar := sofar)
          hw hr (verifyMatch (decide (i ∈ used)) t)).1 cl hcl
        cases cl with
        | takes uses left =>
          obtain ⟨tgt, -, hA⟩ := hA
          rw [checkAt, hA]
          exact verify_guarded.2.2 hun.2 hun.1
        | refuses e =>
          rw [checkAt, hA]
          exact verify_guarded.2.2 hun.2 hun.1
      · exact (argument_answers (cfg := cfg) (parents := parents) ho ha (sofar := sofar)
          hw hr _).2 fun cl hcl => hc ⟨cl, hcl⟩
    rw [List.cons_append, argStep, hnone, M.pure_bind]
    exact ih fun x hx => hl x (List.mem_cons_of_mem _ hx)

/-- What the loop makes of the reading. -/
def readOutcome (cfg : Config) (mode : Node) : Result → M (Target × List Token)
  | .accepts uses => pure (⟨mode, [], uses⟩, [])
  | .fails e => M.throw e
  | .unknown t => M.lift (unknownArgument cfg mode t)

theorem ordinary_leaves (ho : Ordinary mode) : ∀ a ∈ arguments mode, a.2.isGroup = false := by
  intro a ha
  rcases ho.arguments a ha with h | ⟨sh, h, -⟩
  · have := h.leaf
    simp [Node.isGroup, this]
  · have := h.leaf
    simp [Node.isGroup, this]

theorem groupAt_children (mode : Node) (j : Nat) (c : Node) (h : mode.children[j]? = some c) :
    groupAt mode (0 + j) = if c.kind == .oneOf then some c else none := by
  rw [Nat.zero_add, groupAt, h]
  rfl

/-- The check of a `one_of` in a state. -/
theorem oneOfValidator_apply (o : Node) (v : Validator) (c : Node) (s : St) :
    oneOfValidator o v c s =
      match s.sel.lookup o.uid with
      | some h =>
        if h ≠ c.hash then (.throw ⟨.one_of_selected_type_mismatch, [o.tokenType]⟩, s) else v c s
      | none => v c { s with sel := (o.uid, c.hash) :: s.sel } := by
  unfold oneOfValidator
  change (match s.sel.lookup o.uid with
    | some h => if h ≠ c.hash then M.throw _ else v c
    | none => _ : M Bool) s = _
  cases hl : s.sel.lookup o.uid with
  | none => rfl
  | some h =>
    simp only
    split <;> rfl

/-- The check of a match, with the `one_of` around it. -/
theorem check_guarded {used : List Nat} {a : Nat × Node} {front : Token}
    {m : M (Option (Target × List Token))} (s : St) :
    (∀ o, Clashes mode s.sel a o →
      guarded (checkAt (groupAt mode a.1) (decide (a.1 ∈ used)) front) a.2 m s =
        (.throw ⟨.one_of_selected_type_mismatch, [o.tokenType]⟩, s)) ∧
    ((∀ o, ¬ Clashes mode s.sel a o) →
      guarded (checkAt (groupAt mode a.1) (decide (a.1 ∈ used)) front) a.2 m s =
        guarded (verifyMatch (decide (a.1 ∈ used)) front) a.2 m
          { s with sel := choose mode s.sel a }) ∧
    ((∀ o, ¬ Clashes mode s.sel a o) → Available used a →
      confirm (groupAt mode a.1) (decide (a.1 ∈ used)) front a.2
        { s with sel := choose mode s.sel a } = (.ok (), { s with sel := choose mode s.sel a })) := by
  have hav : Available used a → verifyMatch (decide (a.1 ∈ used)) front a.2 = pure true := by
    unfold Available verifyMatch
    intro h
    by_cases hm : a.2.isMultiStage = true
    · rw [if_pos hm]
    · rw [if_neg hm, decide_eq_false (h.resolve_left hm)]
      split <;> rfl
  have hgo : oneOfAt mode a = groupAt mode a.1 := rfl
  unfold Clashes choose
  rw [hgo]
  cases hg : groupAt mode a.1 with
  | none =>
    refine ⟨?_, fun _ => rfl, fun _ _ => rfl⟩
    rintro o ⟨h, -⟩; cases h
  | some o =>
    simp only [Option.some.injEq]
    cases hl : s.sel.lookup o.uid with
    | none =>
      simp only
      refine ⟨?_, fun _ => ?_, fun _ h => ?_⟩
      · rintro o' ⟨rfl, h, h1, -⟩
        rw [hl] at h1; cases h1
      · simp only [guarded, checkAt, M.bind_apply, oneOfValidator_apply, hl]
      · simp only [confirm, M.bind_apply, oneOfValidator_apply, List.lookup, beq_self_eq_true,
          ne_eq, not_true, if_false, hav h]
        rfl
    | some x =>
      simp only
      refine ⟨?_, fun h => ?_, fun h1 h => ?_⟩
      · rintro o' ⟨rfl, h, h1, h2⟩
        rw [hl, Option.some.injEq] at h1
        subst h1
        simp only [guarded, checkAt, M.bind_apply, oneOfValidator_apply, hl]
        rw [if_pos h2]
      · have hx : ¬ x ≠ a.2.hash := fun hx => h o ⟨rfl, x, hl, hx⟩
        simp only [guarded, checkAt, M.bind_apply, oneOfValidator_apply, hl]
        rw [if_neg hx]
      · have hx : ¬ x ≠ a.2.hash := fun hx => h1 o ⟨rfl, x, hl, hx⟩
        simp only [confirm, M.bind_apply, oneOfValidator_apply, hl]
        rw [if_neg hx, hav h]
        rfl

/-- The ways an iteration can go. -/
theorem modeLoop_step (ho : Ordinary mode) {sofar : List Leaf} {used : List Nat}
    {matched : List Bool} (ht : Tracks mode used matched) {t : Token} {rest : List Token}
    (hw : weight (t :: rest) < 2 ^ 63) (hr : Expanding mode → Readable cfg t) (fuel : Nat) (s : St) :
    (∀ a, First cfg mode sofar used t rest a →
      (∀ o, Clashes mode s.sel a o →
        modeLoop cfg mode parents (fuel + 1) ⟨mode, [], sofar⟩ matched (t :: rest) s =
          (.throw ⟨.one_of_selected_type_mismatch, [o.tokenType]⟩, s)) ∧
      ((∀ o, ¬ Clashes mode s.sel a o) → ¬ Available used a →
        modeLoop cfg mode parents (fuel + 1) ⟨mode, [], sofar⟩ matched (t :: rest) s =
          M.throw ⟨.argument_has_already_been_set, [t]⟩ { s with sel := choose mode s.sel a }) ∧
      ((∀ o, ¬ Clashes mode s.sel a o) → Available used a →
        ∀ cl, Claims cfg mode sofar a.2 t rest cl →
        modeLoop cfg mode parents (fuel + 1) ⟨mode, [], sofar⟩ matched (t :: rest) s =
          match cl with
          | .refuses e => M.throw e { s with sel := choose mode s.sel a }
          | .takes uses left => modeLoop cfg mode parents fuel ⟨mode, [], sofar ++ uses⟩
              (matched.set a.1 true) left { s with sel := choose mode s.sel a })) ∧
    ((∀ a ∈ arguments mode, ¬ Wants cfg mode sofar used t rest a) →
      modeLoop cfg mode parents (fuel + 1) ⟨mode, [], sofar⟩ matched (t :: rest) =
        if matched.all id then M.throw ⟨.unhandled_arguments, t :: rest⟩
        else M.lift (unknownArgument cfg mode t)) := by
  have hstep := modeStep_arguments cfg (groupAt mode) (mode :: parents) ⟨mode, [], sofar⟩ matched t
    (t :: rest) mode.children 0 (ordinary_leaves ho) (groupAt_children mode)
  constructor
  · rintro a ⟨before, after, hargs, hbefore, ⟨cl0, hcl0⟩, hnamed⟩
    have hin : ∀ x ∈ before ++ a :: after, x ∈ arguments mode := fun x hx => hargs ▸ hx
    have hpass := argStep_pass (cfg := cfg) (parents := parents) ho (sofar := sofar) ht hw hr before
      (a :: after) fun x hx => ⟨hin x (List.mem_append_left _ hx), hbefore x hx⟩
    have ha : a ∈ arguments mode := hin a (by simp)
    have hst : modeStep cfg (mode :: parents) ⟨mode, [], sofar⟩ matched t (t :: rest) mode.children
        0 = argStep cfg (groupAt mode) (mode :: parents) ⟨mode, [], sofar⟩ matched t (t :: rest)
          (a :: after) := by
      rw [hstep, ← hpass, ← hargs]; rfl
    obtain ⟨i, c⟩ := a
    obtain ⟨h1, -⟩ := argument_answers (cfg := cfg) (parents := parents) ho ha (sofar := sofar)
      hw hr (checkAt (groupAt mode i) (decide (i ∈ used)) t)
    have hanswer : ∀ cl, Claims cfg mode sofar c t rest cl →
        ∃ m, leafPreParse cfg c (mode :: parents) (t :: rest) (some ⟨mode, [], sofar⟩)
          (checkAt (groupAt mode i) (decide (i ∈ used)) t) =
            guarded (checkAt (groupAt mode i) (decide (i ∈ used)) t) c m ∧
          match cl with
          | .takes uses left => ∃ tgt, flattenMatch tgt = uses ∧ m = pure (some (tgt, left))
          | .refuses e => m = M.throw e := by
      intro cl hcl
      have hA := h1 cl hcl
      cases cl with
      | takes uses left =>
        obtain ⟨tgt, h2, hA⟩ := hA
        exact ⟨_, hA, tgt, h2, rfl⟩
      | refuses e => exact ⟨_, hA, rfl⟩
    refine ⟨fun o hk => ?_, fun hk hav => ?_, fun hk hav cl hcl => ?_⟩
    · obtain ⟨m, hm, -⟩ := hanswer cl0 hcl0
      rw [modeLoop, hst, argStep, ht.get ha, hm]
      simp only [M.bind_apply]
      rw [(check_guarded (used := used) s).1 o hk]
    · have hn := hnamed.resolve_right hav
      obtain ⟨m, hm, -⟩ := hanswer cl0 hcl0
      rw [modeLoop, hst, argStep, ht.get ha, hm]
      simp only [M.bind_apply]
      rw [(check_guarded (used := used) s).2.1 hk, verify_guarded.2.1 hav hn]
      rfl
    · obtain ⟨m, hm, hcl'⟩ := hanswer cl hcl
      have hc := (check_guarded (mode := mode) (used := used) (a := (i, c)) (front := t) (m := m) s).2.2
        hk hav
      rw [modeLoop, hst, argStep, ht.get ha, hm]
      simp only [M.bind_apply]
      rw [(check_guarded (used := used) s).2.1 hk, verify_guarded.1 hav]
      cases cl with
      | takes uses left =>
        obtain ⟨tgt, htgt, rfl⟩ := hcl'
        simp only [M.pure_apply, M.bind_apply, hc, htgt]
      | refuses e =>
        simp only at hcl'
        subst hcl'
        rfl
  · intro hno
    have hpass := argStep_pass (cfg := cfg) (parents := parents) ho (sofar := sofar) ht hw hr
      (arguments mode) [] fun x hx => ⟨hx, hno x hx⟩
    have hst : modeStep cfg (mode :: parents) ⟨mode, [], sofar⟩ matched t (t :: rest) mode.children
        0 = pure none := by
      rw [hstep]
      rw [List.append_nil] at hpass
      exact hpass
    rw [modeLoop, hst, M.pure_bind]

/-- The loop follows the reading. -/
theorem modeLoop_reads (ho : Ordinary mode) {chosen chosen' : Choices} {sofar : List Leaf}
    {used : List Nat} {args : List Token} {r : Result}
    (hR : Reading cfg mode chosen sofar used args r chosen') :
    ∀ (fuel : Nat) (matched : List Bool) (s : St), s.sel = chosen → Tracks mode used matched →
      weight args < 2 ^ 63 → (Expanding mode → ∀ t ∈ args, Readable cfg t) →
      (modeLoop cfg mode parents fuel ⟨mode, [], sofar⟩ matched args s).1 ≠ .diverge →
      modeLoop cfg mode parents fuel ⟨mode, [], sofar⟩ matched args s =
        readOutcome cfg mode r { s with sel := chosen' } := by
  induction hR with
  | done =>
    intro fuel matched s hsel _ _ _ _
    subst hsel
    cases fuel <;> rfl
  | @take chosen chosen' sofar uses used t rest left a r hf hk ha hc hr ih =>
    intro fuel matched s hsel ht hw hread hne
    subst hsel
    cases fuel with
    | zero => exact absurd rfl hne
    | succ fuel =>
      have := ((modeLoop_step (cfg := cfg) (parents := parents) ho ht hw (fun h => hread h t (by simp))
        fuel s).1 a hf).2.2 hk ha _ hc
      simp only at this
      rw [this] at hne ⊢
      obtain ⟨sh, hd, hcl⟩ := hc
      obtain ⟨h1, h2⟩ := takes_left hd hcl
      exact ih fuel _ { s with sel := choose mode s.sel a } rfl (ht.set a.1) (by omega)
        (fun h => h2 (hread h)) hne
  | @clash chosen sofar used t rest a o hf hk =>
    intro fuel matched s hsel ht hw hread hne
    subst hsel
    cases fuel with
    | zero => exact absurd rfl hne
    | succ fuel =>
      rw [((modeLoop_step (cfg := cfg) (parents := parents) ho ht hw (fun h => hread h t (by simp))
        fuel s).1 a hf).1 o hk]
      rfl
  | @again chosen sofar used t rest a hf hk ha =>
    intro fuel matched s hsel ht hw hread hne
    subst hsel
    cases fuel with
    | zero => exact absurd rfl hne
    | succ fuel =>
      rw [((modeLoop_step (cfg := cfg) (parents := parents) ho ht hw (fun h => hread h t (by simp))
        fuel s).1 a hf).2.1 hk ha]
      rfl
  | @refused chosen sofar used t rest a e hf hk ha hc =>
    intro fuel matched s hsel ht hw hread hne
    subst hsel
    cases fuel with
    | zero => exact absurd rfl hne
    | succ fuel =>
      rw [((modeLoop_step (cfg := cfg) (parents := parents) ho ht hw (fun h => hread h t (by simp))
        fuel s).1 a hf).2.2 hk ha _ hc]
      rfl
  | @unhandled chosen sofar used t rest hn hu =>
    intro fuel matched s hsel ht hw hread hne
    subst hsel
    cases fuel with
    | zero => exact absurd rfl hne
    | succ fuel =>
      rw [(modeLoop_step (cfg := cfg) (parents := parents) ho ht hw (fun h => hread h t (by simp))
        fuel s).2 hn, if_pos (ht.all.2 hu)]
      rfl
  | @unknown chosen sofar used t rest hn hu =>
    intro fuel matched s hsel ht hw hread hne
    subst hsel
    cases fuel with
    | zero => exact absurd rfl hne
    | succ fuel =>
      rw [(modeLoop_step (cfg := cfg) (parents := parents) ho ht hw (fun h => hread h t (by simp))
        fuel s).2 hn, if_neg]
      · rfl
      · intro hall
        obtain ⟨i, hi, hiu⟩ := hu
        exact hiu (ht.all.1 hall i hi)

theorem first_of_exists {α : Type} {l : List α} {P : α → Prop} (h : ∃ a ∈ l, P a) :
    ∃ before a after, l = before ++ a :: after ∧ (∀ x ∈ before, ¬ P x) ∧ P a := by
  induction l with
  | nil => obtain ⟨a, ha, -⟩ := h; cases ha
  | cons x l ih =>
    by_cases hx : P x
    · exact ⟨[], x, l, rfl, by simp, hx⟩
    · obtain ⟨a, ha, hp⟩ := h
      rcases List.mem_cons.1 ha with rfl | ha
      · exact absurd hp hx
      · obtain ⟨b, y, c, rfl, h2, h3⟩ := ih ⟨a, ha, hp⟩
        refine ⟨x :: b, y, c, rfl, ?_, h3⟩
        intro z hz
        rcases List.mem_cons.1 hz with rfl | hz
        · exact hx
        · exact h2 z hz

/-- Every command line has a reading. -/
theorem reading_exists (ho : Ordinary mode) (fuel : Nat) : ∀ (sofar : List Leaf) (used : List Nat)
    (args : List Token) (matched : List Bool) (s : St), Tracks mode used matched →
    weight args < 2 ^ 63 → (Expanding mode → ∀ t ∈ args, Readable cfg t) →
    (modeLoop cfg mode parents fuel ⟨mode, [], sofar⟩ matched args s).1 ≠ .diverge →
    ∃ r chosen, Reading cfg mode s.sel sofar used args r chosen := by
  induction fuel with
  | zero =>
    intro sofar used args matched s ht hw hread hne
    cases args with
    | nil => exact ⟨_, _, .done⟩
    | cons t rest => exact absurd rfl hne
  | succ fuel ih =>
    intro sofar used args matched s ht hw hread hne
    cases args with
    | nil => exact ⟨_, _, .done⟩
    | cons t rest =>
      by_cases hex : ∃ a ∈ arguments mode, Wants cfg mode sofar used t rest a
      · obtain ⟨before, a, after, h1, h2, h3⟩ := first_of_exists hex
        have hf : First cfg mode sofar used t rest a := ⟨before, after, h1, h2, h3⟩
        by_cases hk : ∃ o, Clashes mode s.sel a o
        · obtain ⟨o, hk⟩ := hk
          exact ⟨_, _, .clash hf hk⟩
        · have hk : ∀ o, ¬ Clashes mode s.sel a o := fun o ho => hk ⟨o, ho⟩
          by_cases hav : Available used a
          · obtain ⟨⟨cl, hcl⟩, -⟩ := h3
            cases cl with
            | refuses e => exact ⟨_, _, .refused hf hk hav hcl⟩
            | takes uses left =>
              have := ((modeLoop_step (cfg := cfg) (parents := parents) ho ht hw
                (fun h => hread h t (by simp)) fuel s).1 a hf).2.2 hk hav _ hcl
              simp only at this
              rw [this] at hne
              obtain ⟨sh, hd, hcl'⟩ := hcl
              obtain ⟨h4, h5⟩ := takes_left hd hcl'
              obtain ⟨r, ch, hr⟩ := ih _ (a.1 :: used) _ _ { s with sel := choose mode s.sel a }
                (ht.set a.1) (by omega) (fun h => h5 (hread h)) hne
              exact ⟨r, ch, .take hf hk hav ⟨sh, hd, hcl'⟩ hr⟩
          · exact ⟨_, _, .again hf hk hav⟩
      · have hno : ∀ a ∈ arguments mode, ¬ Wants cfg mode sofar used t rest a :=
          fun a ha hwnt => hex ⟨a, ha, hwnt⟩
        by_cases hu : ∀ i, i < mode.children.length → i ∈ used
        · exact ⟨_, _, .unhandled hno hu⟩
        · refine ⟨_, _, .unknown hno ?_⟩
          simp only [Classical.not_forall] at hu
          obtain ⟨i, hi, hiu⟩ := hu
          exact ⟨i, hi, hiu⟩

end

end ArgRouter
