import Verif.Lemmas.Monad
import Verif.Props.Token
import Verif.Props.Adapter

/-!
# Lemmas about the pre-parse of leaf nodes
-/

namespace ArgRouter

open Props Spec

/-! ## Sorting by priority -/

theorem insertPriority_perm (p : Policy) (l : List Policy) : (insertPriority p l).Perm (p :: l) := by
  induction l with
  | nil => exact List.Perm.refl _
  | cons q qs ih =>
    simp only [insertPriority]
    split
    · exact List.Perm.refl _
    · exact (ih.cons q).trans (List.Perm.swap p q qs)

theorem sortPolicies_perm (l : List Policy) : (sortPolicies l).Perm l := by
  induction l with
  | nil => exact List.Perm.refl _
  | cons p ps ih => exact (insertPriority_perm p _).trans (ih.cons p)

theorem mem_sortPolicies {p : Policy} {l : List Policy} : p ∈ sortPolicies l ↔ p ∈ l :=
  (sortPolicies_perm l).mem_iff

/-- Descending priority. -/
def Desc (l : List Policy) : Prop := l.Pairwise fun p q => q.priority ≤ p.priority

theorem insertPriority_desc {p : Policy} {l : List Policy} (h : Desc l) :
    Desc (insertPriority p l) := by
  induction l with
  | nil => simp [insertPriority, Desc]
  | cons q qs ih =>
    have h' := List.pairwise_cons.1 h
    simp only [insertPriority]
    split
    · rename_i hle
      refine List.pairwise_cons.2 ⟨?_, h⟩
      intro x hx
      rcases List.mem_cons.1 hx with rfl | hx
      · exact hle
      · exact Nat.le_trans (h'.1 x hx) hle
    · rename_i hle
      refine List.pairwise_cons.2 ⟨?_, ih h'.2⟩
      intro x hx
      rcases List.mem_cons.1 ((insertPriority_perm p qs).mem_iff.1 hx) with rfl | hx
      · omega
      · exact h'.1 x hx

theorem sortPolicies_desc (l : List Policy) : Desc (sortPolicies l) := by
  induction l with
  | nil => exact List.Pairwise.nil
  | cons p ps ih => exact insertPriority_desc ih

theorem insertPriority_filter_neg (f : Policy → Bool) {p : Policy} (l : List Policy)
    (hp : f p = false) : (insertPriority p l).filter f = l.filter f := by
  induction l with
  | nil => simp [insertPriority, hp]
  | cons q qs ih =>
    simp only [insertPriority]
    split
    · simp [hp]
    · simp only [List.filter_cons, ih]

theorem insertPriority_head {p : Policy} {l : List Policy}
    (h : ∀ q ∈ l, q.priority ≤ p.priority) : insertPriority p l = p :: l := by
  cases l with
  | nil => rfl
  | cons q qs => simp [insertPriority, h q List.mem_cons_self]

theorem insertPriority_filter (f : Policy → Bool) {p : Policy} {l : List Policy} (hd : Desc l)
    (hp : f p = true) : (insertPriority p l).filter f = insertPriority p (l.filter f) := by
  induction l with
  | nil => simp [insertPriority, hp]
  | cons q qs ih =>
    have hd' := List.pairwise_cons.1 hd
    simp only [insertPriority]
    split
    · rename_i hle
      rw [List.filter_cons_of_pos hp]
      refine (insertPriority_head ?_).symm
      intro x hx
      have hx := (List.mem_filter.1 hx).1
      rcases List.mem_cons.1 hx with rfl | hx
      · exact hle
      · exact Nat.le_trans (hd'.1 x hx) hle
    · rename_i hle
      by_cases hq : f q = true
      · rw [List.filter_cons_of_pos hq, List.filter_cons_of_pos hq, ih hd'.2]
        simp [insertPriority, hle]
      · rw [List.filter_cons_of_neg hq, List.filter_cons_of_neg hq, ih hd'.2]

theorem sortPolicies_filter (f : Policy → Bool) (l : List Policy) :
    (sortPolicies l).filter f = sortPolicies (l.filter f) := by
  induction l with
  | nil => rfl
  | cons p ps ih =>
    simp only [sortPolicies]
    by_cases hp : f p = true
    · rw [insertPriority_filter f (sortPolicies_desc ps) hp, List.filter_cons_of_pos hp, ih]; rfl
    · rw [insertPriority_filter_neg f _ (by simpa using hp), List.filter_cons_of_neg hp, ih]

/-- An error or a skip ends the phases. -/
theorem runPhases_error (cfg : Config) (owner : Node) (parents : List Node)
    (processed : Option Target) (ps : List Policy) (e : Exc) (a : Adapter) (subs : List Leaf) :
    runPhases cfg owner parents processed ps (.error e) a subs = .ok (.error e, a, subs) := by
  induction ps with
  | nil => rfl
  | cons p ps ih =>
    simp only [runPhases]
    split
    · rfl
    · exact ih

theorem runPhases_skip (cfg : Config) (owner : Node) (parents : List Node)
    (processed : Option Target) (ps : List Policy) (a : Adapter) (subs : List Leaf) :
    runPhases cfg owner parents processed ps (.ok .skipNode) a subs =
      .ok (.ok .skipNode, a, subs) := by
  induction ps with
  | nil => rfl
  | cons p ps ih =>
    simp only [runPhases]
    split
    · rfl
    · exact ih

/-- Policies that play no part in matching change nothing. -/
theorem runPhases_filter (cfg : Config) (owner : Node) (parents : List Node)
    (processed : Option Target) (ps : List Policy) (m : PreResult) (a : Adapter)
    (subs : List Leaf) :
    runPhases cfg owner parents processed ps m a subs =
      runPhases cfg owner parents processed (ps.filter Policy.matters) m a subs := by
  induction ps generalizing m a subs with
  | nil => rfl
  | cons p ps ih =>
    by_cases hp : p.matters = true
    · rw [List.filter_cons_of_pos hp]
      simp only [runPhases]
      match m with
      | .error e => simp only [ih]
      | .ok .skipNode => simp only [ih]
      | .ok .validNode => simp only [ih]
      | .ok .skipNodeButUseSubTargets => simp only [ih]
    · rw [List.filter_cons_of_neg hp, ← ih]
      simp only [runPhases]
      by_cases hpp : p.hasPreParse = true
      · rw [if_pos hpp]
        match m with
        | .error e => rw [runPhases_error]
        | .ok .skipNode => rw [runPhases_skip]
        | .ok .validNode =>
          cases p with
          | runtimeEnable e =>
            have : e = true := by simpa [Policy.matters] using hp
            subst this; rfl
          | runtimeEnableRequired e v =>
            have : e = true := by simpa [Policy.matters] using hp
            subst this; rfl
          | _ => simp_all [Policy.matters, Policy.hasPreParse]
        | .ok .skipNodeButUseSubTargets =>
          cases p with
          | runtimeEnable e =>
            have : e = true := by simpa [Policy.matters] using hp
            subst this; rfl
          | runtimeEnableRequired e v =>
            have : e = true := by simpa [Policy.matters] using hp
            subst this; rfl
          | _ => simp_all [Policy.matters, Policy.hasPreParse]
      · rw [if_neg hpp]

/-- The policies of a node that take part in matching, in the order they run. -/
def Node.phases (n : Node) : List Policy := sortPolicies (n.policies.filter Policy.matters)

theorem runPhases_phases (cfg : Config) (n : Node) (parents : List Node)
    (processed : Option Target) (m : PreResult) (a : Adapter) (subs : List Leaf) :
    runPhases cfg n parents processed (sortPolicies n.policies) m a subs =
      runPhases cfg n parents processed n.phases m a subs := by
  rw [runPhases_filter, sortPolicies_filter]; rfl

theorem sortPolicies_of_perm {l l' : List Policy} (h : l.Perm l')
    (hd : (l'.map Policy.priority).Nodup) : sortPolicies l = sortPolicies l' := by
  have hp : (sortPolicies l).Perm (sortPolicies l') :=
    (sortPolicies_perm l).trans (h.trans (sortPolicies_perm l').symm)
  refine hp.eq_of_pairwise ?_ (sortPolicies_desc l) (sortPolicies_desc l')
  intro p q hpm hqm h1 h2
  have hpq : p.priority = q.priority := Nat.le_antisymm h2 h1
  have hp' : p ∈ l' := h.mem_iff.1 (mem_sortPolicies.1 hpm)
  have hq' : q ∈ l' := mem_sortPolicies.1 hqm
  clear hp h hpm hqm h1 h2
  induction l' with
  | nil => cases hp'
  | cons x xs ih =>
    simp only [List.map_cons, List.nodup_cons, List.mem_map, not_exists, not_and] at hd
    rcases List.mem_cons.1 hp' with e1 | hp2
    · rcases List.mem_cons.1 hq' with e2 | hq2
      · rw [e1, e2]
      · exact absurd (by rw [← e1, hpq]) (hd.1 q hq2)
    · rcases List.mem_cons.1 hq' with e2 | hq2
      · exact absurd (by rw [← e2, hpq]) (hd.1 p hp2)
      · exact ih hd.2 hp2 hq2

theorem Spec.MatchPolicies.phases {n : Node} {ps : List Policy} (h : MatchPolicies n ps)
    (hd : (ps.map Policy.priority).Nodup) : n.phases = sortPolicies ps :=
  sortPolicies_of_perm h hd

/-- One step from the valid state. -/
theorem runPhases_cons_valid (cfg : Config) (owner : Node) (parents : List Node)
    (processed : Option Target) (p : Policy) (ps : List Policy) (a : Adapter) (subs : List Leaf)
    (hp : p.hasPreParse = true) :
    runPhases cfg owner parents processed (p :: ps) (.ok .validNode) a subs =
      (p.phase cfg owner parents processed a subs).bind fun (m', a, subs) =>
        runPhases cfg owner parents processed ps m' a subs := by
  simp only [runPhases, hp, if_true]
  rfl

/-! ## The label -/

/-- The label test on a token. -/
def labelTest (cfg : Config) (n : Node) (t : Token) : Bool :=
  n.matchToken (if t.pre == .none then n.getToken cfg t.name else t)

theorem labelTest_iff (cfg : Config) (n : Node) (t : Token) :
    labelTest cfg n t = true ↔ IsLabel cfg n t := C02_label cfg n t

theorem IsLabel.named {cfg : Config} {n : Node} {t : Token} (h : IsLabel cfg n t) :
    n.isNamed = true := by
  simp only [Node.isNamed, Bool.or_eq_true]
  unfold IsLabel at h
  split at h
  · rcases h with ⟨l, h, -⟩ | ⟨x, h, -⟩ | ⟨h, -⟩ <;> simp [h]
  · simp [h]
  · simp [h]

/-- `checkLabel` on an adapter whose single list is known, when the label has to be checked. -/
theorem checkLabel_named {cfg : Config} {n : Node} {m : PreResult} {a : Adapter}
    (hn : n.isNamed = true) (h1 : m ≠ .ok .skipNode) (h2 : m ≠ .ok .skipNodeButUseSubTargets) :
    checkLabel cfg n m a =
      match tokenSeq a with
      | [] => none
      | t :: _ => if labelTest cfg n t then
          some ⟨(if t.pre == .none then n.getToken cfg t.name else t) ::
            (tokenSeq a).tail.take (a.processed.length - 1),
            (tokenSeq a).tail.drop (a.processed.length - 1)⟩ else none := by
  unfold checkLabel
  have hm : (∃ e, m = .error e) ∨ m = .ok .validNode := by
    match m, h1, h2 with
    | .error e, _, _ => exact .inl ⟨e, rfl⟩
    | .ok .validNode, _, _ => exact .inr rfl
    | .ok .skipNode, h, _ => exact absurd rfl h
    | .ok .skipNodeButUseSubTargets, _, h => exact absurd rfl h
  obtain ⟨P, U⟩ := a
  rcases hm with ⟨e, rfl⟩ | rfl
  all_goals
    simp only [hn, if_true]
    cases P with
    | nil =>
      cases U with
      | nil => rfl
      | cons u us => simp only [tokenSeq, labelTest]; rfl
    | cons p ps =>
      simp only [tokenSeq, labelTest, List.cons_append, List.length_cons, Nat.add_sub_cancel,
        List.tail_cons]
      simp

theorem checkLabel_unnamed {cfg : Config} {n : Node} {m : PreResult} {a : Adapter}
    (hn : n.isNamed = false) (h1 : m ≠ .ok .skipNode) : checkLabel cfg n m a = some a := by
  unfold checkLabel
  match m, h1 with
  | .error e, _ => simp [hn]
  | .ok .validNode, _ => simp [hn]
  | .ok .skipNodeButUseSubTargets, _ => rfl

/-! ## The leaf pre-parse -/

/-- What `leafPreParse` does once the phases have run. -/
def leafTail (cfg : Config) (n : Node) (validator : Validator) (m : PreResult) (a : Adapter)
    (subs : List Leaf) : M (Option (Target × List Token)) :=
  match checkLabel cfg n m a with
  | none => pure none
  | some a => do
    if !(← validator n) then pure none
    else
      match m with
      | .error e => M.throw e
      | .ok _ =>
        let tokens := if n.isNamed then a.processed.tail else a.processed
        pure (some (⟨n, tokens, subs⟩, a.unprocessed))

theorem leafPreParse_eq (cfg : Config) (n : Node) (parents : List Node) (args : List Token)
    (processed : Option Target) (validator : Validator) :
    leafPreParse cfg n parents args processed validator =
      M.lift (runPhases cfg n parents processed n.phases (.ok .validNode) ⟨[], args⟩ []) >>=
        fun (m, a, subs) => leafTail cfg n validator m a subs := by
  unfold leafPreParse
  rw [runPhases_phases]
  rfl

/-! ## The phases one at a time, on the single list -/

theorem minMaxCountPhase_cases (owner : Node) (mn mx : Nat) (a : Adapter) :
    (∃ ec, minMaxCountPhase owner mn mx a = (.error ⟨ec, [owner.tokenType]⟩, a) ∧
      (ec = .maximum_count_exceeded ∨ ec = .minimum_count_not_reached)) ∨
    (∃ it, minMaxCountPhase owner mn mx a = (.ok .validNode, a.transfer it)) := by
  unfold minMaxCountPhase
  simp only
  generalize (if mn = sizeMax then mn else mn + if owner.isNamed = true then 1 else 0) = x
  generalize (if mx = sizeMax then mx else mx + if owner.isNamed = true then 1 else 0) = y
  generalize (if owner.hasTokenEndMarker = true then a.processed.length else a.size) = z
  split
  · exact .inl ⟨_, rfl, .inl rfl⟩
  · split
    · exact .inl ⟨_, rfl, .inr rfl⟩
    · exact .inr ⟨_, rfl⟩

/-- The result of the counting phase when there is no end marker. -/
theorem minMaxCountPhase_eq {owner : Node} {mn mx : Nat} {a : Adapter}
    (hm : owner.hasTokenEndMarker = false) (hmx : mx ≤ sizeMax)
    (hlen : a.size < 2 ^ 63) (hpos : owner.isNamed = true ∨ 0 < mx) :
    minMaxCountPhase owner mn mx a =
      if a.size < mn + (if owner.isNamed then 1 else 0) then
        (.error ⟨.minimum_count_not_reached, [owner.tokenType]⟩, a)
      else (.ok .validNode,
        ⟨(tokenSeq a).take (max (min (mx + (if owner.isNamed then 1 else 0)) a.size)
            a.processed.length),
          (tokenSeq a).drop (max (min (mx + (if owner.isNamed then 1 else 0)) a.size)
            a.processed.length)⟩) := by
  have hsm : sizeMax = 18446744073709551615 := by decide
  unfold minMaxCountPhase
  simp only [hm, Bool.false_and, Bool.false_eq_true, if_false]
  generalize hoff : (if owner.isNamed then 1 else 0) = off at *
  have hoff' : (off = 1 ∧ owner.isNamed = true) ∨ (off = 0 ∧ 0 < mx) := by
    by_cases h : owner.isNamed = true
    · left; simp [h] at hoff; exact ⟨hoff.symm, h⟩
    · right; simp [h] at hoff hpos; exact ⟨hoff.symm, hpos⟩
  have c1 : (a.size < if mn = sizeMax then mn else mn + off) ↔ a.size < mn + off := by
    split <;> omega
  simp only [c1]
  split
  · rfl
  · rename_i hge
    have hproc : a.processed.length ≤ a.size := by simp [Adapter.size]
    congr 1
    by_cases h0 : a.size = 0
    · -- no tokens at all (only possible for an unnamed node)
      have hs0 : tokenSeq a = [] := List.length_eq_zero_iff.1 (by rw [← size_eq]; exact h0)
      have hsp : sizePred a.size = sizeMax := by simp [sizePred, h0]
      have hboth : a.processed = [] ∧ a.unprocessed = [] := by
        simpa [tokenSeq] using hs0
      have : ∀ it, a.transfer it = a := by
        intro it
        have h1 := (C04_transfer_any a it).1
        rw [hs0] at h1
        have : (a.transfer it).processed = [] ∧ (a.transfer it).unprocessed = [] := by
          simpa [tokenSeq] using h1
        cases ha : a.transfer it
        rw [ha] at this
        cases a
        simp_all
      rw [this]
      cases a; simp_all
    · have hsp : sizePred a.size = a.size - 1 := by simp [sizePred, h0]
      have hmm : ∃ mc, (if mx = sizeMax then mx else mx + off) = mc ∧ 0 < mc ∧
          min (mc - 1) (a.size - 1) = min (mx + off) a.size - 1 := by
        refine ⟨_, rfl, ?_, ?_⟩
        · split <;> omega
        · split <;> omega
      obtain ⟨mc, e1, e2, e3⟩ := hmm
      rw [e1, hsp]
      have hmc : sizePred mc = mc - 1 := by simp [sizePred]; omega
      rw [hmc, e3]
      have hd : toDiff (min (mx + off) a.size - 1) = ((min (mx + off) a.size - 1 : Nat) : Int) := by
        simp only [toDiff]; rw [if_pos (by omega)]
      rw [hd]
      have hlt : min (mx + off) a.size - 1 < a.size := by omega
      obtain ⟨t1, t2, t3⟩ := C04_transfer a _ hlt
      have hk : min (mx + off) a.size - 1 + 1 = min (mx + off) a.size := by omega
      rw [hk] at t2 t3
      show a.transfer (at_ _) = _
      cases hA : a.transfer (at_ (min (mx + off) a.size - 1))
      rw [hA] at t2 t3
      simp only at t2 t3
      simp only [t2, t3]

end ArgRouter
