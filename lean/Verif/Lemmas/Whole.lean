import Verif.Lemmas.Reading

/-!
# Arguments directly below the root

An argument that is neither an alias nor dependent does not look at what is around it, and a named
argument does not match an empty command line.
-/

namespace ArgRouter

open Utf8 Spec

/-- The policy looks at the nodes around its owner. -/
def Policy.looksAround : Policy → Bool
  | .alias _ => true
  | .dependent _ => true
  | _ => false

theorem phase_alone {cfg : Config} {n : Node} {ps ps' : List Node} {pr pr' : Option Target}
    {p : Policy} (h : p.looksAround = false) (a : Adapter) (subs : List Leaf) :
    p.phase cfg n ps pr a subs = p.phase cfg n ps' pr' a subs := by
  cases p <;> first | rfl | simp [Policy.looksAround] at h

theorem runPhases_alone {cfg : Config} {n : Node} {ps ps' : List Node} {pr pr' : Option Target}
    (l : List Policy) (h : ∀ p ∈ l, p.looksAround = false) (m : PreResult) (a : Adapter)
    (subs : List Leaf) :
    runPhases cfg n ps pr l m a subs = runPhases cfg n ps' pr' l m a subs := by
  induction l generalizing m a subs with
  | nil => rfl
  | cons p l ih =>
    have ih := ih fun q hq => h q (List.mem_cons_of_mem _ hq)
    unfold runPhases
    simp only [phase_alone (ps := ps) (ps' := ps') (pr := pr) (pr' := pr')
      (h p List.mem_cons_self), ih]

/-- Whatever its parents and whatever came before, it does the same. -/
theorem leafPreParse_alone {cfg : Config} {n : Node} {ps ps' : List Node} {pr pr' : Option Target}
    (h : ∀ p ∈ n.policies, p.looksAround = false) (args : List Token) (v : Validator) :
    leafPreParse cfg n ps args pr v = leafPreParse cfg n ps' args pr' v := by
  unfold leafPreParse
  rw [runPhases_alone (ps' := ps') (pr' := pr') _ fun p hp => h p (mem_sortPolicies.1 hp)]

/-- Such a policy does nothing to no arguments, and does not fail on them. -/
theorem phase_empty {cfg : Config} {n : Node} {ps : List Node} {pr : Option Target} {p : Policy}
    (h : p.looksAround = false) (subs : List Leaf) :
    ∃ m, m ≠ .ok .skipNodeButUseSubTargets ∧
      p.phase cfg n ps pr ⟨[], []⟩ subs = .ok (m, ⟨[], []⟩, subs) := by
  cases p with
  | valueSeparator s => exact ⟨_, by simp, rfl⟩
  | shortFormExpander => exact ⟨_, by simp, rfl⟩
  | runtimeEnable e => exact ⟨_, by cases e <;> simp, rfl⟩
  | runtimeEnableRequired e v => exact ⟨_, by cases e <;> simp, rfl⟩
  | tokenEndMarker m =>
    refine ⟨.ok .validNode, by simp, ?_⟩
    cases hn : n.isNamed <;>
    simp [Policy.phase, tokenEndMarkerPhase, Adapter.size, Adapter.findFrom, Adapter.itEq,
      Adapter.isEnd, Adapter.begin_, Adapter.end_, AIter.add, Adapter.transfer, Adapter.erase, hn]
  | minMaxCount mn mx =>
    have ht : ∀ it, Adapter.transfer ⟨[], []⟩ it = ⟨[], []⟩ := by
      intro it; simp [Adapter.transfer]
    have : (minMaxCountPhase n mn mx ⟨[], []⟩).2 = ⟨[], []⟩ ∧
        (minMaxCountPhase n mn mx ⟨[], []⟩).1 ≠ .ok .skipNodeButUseSubTargets := by
      unfold minMaxCountPhase
      simp only [ht]
      constructor
      · repeat' split
        all_goals rfl
      · repeat' split
        all_goals simp
    refine ⟨_, this.2, ?_⟩
    have h3 : minMaxCountPhase n mn mx ⟨[], []⟩ =
        ((minMaxCountPhase n mn mx ⟨[], []⟩).1, ⟨[], []⟩) := Prod.ext rfl this.1
    simp only [Policy.phase]
    rw [h3]
  | alias r => simp [Policy.looksAround] at h
  | dependent r => simp [Policy.looksAround] at h
  | _ => exact ⟨_, by simp, rfl⟩

theorem runPhases_empty {cfg : Config} {n : Node} {ps : List Node} {pr : Option Target}
    (l : List Policy) (h : ∀ p ∈ l, p.looksAround = false) (m : PreResult)
    (hm : m ≠ .ok .skipNodeButUseSubTargets) (subs : List Leaf) :
    ∃ m', m' ≠ .ok .skipNodeButUseSubTargets ∧
      runPhases cfg n ps pr l m ⟨[], []⟩ subs = .ok (m', ⟨[], []⟩, subs) := by
  induction l generalizing m with
  | nil => exact ⟨m, hm, rfl⟩
  | cons p l ih =>
    have ih := ih fun q hq => h q (List.mem_cons_of_mem _ hq)
    unfold runPhases
    split
    · split
      · exact ⟨_, hm, rfl⟩
      · exact ⟨_, hm, rfl⟩
      · rename_i act hact
        obtain ⟨m1, hm1, h1⟩ := phase_empty (cfg := cfg) (n := n) (ps := ps) (pr := pr)
          (h p List.mem_cons_self) subs
        rw [h1]
        simp only [Out.ok_bind]
        refine ih _ ?_
        cases act with
        | skipNode => exact hm1
        | validNode => exact hm1
        | skipNodeButUseSubTargets => exact absurd rfl hm
    · exact ih _ hm

/-- A named argument does not match an empty command line. -/
theorem leaf_empty {cfg : Config} {n : Node} {ps : List Node} {pr : Option Target}
    (h : ∀ p ∈ n.policies, p.looksAround = false) (hn : n.isNamed = true) (v : Validator) :
    leafPreParse cfg n ps [] pr v = pure none := by
  obtain ⟨m, hm, hr⟩ := runPhases_empty (cfg := cfg) (n := n) (ps := ps) (pr := pr)
    (sortPolicies n.policies) (fun p hp => h p (mem_sortPolicies.1 hp)) (.ok .validNode) (by simp) []
  unfold leafPreParse
  rw [hr, M.lift_ok_bind]
  have : checkLabel cfg n m ⟨[], []⟩ = none := by
    unfold checkLabel
    split
    · rfl
    · exact absurd rfl hm
    · rw [if_pos hn]
  simp only [this]

/-- The policies of an argument that is neither an alias nor dependent. -/
theorem declared_alone {c : Node} {sh : Shape} (h : Declared c sh) (ha : sh.aliasOf = none)
    (hn : sh.needs = none) : ∀ p ∈ c.policies, p.looksAround = false := by
  intro p hp
  cases hpl : p.looksAround with
  | false => rfl
  | true =>
    have hpm : p.matters = true := by
      cases p <;> simp [Policy.looksAround, Policy.matters] at hpl ⊢
    have hin := h.policies.mem_iff.1 (List.mem_filter.2 ⟨hp, hpm⟩)
    simp only [Shape.policies, ha, hn, Option.map_none, Option.toList_none, List.append_nil,
      List.mem_append, Option.mem_toList, Option.map_eq_some_iff, List.mem_singleton] at hin
    rcases hin with ((⟨_, _, rfl⟩ | hin) | ⟨_, _, rfl⟩) | rfl
    all_goals first
      | (simp [Policy.looksAround] at hpl; done)
      | skip
    split at hin
    · rw [List.mem_singleton.1 hin] at hpl; simp [Policy.looksAround] at hpl
    · cases hin

/-- What such an argument claims does not depend on the mode. -/
theorem claims_alone {cfg : Config} {mode mode' c : Node} {sofar sofar' : List Leaf} {sh : Shape}
    (ha : sh.aliasOf = none) (hn : sh.needs = none) {t : Token} {rest : List Token} {cl : Claim}
    (h : ClaimsAs cfg mode sofar c sh t rest cl) : ClaimsAs cfg mode' sofar' c sh t rest cl := by
  have hno : ∀ (mode : Node) (sofar : List Leaf) (d : Node), ¬ Lacks mode sofar sh d := by
    rintro mode sofar d ⟨refs, pre, post, h, -⟩
    rw [hn] at h; cases h
  have hu : ∀ vs, sh.uses mode c vs = sh.uses mode' c vs := by
    intro vs; simp only [Shape.uses, ha]
  cases h with
  | noSeparator hs hc hl => exact .noSeparator hs hc hl
  | count hl hv => exact .count hl hv
  | lacks hl hv hd => exact absurd hd (hno _ _ _)
  | takes hl hv hd => rw [hu]; exact .takes hl hv (hno _ _)

end ArgRouter
