import Verif.Props.Whole

/-!
# A test for ordinary programs

Whether a program is made of the arguments and modes of `Spec/Reading.lean` can be computed.
-/

namespace ArgRouter

open Spec

namespace Props

/-- The two policies are equal, for those that matter in a shape. -/
def samePolicy : Policy → Policy → Bool
  | .valueSeparator s, .valueSeparator s' => s == s'
  | .shortFormExpander, .shortFormExpander => true
  | .tokenEndMarker m, .tokenEndMarker m' => m == m'
  | .minMaxCount a c, .minMaxCount a' c' => a == a' && c == c'
  | .alias r, .alias r' => r == r'
  | .dependent r, .dependent r' => r == r'
  | _, _ => false

theorem samePolicy_eq {p q : Policy} (h : samePolicy p q = true) : p = q := by
  cases p <;> cases q <;> simp_all [samePolicy]

def samePolicies : List Policy → List Policy → Bool
  | [], [] => true
  | p :: ps, q :: qs => samePolicy p q && samePolicies ps qs
  | _, _ => false

theorem samePolicies_eq : ∀ {ps qs : List Policy}, samePolicies ps qs = true → ps = qs
  | [], [], _ => rfl
  | [], _ :: _, h => by cases h
  | _ :: _, [], h => by cases h
  | p :: ps, q :: qs, h => by
    simp only [samePolicies, Bool.and_eq_true] at h
    rw [samePolicy_eq h.1, samePolicies_eq h.2]

/-- The shape with these policies. -/
def shapeOf (c : Node) : Shape where
  separator := c.policies.findSome? fun | .valueSeparator s => s.head? | _ => none
  expands := c.policies.any fun | .shortFormExpander => true | _ => false
  marker := c.policies.findSome? fun | .tokenEndMarker s => some s | _ => none
  min := (c.minMaxCount.getD (0, 0)).1
  max := (c.minMaxCount.getD (0, 0)).2
  aliasOf := c.policies.findSome? fun | .alias r => some r | _ => none
  needs := c.policies.findSome? fun | .dependent r => some r | _ => none

/-- Neither a mode nor a group. -/
def isLeaf (c : Node) : Bool := c.kind != .mode && c.kind != .aliasGroup && c.kind != .oneOf

theorem isLeaf_iff {c : Node} (h : isLeaf c = true) :
    c.kind ≠ .mode ∧ c.kind ≠ .aliasGroup ∧ c.kind ≠ .oneOf := by
  simpa [isLeaf, and_assoc] using h

def declaredTest (c : Node) : Bool :=
  let sh := shapeOf c
  samePolicies c.phases sh.policies && isLeaf c && decide (sh.max ≤ sizeMax) &&
  (!sh.separator.isSome || (c.isNamed && c.noneName == none && sh.min == 1 && sh.max == 1 &&
    !sh.expands)) &&
  (!sh.expands || c.isNamed) &&
  (!sh.marker.isSome || (sh.separator == none && !sh.expands &&
    (c.isNamed || sh.max == sizeMax))) &&
  (c.isNamed || decide (0 < sh.max)) &&
  (!sh.aliasOf.isSome || (c.isNamed && sh.min == sh.max && c.minMaxCount == some (sh.min, sh.max) &&
    !c.hasRouter && sh.marker == none && sh.needs == none))

theorem declared_of_test {c : Node} (h : declaredTest c = true) : Declared c (shapeOf c) := by
  simp only [declaredTest, Bool.and_eq_true] at h
  obtain ⟨⟨⟨⟨⟨⟨⟨h1, h2⟩, h3⟩, h4⟩, h5⟩, h6⟩, h7⟩, h8⟩ := h
  refine ⟨?_, isLeaf_iff h2, by simpa using h3, fun hs => ?_, fun he => ?_, fun hm => ?_,
    fun hn => ?_, fun ha => ?_⟩
  · unfold MatchPolicies
    rw [← samePolicies_eq h1]
    exact (sortPolicies_perm _).symm
  · rw [hs] at h4
    simpa [and_assoc] using h4
  · rw [he] at h5
    simpa using h5
  · rw [hm] at h6
    simp only [Bool.not_true, Bool.false_or, Bool.and_eq_true, beq_iff_eq, Bool.not_eq_true',
      Bool.or_eq_true, and_assoc] at h6
    refine ⟨h6.1, h6.2.1, fun hn => h6.2.2.resolve_left (by simp [hn])⟩
  · rw [hn] at h7
    simpa using h7
  · rw [ha] at h8
    simpa [and_assoc] using h8

/-- The argument is switched off. -/
def offTest (c : Node) : Bool :=
  c.policies.any Policy.disables &&
  c.policies.all (fun | .valueSeparator _ => false | .shortFormExpander => false | _ => true)

theorem off_of_test {c : Node} (h : offTest c = true) :
    Disabled c ∧ (∀ s, Policy.valueSeparator s ∉ c.policies) ∧
      Policy.shortFormExpander ∉ c.policies := by
  simp only [offTest, Bool.and_eq_true, List.any_eq_true, List.all_eq_true] at h
  exact ⟨h.1, fun s hs => by simpa using h.2 _ hs, fun hs => by simpa using h.2 _ hs⟩

def argumentTest (c : Node) : Bool := (offTest c && isLeaf c) || declaredTest c

theorem argument_of_test {c : Node} (h : argumentTest c = true) :
    Off c ∨ Declared c (shapeOf c) := by
  simp only [argumentTest, Bool.or_eq_true, Bool.and_eq_true] at h
  rcases h with ⟨h1, h2⟩ | h
  · obtain ⟨h3, h4, h5⟩ := off_of_test h1
    refine .inl ⟨h3, isLeaf_iff h2, h4, ?_⟩
    rw [List.pairwise_iff_forall_sublist]
    rintro p q hpq ⟨rfl, -⟩
    exact h5 (hpq.subset (by simp))
  · exact .inr (declared_of_test h)

def ordinaryTest (mode : Node) : Bool :=
  ((arguments mode).isEmpty || mode.hasRouter) &&
  (arguments mode).all fun a => argumentTest a.2 && ((oneOfAt mode a).isNone || a.2.isNamed) &&
    match (shapeOf a.2).aliasOf with
    | none => true
    | some refs => !(namedNodes mode refs).isEmpty

theorem ordinary_of_test {mode : Node} (h : ordinaryTest mode = true) : Ordinary mode := by
  simp only [ordinaryTest, Bool.and_eq_true, Bool.or_eq_true, List.all_eq_true,
    List.isEmpty_iff] at h
  refine ⟨fun hne => h.1.resolve_left hne, fun a ha => ?_, fun a ha o hg => ?_⟩
  rotate_left
  · obtain ⟨⟨-, h1⟩, -⟩ := h.2 a ha
    exact h1.resolve_left (by rw [hg]; simp)
  obtain ⟨⟨h1, -⟩, h2⟩ := h.2 a ha
  rcases argument_of_test h1 with h3 | h3
  · exact .inl h3
  · refine .inr ⟨_, h3, fun refs hr => ?_⟩
    rw [hr] at h2
    simpa using h2

def repeatableTest (n : Node) : Bool :=
  n.nodes.all fun m => !m.isMultiStage || m.isGroup || (m.isNamed && m.longName != some [] &&
    m.shortName != some [] && m.noneName != some [])

theorem repeatable_of_test {n : Node} (h : repeatableTest n = true) : RepeatableNamed n := by
  intro m hm hms hg
  have := List.all_eq_true.1 h m hm
  rw [hms, hg] at this
  simpa [and_assoc] using this

def namedModeTest (m : Node) : Bool :=
  m.kind == .mode && !m.isAnonymous && (m.policies.filter Policy.matters).isEmpty

theorem namedMode_of_test {m : Node} (h : namedModeTest m = true) : NamedMode m := by
  simp only [namedModeTest, Bool.and_eq_true, beq_iff_eq, Bool.not_eq_true', List.isEmpty_iff] at h
  refine ⟨h.1.1, h.1.2, ?_⟩
  unfold MatchPolicies
  rw [h.2]

def modeTreeTest (m : Node) : Bool :=
  m.kind == .mode && m.nodes.all fun d =>
    d.kind != .mode || (namedModeTest d && ordinaryTest d && repeatableTest d)

theorem modeTree_of_test {m : Node} (h : modeTreeTest m = true) : ModeTree m := by
  simp only [modeTreeTest, Bool.and_eq_true, beq_iff_eq, List.all_eq_true] at h
  refine ⟨h.1, fun d hd hk => ?_⟩
  have := h.2 d hd
  rw [hk] at this
  simp only [bne_self_eq_false, Bool.false_or, Bool.and_eq_true] at this
  exact ⟨namedMode_of_test this.1.1, ordinary_of_test this.1.2, repeatable_of_test this.2⟩

def topTest (c : Node) : Bool :=
  (c.isNamed && c.policies.all (fun | .alias _ => false | .dependent _ => false | _ => true) &&
    argumentTest c) ||
  (c.kind == .mode && !c.isAnonymous && offTest c) ||
  modeTreeTest c ||
  (c.kind == .mode && c.isAnonymous && ordinaryTest c && repeatableTest c)

/-- The program is ordinary. -/
def programTest (root : Node) : Bool := root.children.all topTest

theorem program_of_test {root : Node} (h : programTest root = true) : OrdinaryProgram root := by
  intro c hc
  have := List.all_eq_true.1 h c hc
  simp only [topTest, Bool.or_eq_true] at this
  rcases this with ((h | h) | h) | h
  · simp only [Bool.and_eq_true, List.all_eq_true] at h
    refine .inl ⟨h.1.1, fun refs => ⟨fun hr => ?_, fun hr => ?_⟩, ?_⟩
    · simpa using h.1.2 _ hr
    · simpa using h.1.2 _ hr
    · rcases argument_of_test h.2 with h | h
      · exact .inl h
      · exact .inr ⟨_, h⟩
  · simp only [Bool.and_eq_true, beq_iff_eq, Bool.not_eq_true'] at h
    obtain ⟨h1, h2⟩ := off_of_test h.2
    exact .inr (.inl ⟨h.1.1, h.1.2, h1, h2⟩)
  · exact .inr (.inr (.inl (modeTree_of_test h)))
  · simp only [Bool.and_eq_true, beq_iff_eq] at h
    exact .inr (.inr (.inr ⟨h.1.1.1, h.1.1.2, ordinary_of_test h.1.2, repeatable_of_test h.2⟩))

end Props

end ArgRouter
