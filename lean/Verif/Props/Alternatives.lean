import Verif.Props.Default
import Verif.Props.Route

/-!
# C14 – alternatives in programs that compile

The rules of the default validator keep groups out of groups, and the assertions of `one_of` keep
arguments that collect several uses out of it. So, in a program that compiles, no command line is
accepted in which a `one_of` is given twice, not even through aliases.
-/

namespace ArgRouter

namespace Props

open Spec

section
variable {cfg : Config} {depth : Nat} {root : Node}

/-- The alternatives of a group in a program that compiles are arguments: neither groups nor modes,
and nothing is below them. -/
theorem C14_never_nested (hc : compiles cfg depth defaultRules root = true) {o c : Node}
    (ho : o ∈ root.nodes) (hk : o.kind = .oneOf ∨ o.kind = .aliasGroup) (hcm : c ∈ o.children) :
    c.kind ≠ .oneOf ∧ c.kind ≠ .aliasGroup ∧ c.kind ≠ .mode ∧ c.kind ≠ .help ∧
      c.children = [] := by
  obtain ⟨p, hp⟩ := mem_nodes.1 ho
  obtain ⟨-, h, -⟩ := (C102_compiles cfg root).1 ⟨depth, hc⟩
  obtain ⟨q, hq, hlin⟩ := lineage_child hp hcm
  obtain ⟨-, hr, ha, -⟩ := h q c hq
  have hum : ¬ UnderMode (o :: lineage root p) := by
    rintro ⟨m, above, e, hm⟩
    cases e
    rcases hk with hk | hk <;> rw [hk] at hm <;> cases hm
  have hur : ¬ UnderRoot (o :: lineage root p) := by
    rintro ⟨m, above, e, hm⟩
    cases e
    rcases hk with hk | hk <;> rw [hk] at hm <;> cases hm
  rw [hlin] at ha hr
  have hcls := class_iff.2 hr.1
  unfold NodeAllowed at ha
  cases hkc : c.kind <;> rw [hkc] at ha <;> simp only at ha
  case oneOf => exact absurd ha.2.2.2 hum
  case aliasGroup => exact absurd ha.2.2.2 hum
  case mode => rcases ha.2.2.2 with h | h <;> contradiction
  case help => exact absurd ha.2 hur
  case root => simp [classAsserts, hkc] at hcls
  all_goals
    refine ⟨by simp, by simp, by simp, by simp, ?_⟩
    simp only [classAsserts, multiArgBaseAsserts, hkc, Bool.and_eq_true, List.isEmpty_iff] at hcls
    simp only [hcls]

/-- No argument of a `one_of` collects several uses. -/
theorem oneOf_single (hc : compiles cfg depth defaultRules root = true) {o : Node}
    (ho : o ∈ root.nodes) (hk : o.kind = .oneOf) : ∀ n ∈ o.nodes, n.isMultiStage = false := by
  intro n hn
  obtain ⟨p, hp⟩ := mem_nodes.1 ho
  obtain ⟨-, h, -⟩ := (C102_compiles cfg root).1 ⟨depth, hc⟩
  obtain ⟨-, hr, ha, -⟩ := h p o hp
  have hcls := class_iff.2 hr.1
  obtain ⟨q, hq⟩ := mem_nodes.1 hn
  match q with
  | [] =>
    simp only [nodeAt, Option.some.injEq] at hq
    subst hq
    unfold NodeAllowed at ha
    rw [hk] at ha
    have := ha.1 .multiStage (by simp)
    rw [← Bool.not_eq_true]
    intro hm
    apply this
    obtain ⟨m, hm⟩ := merging_iff.1 hm
    exact ⟨_, hm, .multiStage⟩
  | i :: q =>
    simp only [nodeAt] at hq
    cases hi : o.children[i]? with
    | none => rw [hi] at hq; cases hq
    | some c =>
      rw [hi] at hq
      have hcm : c ∈ o.children := List.mem_of_getElem? hi
      have hnil := (C14_never_nested hc ho (.inl hk) hcm).2.2.2.2
      cases q with
      | nil =>
        simp only [nodeAt, Option.some.injEq] at hq
        subst hq
        simp only [classAsserts, hk, Bool.and_eq_true, List.all_eq_true] at hcls
        simpa using hcls.1.2 c hcm
      | cons j q => simp [nodeAt, hnil] at hq

/-- C14 for programs that compile: if a mode's router is called, then of each of its `one_of` children
at most one alternative was given, and that once – whichever names or aliases were used for it. The
router gets the value of that one use, or the fallback of the `one_of` if there was none. -/
theorem C14_accepted (hc : compiles cfg depth defaultRules root = true) {mode : Node}
    (hm : mode ∈ root.nodes) (uses : List Leaf) (s s' : St)
    (hhelp : ∀ l ∈ uses, l.node.kind ≠ .help) (h : parseMode mode uses s = (.ok (), s'))
    (i : Nat) (o : Node) (hi : mode.children[i]? = some o) (hk : o.kind = .oneOf) :
    ∃ values v, RoutedWith mode s' values ∧ values[position mode.children i]? = some v ∧
      ((NotGiven mode.children uses i ∧ Fallback o v) ∨
        ∃ l, GivenOnce mode.children uses i l ∧ UseValue l v) := by
  have hcm : o ∈ mode.children := List.mem_of_getElem? hi
  have ho : o ∈ root.nodes := nodes_trans _ _ hm _ (child_mem_nodes hcm _ (self_mem_nodes _))
  obtain ⟨p, hp⟩ := mem_nodes.1 ho
  obtain ⟨-, hall, -⟩ := (C102_compiles cfg root).1 ⟨depth, hc⟩
  obtain ⟨-, hr, ha, -⟩ := hall p o hp
  have hcls := hr.1
  have hno : o.hasNoResult = false := by
    unfold NodeAllowed at ha
    rw [hk] at ha
    have := ha.1 .noResult (by simp)
    rw [← Bool.not_eq_true]
    intro hn
    rcases noValue_iff.1 hn with hn | ⟨refs, hn⟩
    · exact this ⟨_, hn, .noResult⟩
    · have hcls := class_iff.2 hcls
      simp only [classAsserts, basicOneOfAsserts, hk, Bool.and_eq_true, Node.noPhase,
        List.all_cons, List.all_nil, List.any_eq_true, Bool.not_eq_true', List.any_eq_false] at hcls
      have := hcls.1.1.2.1 _ hn
      simp [Policy.hasPreParsePhase] at this
  obtain ⟨values, h1, -, h3⟩ := C20_router_arguments mode uses s s' hhelp h
  obtain ⟨v, h4, h5⟩ := h3 i o hi hno (oneOf_single hc ho hk)
  exact ⟨values, v, h1, h4, h5⟩

end

namespace AltEx

/-- A mode with two alternatives, and an alias for the second. -/
def certA : Node := mkArg 71 71 ⟨false, .one (.str []), fun s => .ok (.str s)⟩ [.longName (b "cert")]
def anonA : Node := mkFlag .default 72 72 [.longName (b "anonymous")]
def guestA : Node := mkFlag .default 73 73 [.longName (b "guest"), .alias [.long (b "anonymous")]]
def loginA : Node := mkOneOf .default 74 74 ⟨false, .one (.str []), fun s => .ok (.str s)⟩ [.required]
  [certA, anonA]
def altMode : Node := mkMode 75 75 [.router] [loginA, guestA]
def altRoot : Node := mkRoot 76 76 [altMode]

end AltEx

open AltEx

/-- C14 is false of programs that compile, in the error only: after `--cert x`, the alias `--guest` of
the other alternative is refused, but not as another alternative. -/
theorem C14_alias_compiled_false :
    compiles .default 100 defaultRules altRoot = true ∧
    (parseArgs .default altRoot [b "--cert", b "x", b "--anonymous"] .fresh).1 =
      .throw ⟨.one_of_selected_type_mismatch, [loginA.tokenType]⟩ ∧
    (parseArgs .default altRoot [b "--cert", b "x", b "--guest"] .fresh).1 =
      .throw ⟨.argument_has_already_been_set, [⟨.long, b "anonymous"⟩]⟩ := by
  decide +kernel

example : compiles .default 100 defaultRules altRoot = true ∧
    (parseArgs .default altRoot [b "--guest"] .fresh).1 = .ok () ∧
    (parseMode altMode [⟨anonA, []⟩] .fresh).1 = .ok () := by decide +kernel

example : altMode ∈ altRoot.nodes ∧ loginA.kind = .oneOf ∧ altMode.children[0]? = some loginA :=
  ⟨by simp [altRoot, mkRoot, nodes_mk, nodesList, altMode, mkMode], rfl, rfl⟩

end Props

end ArgRouter
