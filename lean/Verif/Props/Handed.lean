import Verif.Props.Verbatim
import Verif.Props.WholeExamples

/-!
# C79 in whole programs

The same with several modes, aliases and collapsed short flags.
-/

namespace ArgRouter.Spec

open Utf8

/-- The values are drawn from the arguments in their order, each argument being used at most once, as
a whole or for the part after the first separator. Collapsed short flags, as `-abc`, count as one
argument for each flag; the first of them is not a value. -/
inductive Handed (cfg : Config) (separator : UInt8 → Prop) : (values : List Bytes) →
    (arguments : List Token) → Prop
  | nil : Handed cfg separator [] []
  | skip {vs : List Bytes} {as : List Token} {a : Token} (h : Handed cfg separator vs as) :
      Handed cfg separator vs (a :: as)
  | whole {vs : List Bytes} {as : List Token} {a : Token} (h : Handed cfg separator vs as) :
      Handed cfg separator (a.name :: vs) (a :: as)
  | part {vs : List Bytes} {as : List Token} {a : Token} {label v : Bytes} {ch : UInt8}
      (hs : separator ch) (ha : a.name = label ++ ch :: v) (hc : ch ∉ label)
      (h : Handed cfg separator vs as) : Handed cfg separator (v :: vs) (a :: as)
  | collapsed {vs : List Bytes} {as : List Token} {a : Token} {x g g2 : Bytes} {gs : List Bytes}
      (hx : ShortText cfg a x) (hg : graphemes x = .ok (g :: g2 :: gs))
      (h : Handed cfg separator vs ((g2 :: gs).map (Token.mk .short) ++ as)) :
      Handed cfg separator vs (a :: as)

/-- What was given in one place of the command line: the arguments it is for, and the values. -/
structure Given where
  nodes : List Node
  values : List Token

/-- The uses of arguments this is. -/
def Given.uses (g : Given) : List Leaf := g.nodes.map fun d => ⟨d, g.values⟩

/-- It is for one argument of the mode, or for the arguments that an alias in the mode stands for. -/
def Given.Proper (mode : Node) (g : Given) : Prop :=
  (∃ a ∈ arguments mode, g.nodes = [a.2]) ∨
  ∃ a ∈ arguments mode, ∃ refs, Policy.alias refs ∈ a.2.policies ∧ g.nodes = namedNodes mode refs

end ArgRouter.Spec

namespace ArgRouter.Props

open Spec

theorem handed_skips {cfg : Config} {P : UInt8 → Prop} {vs : List Bytes} {as : List Token}
    (h : Handed cfg P vs as) (as' : List Token) : Handed cfg P vs (as' ++ as) := by
  induction as' with
  | nil => exact h
  | cons a as' ih => exact .skip ih

theorem handed_wholes {cfg : Config} {P : UInt8 → Prop} {vs : List Bytes} {as : List Token}
    (h : Handed cfg P vs as) (l : List Token) : Handed cfg P (l.map Token.name ++ vs) (l ++ as) := by
  induction l with
  | nil => exact h
  | cons a l ih => exact .whole ih

/-- What one argument takes. -/
theorem claim_handed {cfg : Config} {mode c : Node} {sofar uses : List Leaf} {t : Token}
    {rest left : List Token} {P : UInt8 → Prop}
    (hP : ∀ ch, Policy.valueSeparator [ch] ∈ c.policies → P ch)
    (hc : Claims cfg mode sofar c t rest (.takes uses left)) :
    ∃ g : Given, uses = g.uses ∧
      (g.nodes = [c] ∨ ∃ refs, Policy.alias refs ∈ c.policies ∧ g.nodes = namedNodes mode refs) ∧
      ∀ vs, Handed cfg P vs left → Handed cfg P (g.values.map Token.name ++ vs) (t :: rest) := by
  obtain ⟨sh, hd, hcl⟩ := hc
  have hmem : ∀ p ∈ sh.policies, p ∈ c.policies := fun p hp =>
    (List.mem_filter.1 (hd.policies.mem_iff.2 hp)).1
  cases hcl with
  | @takes follows vs' _ hl hv hlk =>
  have hfollows : ∀ vs, Handed cfg P vs left → Handed cfg P (vs'.map Token.name ++ vs) follows := by
    intro vs h
    obtain ⟨mid, hmid⟩ := values_parts hv
    rw [hmid, List.append_assoc]
    exact handed_wholes (handed_skips h _) _
  have hall : ∀ vs, Handed cfg P vs left → Handed cfg P (vs'.map Token.name ++ vs) (t :: rest) := by
    intro vs h
    cases hl with
    | label hs hl => exact .skip (hfollows vs h)
    | collapsed he hx hg hsn => exact .collapsed hx hg (hfollows vs h)
    | @separated ch l w hs ht hcl hv' hl =>
      obtain ⟨-, -, h1, h2, -⟩ := hd.separated (by rw [hs]; rfl)
      have hm : sh.marker = none := by
        cases hm : sh.marker with
        | none => rfl
        | some m =>
          have := (hd.marked (by rw [hm]; rfl)).1
          rw [hs] at this; cases this
      have hv2 : vs' = [⟨.none, w⟩] ∧ left = rest := by
        simp only [Shape.values, hm, h1, h2, List.length_cons, List.take_succ_cons, List.take_zero,
          List.drop_succ_cons, List.drop_zero] at hv
        rw [if_neg (by omega)] at hv
        simp only [Except.ok.injEq, Prod.mk.injEq] at hv
        exact ⟨hv.1.symm, hv.2.symm⟩
      obtain ⟨rfl, rfl⟩ := hv2
      exact .part (hP ch (hmem _ (by simp [Shape.policies, hs]))) ht hcl h
    | positional hn => exact hfollows vs h
  cases ha : sh.aliasOf with
  | none => exact ⟨⟨[c], vs'⟩, by simp [Shape.uses, ha, Given.uses], .inl rfl, hall⟩
  | some refs =>
    exact ⟨⟨namedNodes mode refs, vs'⟩, by simp [Shape.uses, ha, Given.uses],
      .inr ⟨refs, hmem _ (by simp [Shape.policies, ha]), rfl⟩, hall⟩

/-- What a mode reads. -/
theorem reading_handed {cfg : Config} {mode : Node} {chosen chosen' : Choices} {sofar : List Leaf}
    {used : List Nat} {args : List Token} {r : Result}
    (hr : Reading cfg mode chosen sofar used args r chosen') : ∀ uses, r = .accepts uses →
    ∃ given : List Given, uses = sofar ++ given.flatMap Given.uses ∧
      (∀ g ∈ given, g.Proper mode) ∧
      Handed cfg (SeparatorOf mode) (given.flatMap fun g => g.values.map Token.name) args := by
  induction hr with
  | done => intro uses h; cases h; exact ⟨[], by simp, by simp, .nil⟩
  | @take chosen chosen' sofar u used t rest left a r hf hk ha hc hr ih =>
    intro uses h
    obtain ⟨given, rfl, h1, h2⟩ := ih uses h
    obtain ⟨before, after, hargs, -, -⟩ := hf
    have hin : a ∈ arguments mode := by rw [hargs]; simp
    obtain ⟨g, rfl, hg, hh⟩ := claim_handed (P := SeparatorOf mode)
      (fun ch hch => ⟨a, hin, hch⟩) hc
    refine ⟨g :: given, by simp, ?_, ?_⟩
    · intro g' hg'
      rcases List.mem_cons.1 hg' with rfl | hg'
      · rcases hg with hg | ⟨refs, hg⟩
        · exact .inl ⟨a, hin, hg⟩
        · exact .inr ⟨a, hin, refs, hg⟩
      · exact h1 g' hg'
    · rw [List.flatMap_cons]
      exact hh _ h2
  | clash => intro uses h; cases h
  | again => intro uses h; cases h
  | refused => intro uses h; cases h
  | unhandled => intro uses h; cases h
  | unknown => intro uses h; cases h

theorem unknown_fails {cfg : Config} {n : Node} {t : Token} {s s' : St}
    (h : (M.lift (unknownArgument cfg n t) : M Unit) s = (.ok (), s')) : False := by
  simp only [unknownArgument, M.lift_apply] at h
  cases hcl : closest cfg n t with
  | ok found =>
    rw [hcl] at h
    simp only [Out.ok_bind] at h
    split at h <;> cases h
  | _ => rw [hcl] at h; cases h

/-- C79 for whole programs: if a program accepts a command line, it parses what was given, either to an
argument of the program itself or to the arguments of one of its modes. What was given in one place is
for one argument, or for those that an alias stands for. The values given, in their order, are command
line arguments as they were typed, or the parts of such after a separator; each is used at most once.
Collapsed short flags count as an argument each. -/
theorem C79_program_partial (cfg : Config) (root : Node) (argv : List Bytes) (s s' : St)
    (hprog : OrdinaryProgram root)
    (htext : (∃ n ∈ root.nodes, Policy.shortFormExpander ∈ n.policies) →
      ∀ x ∈ argv, Readable cfg ⟨.none, x⟩)
    (hlen : (argv.map List.length).sum + argv.length < 2 ^ 63)
    (h : parseArgs cfg root argv s = (.ok (), s')) :
    (∃ c ∈ root.children, ∃ vs v, parseLeaf ⟨c, vs⟩ s = (.ok v, s') ∧
      Handed cfg (fun ch => Policy.valueSeparator [ch] ∈ c.policies) (vs.map Token.name)
        (argv.map (Token.mk .none))) ∨
    ∃ mode ∈ root.nodes, mode.kind = .mode ∧ ∃ given : List Given, ∃ chosen,
      parseMode mode (given.flatMap Given.uses) { s with sel := chosen } = (.ok (), s') ∧
      (∀ g ∈ given, g.Proper mode) ∧
      Handed cfg (SeparatorOf mode) (given.flatMap fun g => g.values.map Token.name)
        (argv.map (Token.mk .none)) := by
  obtain ⟨v, hv⟩ := C88_total cfg root s.sel (argv.map (Token.mk .none))
  rw [C88_program cfg root argv v s hprog htext hlen hv] at h
  cases hv with
  | nothing => cases h
  | unknown => exact (unknown_fails h).elim
  | @child before after c a hroot hb hr =>
    have hcm : c ∈ root.children := by rw [hroot]; simp
    generalize argv.map (Token.mk .none) = args at *
    simp only [verdictOutcome] at h
    have hreads : ∀ {mode : Node} {r : Result} {rest : List Token} {chosen' : Choices},
        mode.kind = .mode → mode ∈ root.nodes → Reading cfg mode s.sel [] [] rest r chosen' →
        answerOutcome cfg (.reads mode r chosen') s = (.ok (), s') → ∀ names,
        ∃ mode ∈ root.nodes, mode.kind = .mode ∧ ∃ given : List Given, ∃ chosen,
          parseMode mode (given.flatMap Given.uses) { s with sel := chosen } = (.ok (), s') ∧
          (∀ g ∈ given, g.Proper mode) ∧
          Handed cfg (SeparatorOf mode) (given.flatMap fun g => g.values.map Token.name)
            (names ++ rest) := by
      intro mode r rest chosen' hk hm hr h names
      simp only [answerOutcome] at h
      cases r with
      | accepts uses =>
        obtain ⟨given, hu, h1, h2⟩ := reading_handed hr uses rfl
        rw [List.nil_append] at hu
        subst hu
        exact ⟨mode, hm, hk, given, chosen', h, h1, handed_skips h2 names⟩
      | fails e => cases h
      | unknown t => exact (unknown_fails h).elim
    cases hr with
    | @argument t rest l hcl =>
      obtain ⟨g, hu, hn, hh⟩ := claim_handed
        (P := fun ch => Policy.valueSeparator [ch] ∈ c.policies) (fun ch hch => hch) hcl
      have htop : TopArgument c := by
        obtain ⟨sh, hd, -⟩ := hcl
        rcases hprog c hcm with h | h | h | ⟨hk, -⟩
        · exact h
        · exact absurd h.kind hd.leaf.1
        · exact absurd h.kind hd.leaf.1
        · exact absurd hk hd.leaf.1
      rcases hn with hn | ⟨refs, hn, -⟩
      · obtain rfl : l = ⟨c, g.values⟩ := by simpa [Given.uses, hn] using hu
        refine .inl ⟨c, hcm, g.values, ?_⟩
        simp only [answerOutcome, M.bind_apply] at h
        have := hh [] .nil
        rw [List.append_nil] at this
        generalize parseLeaf ⟨c, g.values⟩ s = o at h ⊢
        obtain ⟨o, s2⟩ := o
        cases o with
        | ok v =>
          simp only [M.pure_apply, Prod.mk.injEq, true_and] at h
          subst h
          exact ⟨v, rfl, this⟩
        | _ => cases h
      · exact absurd hn (htop.alone refs).1
    | leftover => cases h
    | refused => cases h
    | @path names rest mode r chosen' hpath hsub hr =>
      obtain ⟨h1, h2, -⟩ := path_mem hpath
      exact .inr (hreads h2 (child_mem_nodes hcm _ h1) hr h names)
    | @anonymous args r chosen' hk ha hr =>
      exact .inr (hreads hk (child_mem_nodes hcm _ (self_mem_nodes c)) hr h [])

/-- The program of `C79_collapsed_false` is covered, and so is the command line that refutes the full
claim: the `x` in `-fx` is an argument of its own. -/
example : OrdinaryProgram filesRoot ∧ (∀ x ∈ [b "-fx"], Readable .default ⟨.none, x⟩) ∧
    (parseArgs .default filesRoot [b "-fx"] .fresh).1 = .ok () ∧
    Handed .default (SeparatorOf filesRoot) [b "x"] [⟨.none, b "-fx"⟩] := by
  refine ⟨program_of_test (by with_unfolding_all rfl), ?_, by decide +kernel, ?_⟩
  · intro x hx
    obtain rfl := List.mem_singleton.1 hx
    rintro y (⟨h, -⟩ | ⟨-, h, -⟩)
    · cases h
    · obtain rfl : b "fx" = y := List.append_cancel_left (as := b "-") h
      exact ⟨by decide, ⟨['f', 'x'], by decide, by decide⟩⟩
  · exact .collapsed (x := b "fx") (g := b "f") (g2 := b "x") (gs := [])
      (.inr ⟨rfl, rfl, by decide⟩) (by decide +kernel)
      (show Handed _ _ [b "x"] [⟨.short, b "x"⟩] from
        .whole (a := ⟨.short, b "x"⟩) .nil)

/-- A program with modes in modes, and one with aliases. -/
example (columns : Nat) : OrdinaryProgram gitRoot ∧
    OrdinaryProgram (exProgram Examples.basicCatFormat columns Examples.basicCat) :=
  ⟨program_of_test (by with_unfolding_all rfl), (C88_examples columns true).2.2.2.2⟩

end ArgRouter.Props
