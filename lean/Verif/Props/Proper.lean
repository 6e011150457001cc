import Verif.Spec.Proper
import Verif.Props.InOneWord

/-!
# C123: a proper command line is accepted
-/

namespace ArgRouter.Props

open Spec

variable {cfg : Config} {mode root : Node} {names : List Bytes} {depth : Nat}

/-! ## It is read -/

theorem end_reading {p : TypedArg} (h : p.AtTheEnd cfg mode) {chosen : Choices} {sofar : List Leaf}
    {used : List Nat} (hg : Goes mode p chosen sofar used) :
    Reading cfg mode chosen sofar used p.tokens (.accepts (sofar ++ p.uses mode))
      (choose mode chosen p.argument) := by
  obtain ⟨before, after, h1, h2⟩ := h.first
  have hl : Labels cfg p.argument.2 p.shape ⟨.none, p.word⟩ (p.more.map (Token.mk .none))
      (⟨.none, p.word⟩ :: p.more.map (Token.mk .none)) := .positional h.positional
  have hv : p.shape.values p.argument.2 (⟨.none, p.word⟩ :: p.more.map (Token.mk .none)) =
      .ok (p.values, []) := by
    obtain ⟨h3, h4⟩ := h.count
    have h5 : (⟨.none, p.word⟩ :: p.more.map (Token.mk .none)) = p.words.map (Token.mk .none) := rfl
    simp only [Shape.values, h.unmarked]
    rw [if_neg (by rw [h5, List.length_map]; omega), h5, List.take_of_length_le (by simpa using h4),
      List.drop_of_length_le (by simpa using h4), h.values]
  have hcl : Claims cfg mode sofar p.argument.2 ⟨.none, p.word⟩ (p.more.map (Token.mk .none))
      (.takes (p.uses mode) []) := ⟨p.shape, h.declared, .takes hl hv hg.needs⟩
  refine .take (left := []) ⟨before, after, h1, ?_, ⟨_, hcl⟩, .inr hg.available⟩ hg.clash hg.available
    hcl .done
  rintro x hx ⟨⟨cl, hcl⟩, -⟩
  obtain ⟨h3, h4⟩ := h2 x hx
  exact h4 (claims_mentions h3 hcl)

theorem proper_reading (hobj : Objects mode) {all : List TypedArg} {start : Choices}
    (hp : Proper cfg mode start all) : ∀ (ps done : List TypedArg), done ++ ps = all →
    ∀ chosen : Choices, (∀ p ∈ ps, ∀ o, ¬ Clashes mode chosen p.argument o) →
    ∃ c, Reading cfg mode chosen (done.map TypedArg.use) (done.map (·.argument.1)).reverse
      (ps.flatMap TypedArg.tokens) (.accepts (all.map TypedArg.use)) c := by
  intro ps
  induction ps with
  | nil =>
    intro done he chosen _
    rw [List.append_nil] at he
    subst he
    exact ⟨_, .done⟩
  | cons p ps ih =>
    intro done he chosen hk
    have hpall : p ∈ all := by rw [← he]; simp
    obtain ⟨hal, -, -⟩ := hp.own p hpall
    have huses : p.uses mode = [p.use] := by
      unfold TypedArg.uses Shape.uses
      rw [hal]
      rfl
    have honce := hp.once
    rw [← he, List.pairwise_append] at honce
    obtain ⟨-, honce1, honce2⟩ := honce
    have hg : Goes mode p chosen (done.map TypedArg.use) (done.map (·.argument.1)).reverse := by
      refine ⟨hk p List.mem_cons_self, ?_, ?_⟩
      · by_cases hin : p.argument.1 ∈ (done.map (·.argument.1)).reverse
        · left
          obtain ⟨q, hq, hqi⟩ := List.mem_map.1 (List.mem_reverse.1 hin)
          have := (honce2 q hq p List.mem_cons_self hqi).2
          rw [onceOnly_iff] at this
          simpa using this
        · exact .inr hin
      · rintro d ⟨refs, pre, post, h1, h2, -, h4⟩
        obtain ⟨q, hq, hqd⟩ := hp.needs done p ps he.symm refs h1 d (by rw [h2]; simp)
        exact h4 (.inr ⟨q.use, List.mem_map.2 ⟨q, hq, rfl⟩, hqd⟩)
    have hnext : ∀ q ∈ ps, ∀ o, ¬ Clashes mode (choose mode chosen p.argument) q.argument o := by
      intro q hq o ho
      have hkq := hk q (List.mem_cons_of_mem _ hq)
      by_cases hi : q.argument.1 = p.argument.1
      · have heq := ((List.pairwise_cons.1 honce1).1 q hq hi.symm).1
        obtain ⟨h1, h, h2, h3⟩ := ho
        rw [heq] at h2
        unfold choose at h2
        rw [h1] at h2
        simp only at h2
        cases hlk : chosen.lookup o.uid with
        | some z =>
          rw [hlk] at h2
          exact hkq o ⟨h1, h, h2, h3⟩
        | none =>
          rw [hlk] at h2
          simp only [List.lookup_cons, beq_self_eq_true, Option.some.injEq] at h2
          exact h3 h2.symm
      · exact hkq o ((clashes_apart hobj hi chosen).1 ho)
    obtain ⟨c, hr⟩ := ih (done ++ [p]) (by rw [← he]; simp) _ hnext
    rw [List.flatMap_cons]
    rcases hp.typed done p ps he.symm with hf | ⟨rfl, hf⟩
    · refine ⟨c, piece_goes hf hg ?_⟩
      rw [huses]
      simpa using hr
    · refine ⟨choose mode chosen p.argument, ?_⟩
      have := end_reading hf hg
      rw [huses] at this
      rw [← he]
      simpa using this

/-! ## What the children get -/

theorem gives_unique {l : Leaf} {o o' : Out Value} (h : Gives l o) (h' : Gives l o') : o = o' :=
  ((gives_iff (gives_uses h) o).1 h).symm.trans ((gives_iff (gives_uses h) o').1 h')

theorem adds_unique {ps : List TypedArg} {r a b : Option Value} (ha : Adds ps r a) (hb : Adds ps r b) :
    a = b := by
  induction ha with
  | nothing => cases hb; rfl
  | once h1 h2 _ ih =>
    cases hb with
    | once _ h2' h3' =>
      cases gives_unique h2 h2'
      exact ih h3'
    | more _ hm _ =>
      rw [onceOnly_iff] at h1
      have := ((merges_iff _ _ _ _).1 hm).1
      rw [h1] at this
      cases this
  | more h2 hm _ ih =>
    cases hb with
    | once h1 _ _ =>
      rw [onceOnly_iff] at h1
      have := ((merges_iff _ _ _ _).1 hm).1
      rw [h1] at this
      cases this
    | more h2' hm' h3' =>
      cases gives_unique h2 h2'
      have := ((merges_iff _ _ _ _).1 hm).2.symm.trans ((merges_iff _ _ _ _).1 hm').2
      subst this
      exact ih h3'

/-- The uses are for their own children. -/
def OwnUses (mode : Node) (ps : List TypedArg) : Prop :=
  ∀ p ∈ ps, IsFor mode.children p.use p.argument.1 ∧
    ∀ c, mode.children[p.argument.1]? = some c → ForArgument c p.use p.argument.2

theorem isFor_unique {cs : List Node} {l : Leaf} {i j : Nat} (h : IsFor cs l i) (h' : IsFor cs l j) :
    i = j := by
  obtain ⟨_, _, h⟩ := (isFor_iff _ _ _).1 h
  obtain ⟨_, _, h'⟩ := (isFor_iff _ _ _).1 h'
  rw [h] at h'
  simp only [Option.some.injEq, Prod.mk.injEq] at h'
  exact h'.1

theorem forArgument_unique {c : Node} {l : Leaf} {n n' : Node} (h : ForArgument c l n)
    (h' : ForArgument c l n') : n = n' := by
  rw [forArgument_iff] at h h'
  rw [h] at h'
  exact Option.some.inj h'

theorem collects_gets : ∀ {ps : List TypedArg}, OwnUses mode ps → ∀ {got got' : Nat → Option Value},
    Collects mode.children (ps.map TypedArg.use) got (.ok got') →
    (∀ p ∈ ps, ∃ v, Gives p.use (.ok v)) ∧
    ∀ d ∈ valued mode.children, Adds (ps.filter fun p => p.argument.1 == d.2) (got d.2) (got' d.2) := by
  intro ps
  induction ps with
  | nil =>
    intro _ got got' h
    cases h
    exact ⟨by simp, fun d _ => .nothing⟩
  | cons p ps ih =>
    intro ho got got' h
    have ho' : OwnUses mode ps := fun q hq => ho q (List.mem_cons_of_mem _ hq)
    obtain ⟨hi, hn⟩ := ho p List.mem_cons_self
    have hval : ∀ d ∈ valued mode.children, mode.children[d.2]? = some d.1 ∧ d.1.hasNoResult = false := by
      intro d hd
      obtain ⟨h1, h2⟩ := List.mem_filter.1 hd
      exact ⟨List.mem_zipIdx_iff_getElem?.1 h1, by simpa using h2⟩
    cases h with
    | fails _ hs => cases hs
    | ignored hg hno hr =>
      obtain ⟨h1, h2⟩ := ih ho' hr
      refine ⟨fun q hq => ?_, fun d hd => ?_⟩
      · rcases List.mem_cons.1 hq with rfl | hq
        · exact ⟨_, hg⟩
        · exact h1 q hq
      · rw [List.filter_cons, if_neg]
        · exact h2 d hd
        · intro he
          have he : p.argument.1 = d.2 := by simpa using he
          obtain ⟨h3, h4⟩ := hval d hd
          rw [← he] at h3
          rw [hno _ _ hi h3] at h4
          cases h4
    | @first _ _ _ v i c n _ hg hf hon hgot hr =>
      obtain rfl := isFor_unique hi hf.child
      obtain rfl := forArgument_unique (hn c hf.at_) hf.argument
      obtain ⟨h1, h2⟩ := ih ho' hr
      refine ⟨fun q hq => ?_, fun d hd => ?_⟩
      · rcases List.mem_cons.1 hq with rfl | hq
        · exact ⟨_, hg⟩
        · exact h1 q hq
      · have h2 := h2 d hd
        rw [List.filter_cons]
        by_cases he : p.argument.1 = d.2
        · rw [if_pos (by simpa using he)]
          rw [← he] at h2 ⊢
          rw [hgot]
          simp only [put, if_true] at h2
          exact .once hon hg h2
        · rw [if_neg (by simpa using he)]
          simp only [put, if_neg (Ne.symm he)] at h2
          exact h2
    | @merged _ _ _ v r i c n _ hg hf hm hr =>
      obtain rfl := isFor_unique hi hf.child
      obtain rfl := forArgument_unique (hn c hf.at_) hf.argument
      obtain ⟨h1, h2⟩ := ih ho' hr
      refine ⟨fun q hq => ?_, fun d hd => ?_⟩
      · rcases List.mem_cons.1 hq with rfl | hq
        · exact ⟨_, hg⟩
        · exact h1 q hq
      · have h2 := h2 d hd
        rw [List.filter_cons]
        by_cases he : p.argument.1 = d.2
        · rw [if_pos (by simpa using he)]
          rw [← he] at h2 ⊢
          simp only [put, if_true] at h2
          exact .more hg hm h2
        · rw [if_neg (by simpa using he)]
          simp only [put, if_neg (Ne.symm he)] at h2
          exact h2

theorem collects_of : ∀ {ps : List TypedArg}, OwnUses mode ps →
    (ps.Pairwise fun p q => p.argument.1 = q.argument.1 → ¬ OnceOnly q.argument.2) →
    (∀ p ∈ ps, ∃ v, Gives p.use (.ok v)) → ∀ {got : Nat → Option Value},
    (∀ p ∈ ps, OnceOnly p.argument.2 → got p.argument.1 = none) →
    ∃ got', Collects mode.children (ps.map TypedArg.use) got (.ok got') := by
  intro ps
  induction ps with
  | nil => exact fun _ _ _ got _ => ⟨got, .done⟩
  | cons p ps ih =>
    intro ho hpair hgs got hgot
    obtain ⟨hpair1, hpair2⟩ := List.pairwise_cons.1 hpair
    have ih := @ih (fun q hq => ho q (List.mem_cons_of_mem _ hq)) hpair2
      (fun q hq => hgs q (List.mem_cons_of_mem _ hq))
    obtain ⟨hi, hn⟩ := ho p List.mem_cons_self
    obtain ⟨v, hg⟩ := hgs p List.mem_cons_self
    obtain ⟨⟨c, hc, -⟩, -⟩ := id hi
    have hput : ∀ (r : Option Value), ∀ q ∈ ps, OnceOnly q.argument.2 →
        put got p.argument.1 r q.argument.1 = none := by
      intro r q hq hon
      have hne : q.argument.1 ≠ p.argument.1 := fun h => hpair1 q hq h.symm hon
      simp only [put, if_neg hne]
      exact hgot q (List.mem_cons_of_mem _ hq) hon
    by_cases hno : c.hasNoResult = true
    · obtain ⟨got', h⟩ := ih (fun q hq => hgot q (List.mem_cons_of_mem _ hq))
      refine ⟨got', .ignored hg (fun i d hid hd => ?_) h⟩
      obtain rfl := isFor_unique hi hid
      rw [hc] at hd
      cases hd
      exact hno
    · have hfc : ForChild mode.children p.use p.argument.1 c p.argument.2 :=
        ⟨hi, hc, by simpa using hno, hn c hc⟩
      by_cases hon : OnceOnly p.argument.2
      · obtain ⟨got', h⟩ := ih (hput (some v))
        exact ⟨got', .first hg hfc hon (hgot p List.mem_cons_self hon) h⟩
      · have hm : Merges p.argument.2 (got p.argument.1) v
            (mergeValue p.argument.2 (got p.argument.1) v) :=
          (merges_iff _ _ _ _).2 ⟨by rw [onceOnly_iff] at hon; simpa using hon, rfl⟩
        obtain ⟨got', h⟩ := ih (hput _)
        exact ⟨got', .merged hg hfc hm h⟩

theorem oneByOne_ok {α β : Type} {does : α → Out β → Prop} {as : List α} {xs : List β} :
    OneByOne does as (.ok xs) ↔ Zip (fun a x => does a (.ok x)) as xs := by
  constructor
  · intro h
    generalize ho : Out.ok xs = o at h
    induction h generalizing xs with
    | nothing => cases ho; exact .nil
    | next h1 _ ih => cases ho; exact .cons h1 (ih rfl)
    | fails _ h => subst ho; cases h
    | later _ _ h => subst ho; cases h
  · intro h
    induction h with
    | nil => exact .nothing
    | cons h1 _ ih => exact .next h1 ih

theorem value_of_fills {ps : List TypedArg} {got : Nat → Option Value} {d : Node × Nat}
    (h : Adds (ps.filter fun p => p.argument.1 == d.2) none (got d.2)) {v : Value} :
    (Fills d.1 (got d.2) (.ok v) ∧ Checked d.1 v (.ok ())) ↔ HasValue ps d v := by
  constructor
  · rintro ⟨h1, h2⟩
    generalize hr : got d.2 = r at h h1
    generalize ho : Out.ok v = o at h1
    cases h1 with
    | given => cases ho; exact .typed h h2
    | missing => cases ho
    | fallback h3 h4 => cases ho; exact .default h h3 h4
    | refused _ _ h5 => subst ho; cases h5
  · intro hv
    cases hv with
    | typed h1 h2 =>
      rw [adds_unique h h1]
      exact ⟨.given, h2⟩
    | default h1 h2 h3 =>
      rw [adds_unique h h1]
      refine ⟨.fallback h2 h3, ?_⟩
      by_cases hrep : Repeatable d.1
      · exact .merged hrep h3
      · exact .other hrep

theorem zip_weaken {α β : Type} {R S : α → β → Prop} {as : List α} {bs : List β}
    (hw : ∀ a ∈ as, ∀ b, R a b → S a b) (h : Zip R as bs) : Zip S as bs := by
  induction h with
  | nil => exact .nil
  | cons h1 _ ih =>
    exact .cons (hw _ List.mem_cons_self _ h1) (ih fun a ha => hw a (List.mem_cons_of_mem _ ha))

theorem zip_and {α β : Type} {R S : α → β → Prop} {as : List α} {bs : List β} (h : Zip R as bs)
    (h' : Zip S as bs) : Zip (fun a x => R a x ∧ S a x) as bs := by
  induction h with
  | nil => exact .nil
  | cons h1 _ ih =>
    cases h' with
    | cons h2 h3 => exact .cons ⟨h1, h2⟩ (ih h3)

theorem checks_zip {as : List (Node × Nat)} {vals : List Value} (hlen : Zip (fun _ _ => True) as vals) :
    (∃ us, OneByOne (fun x o => Checked x.1.1 x.2 o) (as.zip vals) (.ok us)) ↔
      Zip (fun d v => Checked d.1 v (.ok ())) as vals := by
  simp only [oneByOne_ok]
  induction hlen with
  | nil => exact ⟨fun _ => .nil, fun _ => ⟨[], .nil⟩⟩
  | @cons a v l m _ _ ih =>
    constructor
    · rintro ⟨us, h⟩
      cases h with
      | @cons _ u _ us' h1 h2 => exact .cons h1 (ih.1 ⟨_, h2⟩)
    · intro h
      cases h with
      | cons h1 h2 =>
        obtain ⟨us, h3⟩ := ih.2 h2
        exact ⟨() :: us, .cons h1 h3⟩

theorem proper_does {ps : List TypedArg} {chosen : Choices} (hp : Proper cfg mode chosen ps)
    (hrouter : .router ∈ mode.policies) (vals : List Value) :
    ModeDoes mode (ps.map TypedArg.use) (.ok vals) ↔
      (∀ p ∈ ps, ∃ v, Gives p.use (.ok v)) ∧ Zip (HasValue ps) (valued mode.children) vals := by
  have ho : OwnUses mode ps := fun p hp' => (hp.own p hp').2
  constructor
  · intro h
    generalize hv : Out.ok vals = o at h
    cases h with
    | useFails _ h => subst hv; cases h
    | fillFails _ _ h => subst hv; cases h
    | checkFails _ _ _ h => subst hv; cases h
    | noRouter _ _ _ h => exact absurd hrouter h
    | @calls got vals' us h1 h2 h3 h4 =>
      cases hv
      obtain ⟨h5, h6⟩ := collects_gets ho h1
      refine ⟨h5, ?_⟩
      rw [oneByOne_ok] at h2
      have h7 := zip_and h2 ((checks_zip (zip_weaken (fun _ _ _ _ => trivial) h2)).1 ⟨us, h3⟩)
      refine zip_weaken (fun d hd v h8 => ?_) h7
      exact (value_of_fills (h6 d hd)).1 h8
  · rintro ⟨h1, h2⟩
    obtain ⟨got, h3⟩ := collects_of ho (hp.once.imp fun h he => (h he).2) h1 (got := fun _ => none)
      fun _ _ _ => rfl
    obtain ⟨-, h6⟩ := collects_gets ho h3
    have h7 := zip_weaken (fun d hd v h8 => (value_of_fills (h6 d hd)).2 h8) h2
    obtain ⟨us, h8⟩ := (checks_zip (zip_weaken (fun _ _ _ _ => trivial) h7)).2 (zip_weaken (fun _ _ _ h => h.2) h7)
    exact .calls h3 (oneByOne_ok.2 (zip_weaken (fun _ _ _ h => h.1) h7)) h8 hrouter

/-! ## C123 -/

section
variable (hc : compiles cfg depth defaultRules root = true) (hu : Conventional root)
  (hobj : (root.nodes.map Node.uid).Nodup)
include hc hu hobj

/-- The run of a proper command line. -/
theorem proper_run {ps : List TypedArg} (s : St) (hl : LedTo cfg root mode names (typed ps))
    (hp : Proper cfg mode s.sel ps) (htext : ∀ x ∈ names ++ typed ps, Readable cfg ⟨.none, x⟩)
    (hlen : ((names ++ typed ps).map List.length).sum + (names ++ typed ps).length < 2 ^ 63) :
    (∀ p ∈ ps, HasUses p.argument.2) ∧ ∃ ch, parseArgs cfg root (names ++ typed ps) s =
      ended (called mode (modeOf mode (ps.map TypedArg.use))) { s with sel := ch } := by
  obtain ⟨hm, hk⟩ := ledTo_mem hl
  obtain ⟨c, hr⟩ := proper_reading (objects_below hobj hm) hp ps [] rfl s.sel hp.alternatives
  have huses := reading_uses ⟨_, hc⟩ hm hk hr (fun l hl => nomatch hl) _ rfl
  refine ⟨fun p hp => (huses p.use (List.mem_map.2 ⟨p, hp, rfl⟩)).1, c, ?_⟩
  have hr' := hr
  rw [← typed_tokens] at hr'
  rw [led_run hc hu hl s htext hlen hr']
  exact accepted_outcome hc hm hk hr _

/-- C123: a proper command line is accepted exactly if each argument typed has a value, and so has every
child of the mode. Then the router of the mode is called once, with these values. -/
theorem C123_accepted {ps : List TypedArg} (s : St) (hl : LedTo cfg root mode names (typed ps))
    (hp : Proper cfg mode s.sel ps) (hrouter : .router ∈ mode.policies)
    (htext : ∀ x ∈ names ++ typed ps, Readable cfg ⟨.none, x⟩)
    (hlen : ((names ++ typed ps).map List.length).sum + (names ++ typed ps).length < 2 ^ 63)
    (vals : List Value) :
    ((parseArgs cfg root (names ++ typed ps) s).1 = .ok () ∧
      (parseArgs cfg root (names ++ typed ps) s).2.calls = s.calls ++ [⟨mode.uid, vals⟩]) ↔
    (∀ p ∈ ps, ∃ v, Gives p.use (.ok v)) ∧ Zip (HasValue ps) (valued mode.children) vals := by
  obtain ⟨huses, ch, hrun⟩ := proper_run hc hu hobj s hl hp htext hlen
  have hu' : ∀ l ∈ ps.map TypedArg.use, HasUses l.node := by
    intro l hl
    obtain ⟨p, hp, rfl⟩ := List.mem_map.1 hl
    exact huses p hp
  rw [← proper_does hp hrouter vals, modeDoes_iff hu', hrun]
  cases hmo : modeOf mode (ps.map TypedArg.use) with
  | ok vs => simp [called, ended]
  | _ => simp [called, ended]

/-- C123: a proper command line is never refused for the way it is typed: if it is not accepted, an
argument does not have a value (or a value that is allowed), and no router is called. -/
theorem C123_refused {ps : List TypedArg} (s : St) (hl : LedTo cfg root mode names (typed ps))
    (hp : Proper cfg mode s.sel ps) (hrouter : .router ∈ mode.policies)
    (htext : ∀ x ∈ names ++ typed ps, Readable cfg ⟨.none, x⟩)
    (hlen : ((names ++ typed ps).map List.length).sum + (names ++ typed ps).length < 2 ^ 63)
    (hno : (parseArgs cfg root (names ++ typed ps) s).1 ≠ .ok ()) :
    (parseArgs cfg root (names ++ typed ps) s).2.calls = s.calls ∧
    ((∃ p ∈ ps, ∀ v, ¬ Gives p.use (.ok v)) ∨
      ∃ d ∈ valued mode.children, ∀ v, ¬ HasValue ps d v) := by
  obtain ⟨huses, ch, hrun⟩ := proper_run hc hu hobj s hl hp htext hlen
  refine ⟨?_, ?_⟩
  · rw [hrun] at hno ⊢
    cases hmo : modeOf mode (ps.map TypedArg.use) with
    | ok vs => rw [hmo] at hno; exact absurd rfl hno
    | _ => rfl
  · apply Classical.byContradiction
    intro h
    have h1 : ∀ p ∈ ps, ∃ v, Gives p.use (.ok v) := by
      intro p hp
      apply Classical.byContradiction
      intro h'
      exact h (.inl ⟨p, hp, fun v hv => h' ⟨v, hv⟩⟩)
    have h2 : ∀ d ∈ valued mode.children, ∃ v, HasValue ps d v := by
      intro d hd
      apply Classical.byContradiction
      intro h'
      exact h (.inr ⟨d, hd, fun v hv => h' ⟨v, hv⟩⟩)
    have h3 : ∀ l : List (Node × Nat), (∀ d ∈ l, ∃ v, HasValue ps d v) → ∃ vs, Zip (HasValue ps) l vs := by
      intro l
      induction l with
      | nil => exact fun _ => ⟨[], .nil⟩
      | cons d l ih =>
        intro hl
        obtain ⟨v, hv⟩ := hl d List.mem_cons_self
        obtain ⟨vs, hvs⟩ := ih fun x hx => hl x (List.mem_cons_of_mem _ hx)
        exact ⟨v :: vs, .cons hv hvs⟩
    obtain ⟨vs, hvs⟩ := h3 _ h2
    exact hno ((C123_accepted hc hu hobj s hl hp hrouter htext hlen vs).2 ⟨h1, hvs⟩).1

end

/-! ## Examples -/

def dulyVerbose : Node :=
  mkCountingFlag .default 202 202 64 [.longName (b "verbose"), .shortName (b "v")]
def dulyNum : Node := mkArg 203 203 digitType [.longName (b "num"), .required,
  .minMaxValue (some (.one (.int 2))) (some (.one (.int 7))) intLess]
def dulyDepth : Node := mkArg 204 204 digitType [.longName (b "depth"), .defaultValue (.one (.int 1)),
  .dependent [.long (b "num")]]
def dulyFiles : Node := mkPositional 205 205 textsType [.displayName (b "FILES")]
def dulyMode : Node := mkMode 206 206 [.router] [dulyVerbose, dulyNum, dulyDepth, dulyFiles]
def dulyRoot : Node := mkRoot 207 207 [dulyMode]

def dulyTyped : List TypedArg :=
  [⟨(0, dulyVerbose), shapeOf dulyVerbose, b "-v", [], []⟩,
   ⟨(1, dulyNum), shapeOf dulyNum, b "--num", [b "5"], [⟨.none, b "5"⟩]⟩,
   ⟨(0, dulyVerbose), shapeOf dulyVerbose, b "--verbose", [], []⟩,
   ⟨(2, dulyDepth), shapeOf dulyDepth, b "--depth", [b "3"], [⟨.none, b "3"⟩]⟩,
   ⟨(3, dulyFiles), shapeOf dulyFiles, b "in", [b "out"], [⟨.none, b "in"⟩, ⟨.none, b "out"⟩]⟩]

theorem word_unmentioned {c : Node} {w : Bytes} (hs : ¬ Config.default.shortPrefix <+: w)
    (hn : c.noneName = none) (hv : ∀ p ∈ c.policies, (match p with
      | .valueSeparator _ => false | _ => true) = true) : ¬ Mentions .default c ⟨.none, w⟩ := by
  rintro (h' | ⟨_, ch, _, _, h', _⟩ | ⟨x, g', gs, _, h', h3, h4⟩)
  · rcases h' with ⟨l', _, h4⟩ | ⟨l', _, h4, _⟩ | ⟨h', _⟩
    · exact hs ⟨b "-" ++ l', by rw [show w = _ from h4]; rfl⟩
    · exact hs ⟨l', by rw [show w = _ from h4]⟩
    · rw [hn] at h'; cases h'
  · exact absurd (hv _ h') (by simp)
  · rcases h' with ⟨h', _⟩ | ⟨_, h', _⟩
    · cases h'
    · exact hs ⟨x, by rw [show w = _ from h']⟩

theorem duly_proper : Proper .default dulyMode [] dulyTyped where
  typed := by
    have h1 : ∀ w, w = b "-v" ∨ w = b "--verbose" →
        TypedArg.Fits .default dulyMode ⟨(0, dulyVerbose), shapeOf dulyVerbose, w, [], []⟩ := by
      intro w hw
      refine C114_label (more := []) (declared_of_test (by decide +kernel)) rfl (by decide) (by decide) rfl rfl
        ?_ ⟨[], [(1, dulyNum), (2, dulyDepth), (3, dulyFiles)], rfl, by simp⟩
      rcases hw with rfl | rfl
      · exact .inr (.inl ⟨b "v", rfl, rfl, by decide⟩)
      · exact .inl ⟨b "verbose", rfl, rfl⟩
    intro before p after h
    match before, h with
    | [], h => cases h; exact .inl (h1 _ (.inl rfl))
    | [_], h =>
      cases h
      refine .inl (C114_label (more := [b "5"]) (declared_of_test (by decide +kernel)) rfl (by decide)
        (by decide) rfl rfl (.inl ⟨b "num", rfl, rfl⟩)
        ⟨[(0, dulyVerbose)], [(2, dulyDepth), (3, dulyFiles)], rfl, ?_⟩)
      simp only [List.mem_cons, List.not_mem_nil, or_false]
      rintro x rfl
      exact ⟨rfl, dashes_unmentioned (l := b "num") (by decide) rfl (by decide)⟩
    | [_, _], h => cases h; exact .inl (h1 _ (.inr rfl))
    | [_, _, _], h =>
      cases h
      refine .inl (C114_label (more := [b "3"]) (declared_of_test (by decide +kernel)) rfl (by decide)
        (by decide) rfl rfl (.inl ⟨b "depth", rfl, rfl⟩)
        ⟨[(0, dulyVerbose), (1, dulyNum)], [(3, dulyFiles)], rfl, ?_⟩)
      simp only [List.mem_cons, List.not_mem_nil, or_false]
      rintro x (rfl | rfl)
      · exact ⟨rfl, dashes_unmentioned (l := b "depth") (by decide) rfl (by decide)⟩
      · exact ⟨rfl, dashes_unmentioned (l := b "depth") (by decide) rfl (by decide)⟩
    | [_, _, _, _], h =>
      cases h
      refine .inr ⟨rfl, declared_of_test (by decide +kernel), rfl, rfl, by decide +kernel, rfl,
        [(0, dulyVerbose), (1, dulyNum), (2, dulyDepth)], [], rfl, ?_⟩
      simp only [List.mem_cons, List.not_mem_nil, or_false]
      rintro x (rfl | rfl | rfl)
      · exact ⟨rfl, word_unmentioned (by decide) rfl (by decide)⟩
      · exact ⟨rfl, word_unmentioned (by decide) rfl (by decide)⟩
      · exact ⟨rfl, word_unmentioned (by decide) rfl (by decide)⟩
    | _ :: _ :: _ :: _ :: _ :: before, h => simp [dulyTyped] at h
  once := by
    have hm : ¬ OnceOnly dulyVerbose := by
      rw [onceOnly_iff]
      decide
    simp only [dulyTyped, List.pairwise_cons, List.mem_cons, List.not_mem_nil, or_false, forall_eq_or_imp,
      forall_eq]
    simp [hm]
  needs := by
    intro before p after h
    match before, h with
    | [], h => cases h; exact fun _ h => nomatch h
    | [_], h => cases h; exact fun _ h => nomatch h
    | [_, _], h => cases h; exact fun _ h => nomatch h
    | [_, x, _], h =>
      cases h
      intro refs hr y hy
      cases hr
      have : dulyMode.owners [.long (b "num")] = [dulyNum] := by rfl
      have hy : y ∈ dulyMode.owners [.long (b "num")] := hy
      rw [this] at hy
      simp only [List.mem_cons, List.not_mem_nil, or_false] at hy
      subst hy
      exact ⟨_, List.mem_cons_of_mem _ List.mem_cons_self, rfl⟩
    | [_, _, _, _], h => cases h; exact fun _ h => nomatch h
    | _ :: _ :: _ :: _ :: _ :: before, h => simp [dulyTyped] at h
  alternatives := by
    rintro p - o ⟨-, h, h2, -⟩
    cases h2
  own := by
    simp only [dulyTyped, List.mem_cons, List.not_mem_nil, or_false]
    rintro p (rfl | rfl | rfl | rfl | rfl)
    all_goals
      refine ⟨rfl, (isFor_iff _ _ _).2 ⟨_, _, rfl⟩, fun c hc => ?_⟩
      cases hc
      exact (forArgument_iff _ _ _).2 rfl

theorem dulyMode_led (rest : List Bytes) : LedTo .default dulyRoot dulyMode [] rest where
  way := ⟨[], dulyMode, [], rfl, .unnamed rfl (by decide), fun d hd => nomatch hd⟩
  here := by
    intro t _ d hd hk
    have : ∀ d ∈ dulyMode.children, d.kind ≠ .mode := by decide
    exact absurd hk (this d hd)

/-- The hypotheses of the C123 theorems are met, by `-v --num 5 --verbose --depth 3 in out`. -/
example : compiles .default 100 defaultRules dulyRoot = true ∧ Conventional dulyRoot ∧
    (dulyRoot.nodes.map Node.uid).Nodup ∧ Proper .default dulyMode St.fresh.sel dulyTyped ∧
    LedTo .default dulyRoot dulyMode [] (typed dulyTyped) ∧ .router ∈ dulyMode.policies ∧
    parseArgs .default dulyRoot (typed dulyTyped) .fresh =
      (.ok (), ⟨[], [⟨206, [.one (.int 2), .one (.int 5), .one (.int 3),
        .many [.str (b "in"), .str (b "out")]]⟩]⟩) :=
  ⟨by decide +kernel, conventional_of_test (by decide +kernel), by decide, duly_proper, dulyMode_led _,
    by simp [dulyMode, mkMode, modePolicies, Node.policies], by decide +kernel⟩

/-- Why the arguments that one needs come before it, and the others may be given once. -/
example : parseArgs .default dulyRoot [b "--depth", b "3", b "--num", b "5"] .fresh =
      (.throw ⟨.dependent_argument_missing, [⟨.long, b "num"⟩]⟩, .fresh) ∧
    parseArgs .default dulyRoot [b "--num", b "5", b "--num", b "5"] .fresh =
      (.throw ⟨.argument_has_already_been_set, [⟨.none, b "--num"⟩]⟩, .fresh) ∧
    parseArgs .default dulyRoot [b "--num", b "8", b "-v"] .fresh =
      (.throw ⟨.maximum_value_exceeded, [⟨.long, b "num"⟩]⟩, .fresh) := by
  decide +kernel

end ArgRouter.Props
