import Verif.Props.Typed

/-!
# Arguments that are given the value they have anyway

C116: giving an optional argument its default value is the same as leaving it out.
-/

namespace ArgRouter.Props

open Spec

variable {cfg : Config} {depth : Nat} {root mode : Node} {names : List Bytes}

/-! ## The arguments before -/

theorem before_accepted (ho : Ordinary mode) {before : List TypedArg}
    (hb : ∀ x ∈ before, x.Fits cfg mode) {rest : List Token} {uses : List Leaf} {c : Choices} :
    ∀ {chosen : Choices} {sofar : List Leaf} {used : List Nat},
    weight (before.flatMap TypedArg.tokens ++ rest) < 2 ^ 63 →
    (Expanding mode → ∀ t ∈ before.flatMap TypedArg.tokens ++ rest, Readable cfg t) →
    Reading cfg mode chosen sofar used (before.flatMap TypedArg.tokens ++ rest) (.accepts uses) c →
    ∃ ch b used', Reading cfg mode ch (sofar ++ b) used' rest (.accepts uses) c ∧
      (∀ rest' r' c', Reading cfg mode ch (sofar ++ b) used' rest' r' c' →
        Reading cfg mode chosen sofar used (before.flatMap TypedArg.tokens ++ rest') r' c') ∧
      (∀ i ∈ used', i ∈ used ∨ ∃ x ∈ before, i = x.argument.1) ∧
      ∀ l ∈ b, ∃ x ∈ before, l ∈ x.uses mode := by
  induction before with
  | nil =>
    intro chosen sofar used _ _ h
    exact ⟨chosen, [], used, by simpa using h, fun _ _ _ h => by simpa using h, fun i hi => .inl hi,
      fun _ h => nomatch h⟩
  | cons x before ih =>
    intro chosen sofar used hw hread hr
    have hx := hb x List.mem_cons_self
    simp only [List.flatMap_cons, List.append_assoc] at hw hread hr ⊢
    rcases stops_or_goes mode x chosen sofar used with ⟨e, ce, hs⟩ | hg
    · obtain ⟨h, -⟩ := reading_unique ho (piece_stops hx hs _) hw hread hr
      cases h
    · obtain ⟨ch, b', used', h1, h2, h3, h4⟩ := ih (fun y hy => hb y (List.mem_cons_of_mem _ hy))
        (by rw [weight_append] at hw; omega) (fun he t ht => hread he t (List.mem_append_right _ ht))
        (piece_inv hx ho hg hw hread hr)
      refine ⟨ch, x.uses mode ++ b', used', by simpa using h1, fun rest' r' c' h => ?_, ?_, ?_⟩
      · exact piece_goes hx hg (h2 rest' r' c' (by simpa using h))
      · intro i hi
        rcases h3 i hi with h | ⟨y, hy, rfl⟩
        · rcases List.mem_cons.1 h with rfl | h
          · exact .inr ⟨x, by simp, rfl⟩
          · exact .inl h
        · exact .inr ⟨y, List.mem_cons_of_mem _ hy, rfl⟩
      · intro l hl
        rcases List.mem_append.1 hl with h | h
        · exact ⟨x, by simp, h⟩
        · obtain ⟨y, hy, hly⟩ := h4 l h
          exact ⟨y, List.mem_cons_of_mem _ hy, hly⟩

/-! ## The arguments after -/

section
variable {p : TypedArg} {v : Value} (hp : p.Fits cfg mode) (hg : GivesDefault mode p v)
include hp hg

theorem default_use : p.uses mode = [⟨p.argument.2, p.values⟩] := by
  simp [TypedArg.uses, Shape.uses, hg.noAlias]

theorem default_argument {a : Nat × Node} (ha : a ∈ arguments mode) (hi : a.1 = p.argument.1) :
    a = p.argument := by
  obtain ⟨c, -, h1, h2, h3⟩ := argumentsFrom_child ha
  rw [Nat.sub_zero, hi, hg.child] at h1
  cases h1
  rw [members_leaf hg.optional.leaf] at h3
  exact Prod.ext hi (by simpa using h3)

omit hp hg in
theorem members_nodes {c x : Node} (h : x ∈ members c) : x ∈ c.nodes := by
  rw [members] at h
  split at h
  · exact child_mem_nodes h _ (self_mem_nodes x)
  · exact leaves_nodes c x h

/-- The reading with and without the argument: the rest does not depend on it. -/
structure WithDefault (p : TypedArg) (sofar sofar' : List Leaf) (used used' : List Nat) (mode : Node) :
    Prop where
  seen : ∀ x, Spec.Seen ⟨mode, [], sofar'⟩ x ↔
    Spec.Seen ⟨mode, [], sofar⟩ x ∨ p.argument.2.hash = x.hash
  used : ∀ i, i ∈ used' ↔ i = p.argument.1 ∨ i ∈ used

omit hp in
theorem default_claims {sofar sofar' : List Leaf} {used used' : List Nat}
    (hs : WithDefault p sofar sofar' used used' mode) {a : Nat × Node} (ha : a ∈ arguments mode)
    {t : Token} {rest : List Token} {cl : Claim} :
    Claims cfg mode sofar a.2 t rest cl ↔ Claims cfg mode sofar' a.2 t rest cl := by
  have key : ∀ {sh : Shape}, Declared a.2 sh → ∀ {d}, Lacks mode sofar sh d ↔ Lacks mode sofar' sh d := by
    intro sh hd d
    have hsn : ∀ refs, sh.needs = some refs → ∀ x ∈ mode.owners refs,
        (Spec.Seen ⟨mode, [], sofar⟩ x ↔ Spec.Seen ⟨mode, [], sofar'⟩ x) := by
      intro refs hr x hx
      rw [hs.seen]
      have := hg.needed a ha refs (shape_needs hd hr) x hx
      constructor
      · exact .inl
      · rintro (h | h)
        · exact h
        · exact absurd h.symm this
    exact ⟨lacks_same hsn, lacks_same fun refs hr x hx => (hsn refs hr x hx).symm⟩
  constructor
  · rintro ⟨sh, hd, h⟩
    refine ⟨sh, hd, ?_⟩
    cases h with
    | noSeparator h1 h2 h3 => exact .noSeparator h1 h2 h3
    | count h1 h2 => exact .count h1 h2
    | lacks h1 h2 h3 => exact .lacks h1 h2 ((key hd).1 h3)
    | takes h1 h2 h3 => exact .takes h1 h2 fun d h => h3 d ((key hd).2 h)
  · rintro ⟨sh, hd, h⟩
    refine ⟨sh, hd, ?_⟩
    cases h with
    | noSeparator h1 h2 h3 => exact .noSeparator h1 h2 h3
    | count h1 h2 => exact .count h1 h2
    | lacks h1 h2 h3 => exact .lacks h1 h2 ((key hd).2 h3)
    | takes h1 h2 h3 => exact .takes h1 h2 fun d h => h3 d ((key hd).1 h)

omit hp hg in
theorem default_available {sofar sofar' : List Leaf} {used used' : List Nat}
    (hs : WithDefault p sofar sofar' used used' mode) {a : Nat × Node} (ha : a.1 ≠ p.argument.1) :
    Available used a ↔ Available used' a := by
  unfold Available
  rw [hs.used]
  simp [ha]

theorem default_wants {sofar sofar' : List Leaf} {used used' : List Nat}
    (hs : WithDefault p sofar sofar' used used' mode) {a : Nat × Node} (ha : a ∈ arguments mode)
    {t : Token} {rest : List Token} :
    Wants cfg mode sofar used t rest a ↔ Wants cfg mode sofar' used' t rest a := by
  unfold Wants
  by_cases hi : a.1 = p.argument.1
  · obtain rfl := default_argument hp hg ha hi
    simp only [hp.named, true_or, and_true]
    constructor
    · rintro ⟨cl, h⟩; exact ⟨cl, (default_claims hg hs ha).1 h⟩
    · rintro ⟨cl, h⟩; exact ⟨cl, (default_claims hg hs ha).2 h⟩
  · rw [default_available hs hi]
    constructor
    · rintro ⟨⟨cl, h⟩, h2⟩; exact ⟨⟨cl, (default_claims hg hs ha).1 h⟩, h2⟩
    · rintro ⟨⟨cl, h⟩, h2⟩; exact ⟨⟨cl, (default_claims hg hs ha).2 h⟩, h2⟩

theorem default_first {sofar sofar' : List Leaf} {used used' : List Nat}
    (hs : WithDefault p sofar sofar' used used' mode) {a : Nat × Node} {t : Token} {rest : List Token} :
    First cfg mode sofar used t rest a ↔ First cfg mode sofar' used' t rest a := by
  constructor
  · rintro ⟨b, e, h1, h2, h3⟩
    exact ⟨b, e, h1, fun x hx h => h2 x hx ((default_wants hp hg hs (by rw [h1]; simp [hx])).2 h),
      (default_wants hp hg hs (by rw [h1]; simp)).1 h3⟩
  · rintro ⟨b, e, h1, h2, h3⟩
    exact ⟨b, e, h1, fun x hx h => h2 x hx ((default_wants hp hg hs (by rw [h1]; simp [hx])).1 h),
      (default_wants hp hg hs (by rw [h1]; simp)).2 h3⟩

omit hp hg in
theorem withDefault_more {sofar sofar' uses : List Leaf} {used used' : List Nat} {i : Nat}
    (hs : WithDefault p sofar sofar' used used' mode) :
    WithDefault p (sofar ++ uses) (sofar' ++ uses) (i :: used) (i :: used') mode where
  seen x := by
    rw [seen_append, seen_append, hs.seen x, or_right_comm]
  used j := by
    rw [List.mem_cons, List.mem_cons, hs.used, or_left_comm]

/-- What is accepted with the argument is accepted without it. -/
theorem without_default {chosen c : Choices} {sofar' uses : List Leaf} {used' : List Nat}
    {args : List Token} {r : Result} (hr : Reading cfg mode chosen sofar' used' args r c) :
    r = .accepts uses → ∀ {sofar used}, WithDefault p sofar sofar' used used' mode →
      ∃ more, uses = sofar' ++ more ∧
        Reading cfg mode chosen sofar used args (.accepts (sofar ++ more)) c := by
  induction hr generalizing uses with
  | done =>
    intro h sofar used hs
    cases h
    exact ⟨[], by simp, by simpa using .done⟩
  | @take chosen c sofar' us used' t rest left a r hf hk ha hcl hrd ih =>
    intro h sofar used hs
    have ham := First.mem hf
    obtain ⟨more, h1, h2⟩ := ih h (withDefault_more hs)
    refine ⟨us ++ more, by rw [h1, List.append_assoc], ?_⟩
    rw [List.append_assoc] at h2
    refine .take ((default_first hp hg hs).2 hf) hk ?_ ((default_claims hg hs ham).2 hcl) h2
    rcases ha with ha | ha
    · exact .inl ha
    · exact .inr fun hi => ha ((hs.used _).2 (.inr hi))
  | clash => exact fun h => nomatch h
  | again => exact fun h => nomatch h
  | refused => exact fun h => nomatch h
  | unhandled => exact fun h => nomatch h
  | unknown => exact fun h => nomatch h

theorem other_use {others : List Bytes} (hn : NotGivenElsewhere cfg mode p others) {a : Nat × Node}
    (ha : a ∈ arguments mode) (hne : a ≠ p.argument) {sh : Shape} (hd : Declared a.2 sh)
    {vs : List Token} : ∀ l ∈ sh.uses mode a.2 vs, l.node.hash ≠ p.argument.2.hash := by
  intro l hl
  unfold Shape.uses at hl
  split at hl
  · simp only [List.mem_singleton] at hl
    subst hl
    intro he
    obtain ⟨c, -, h1, h2, h3⟩ := argumentsFrom_child ha
    rw [Nat.sub_zero] at h1
    exact hne (default_argument hp hg ha (hg.type _ _ h1 _ (members_nodes h3) he))
  · rename_i refs hr
    obtain ⟨d, hd', rfl⟩ := List.mem_map.1 hl
    exact hn.noAlias a ha refs (shape_alias hd hr) d hd'

/-- What is accepted without the argument is accepted with it. -/
theorem with_default {others : List Bytes} (hn : NotGivenElsewhere cfg mode p others)
    {chosen c : Choices} {sofar uses : List Leaf} {used : List Nat}
    {args : List Token} {r : Result} (hr : Reading cfg mode chosen sofar used args r c) :
    r = .accepts uses → (∀ t ∈ args, Arises cfg others t) →
      ∀ {sofar' used'}, WithDefault p sofar sofar' used used' mode →
      ∃ more, uses = sofar ++ more ∧ (∀ l ∈ more, l.node.hash ≠ p.argument.2.hash) ∧
        Reading cfg mode chosen sofar' used' args (.accepts (sofar' ++ more)) c := by
  induction hr generalizing uses with
  | done =>
    intro h _ sofar used hs
    cases h
    exact ⟨[], by simp, fun _ h => (nomatch h), by simpa using .done⟩
  | @take chosen c sofar us used t rest left a r hf hk ha hcl hrd ih =>
    intro h hargs sofar' used' hs
    have ham := First.mem hf
    have hne : a ≠ p.argument := by
      rintro rfl
      exact hn.unused.unmentioned t (hargs t (by simp)) (claims_mentions hp.named hcl)
    obtain ⟨more, h1, h2, h3⟩ := ih h (claims_left hcl hargs) (withDefault_more hs)
    refine ⟨us ++ more, by rw [h1, List.append_assoc], ?_, ?_⟩
    · intro l hl
      rcases List.mem_append.1 hl with hl | hl
      · obtain ⟨sh, hd, hcl⟩ := hcl
        generalize hcl' : Claim.takes us left = cl at hcl
        cases hcl with
        | takes =>
          cases hcl'
          exact other_use hp hg hn ham hne hd l hl
        | _ => cases hcl'
      · exact h2 l hl
    · rw [List.append_assoc] at h3
      refine .take ((default_first hp hg hs).1 hf) hk ?_ ((default_claims hg hs ham).1 hcl) h3
      exact (default_available hs fun hi => hne (default_argument hp hg ham hi)).1 ha
  | clash => exact fun h => nomatch h
  | again => exact fun h => nomatch h
  | refused => exact fun h => nomatch h
  | unhandled => exact fun h => nomatch h
  | unknown => exact fun h => nomatch h

/-! ## The values -/

theorem default_isFor_hash {l : Leaf} (h : IsFor mode.children l p.argument.1) :
    l.node.hash = p.argument.2.hash := by
  obtain ⟨⟨c, h1, x, hx, -, -, h2⟩, -⟩ := h
  rw [hg.child] at h1
  cases h1
  have hs := hg.optional.single
  generalize p.argument.2 = c at hx hs
  obtain ⟨k, u, hh, vt, ps, cs⟩ := c
  simp only [Node.children] at hs
  subst hs
  rw [nodes_mk, show nodesList [] = [] from rfl, List.mem_singleton] at hx
  subst hx
  exact h2.symm

theorem default_found {l : Leaf} (h : IsFor mode.children l p.argument.1) :
    findChild l.node.hash mode.children 0 = some (p.argument.1, p.argument.2, p.argument.2) := by
  obtain ⟨c, n, h1⟩ := (isFor_iff _ _ _).1 h
  obtain ⟨j, h2, h3, h4, -⟩ := findChild_spec _ _ _ h1
  have hj : j = p.argument.1 := by omega
  subst hj
  rw [hg.child] at h3
  cases h3
  obtain ⟨h5, -, -⟩ := matchChild_spec h4
  have hs := hg.optional.single
  have hn : n = p.argument.2 := by
    generalize p.argument.2 = c at h5 hs
    obtain ⟨k, u, hh, vt, ps, cs⟩ := c
    simp only [Node.children] at hs
    subst hs
    rwa [nodes_mk, show nodesList [] = [] from rfl, List.mem_singleton] at h5
  rw [h1, hn]

theorem default_once : p.argument.2.isMultiStage = false := by
  cases h : p.argument.2.isMultiStage with
  | false => rfl
  | true =>
    obtain ⟨x, hx, h⟩ := List.any_eq_true.1 h
    cases x with
    | multiStage f => exact absurd hx (hg.once f)
    | _ => cases h

/-- Once the argument has been given, nothing may be for it. -/
theorem default_given {ls : List Leaf} {rs ra : List (Option Value)}
    (h : collectOf mode.children ls rs = .ok ra) (hs : (gotOf rs p.argument.1).isSome = true) :
    ∀ l ∈ ls, ¬ IsFor mode.children l p.argument.1 := by
  induction ls generalizing rs with
  | nil => exact fun _ h => nomatch h
  | cons x ls ih =>
    simp only [collectOf, Out.bind_eq_ok] at h
    obtain ⟨v, -, h⟩ := h
    have hx : ¬ IsFor mode.children x p.argument.1 := by
      intro hf
      rw [default_found hp hg hf] at h
      simp only [hg.optional.value, Bool.false_eq_true, if_false, default_once hp hg, hs, if_true] at h
      cases h
    intro l hl
    rcases List.mem_cons.1 hl with rfl | hl
    · exact hx
    · have hset : ∀ (j : Nat) (r : Option Value), IsFor mode.children x j →
          (gotOf (rs.set j r) p.argument.1).isSome = true := by
        intro j r hj
        rw [gotOf_set', if_neg]
        · exact hs
        · rintro ⟨rfl, -⟩
          exact hx hj
      split at h
      · exact ih h hs l hl
      · rename_i j c n hf
        have hj : IsFor mode.children x j := (isFor_iff _ _ _).2 ⟨c, n, hf⟩
        split at h
        · exact ih h hs l hl
        · split at h
          · exact ih h (hset _ _ hj) l hl
          · split at h
            · cases h
            · exact ih h (hset _ _ hj) l hl

theorem default_uses : HasUses p.argument.2 := by
  have := hg.value
  generalize hl : (⟨p.argument.2, p.values⟩ : Leaf) = l at this
  have hn : p.argument.2 = l.node := by rw [← hl]
  rw [hn]
  cases this with
  | flag h => exact h.elim .inl fun h => .inr (.inl h)
  | value h => exact .inr (.inr h)
  | unreadable h => exact .inr (.inr h)
  | refused h => exact .inr (.inr h)

theorem default_value : valueOf ⟨p.argument.2, p.values⟩ = .ok v :=
  (gives_iff (default_uses hp hg) _).1 hg.value

theorem default_parses : p.argument.2.hasParse = true := by
  have h := default_uses hp hg
  unfold HasUses TakesValues at h
  unfold Node.hasParse
  cases hk : p.argument.2.kind <;> simp_all

theorem default_isFor :
    IsFor mode.children ⟨p.argument.2, p.values⟩ p.argument.1 := by
  refine ⟨⟨_, hg.child, _, self_mem_nodes _, hg.optional.leaf.1, default_parses hp hg, rfl⟩, ?_⟩
  rintro j c hj hc ⟨x, hx, -, -, h⟩
  have := hg.type j c hc x hx h
  omega

omit hp hg in
theorem oneByOne_congr {α β : Type} {f g : α → Out β} {as : List α} (h : ∀ a ∈ as, f a = g a) :
    oneByOne f as = oneByOne g as := by
  induction as with
  | nil => rfl
  | cons a as ih =>
    simp only [oneByOne, h a List.mem_cons_self, ih fun x hx => h x (List.mem_cons_of_mem _ hx)]

/-- The values of the mode are the same with and without the argument. -/
theorem modeOf_default {b more : List Leaf}
    (hb : ∀ l ∈ b, ¬ IsFor mode.children l p.argument.1)
    (hmore : ∀ l ∈ more, ¬ IsFor mode.children l p.argument.1) :
    modeOf mode (b ++ p.uses mode ++ more) = modeOf mode (b ++ more) := by
  rw [default_use hp hg]
  unfold modeOf
  have hlt : p.argument.1 < mode.children.length := by
    have := hg.child
    rw [List.getElem?_eq_some_iff] at this
    exact this.1
  generalize hrs : List.replicate mode.children.length (none : Option Value) = rs
  have hrl : rs.length = mode.children.length := by rw [← hrs]; simp
  have hr0 : gotOf rs p.argument.1 = none := by rw [← hrs, gotOf_start]
  rw [List.append_assoc, collectOf_append, collectOf_append]
  cases hcb : collectOf mode.children b rs with
  | ok rb =>
    have hlb := collectOf_length hcb
    have hrb : gotOf rb p.argument.1 = none := by
      rcases collectOf_agree (P := (· ≠ p.argument.1)) (cs := mode.children) (ls := b)
        (fun l hl i hi he => hb l hl (he ▸ hi)) (rs := rs) (rs' := rs) rfl (fun _ _ => rfl) with
        ⟨ra, ra', h1, -, -, h4⟩ | ⟨-, h⟩
      · rw [hcb] at h1
        cases h1
        rw [(h4 p.argument.1 (fun h => h rfl)).1, hr0]
      · exact absurd hcb (h _)
    simp only [Out.ok_bind]
    have hone : collectOf mode.children ([⟨p.argument.2, p.values⟩] ++ more) rb =
        collectOf mode.children more (rb.set p.argument.1 (some v)) := by
      have hf := default_found hp hg (default_isFor hp hg)
      simp only [List.singleton_append, collectOf, default_value hp hg, Out.ok_bind, hf,
        hg.optional.value, default_once hp hg, hrb, Option.isSome_none, Bool.false_eq_true, if_false]
    rw [hone]
    rcases collectOf_agree (P := (· ≠ p.argument.1)) (cs := mode.children) (ls := more)
      (fun l hl i hi he => hmore l hl (he ▸ hi)) (rs := rb.set p.argument.1 (some v)) (rs' := rb)
      (by simp) (fun i hi => by
        rw [gotOf_set', if_neg]
        exact fun h => hi h.1.symm) with ⟨ra, ra', h1, h2, h3, h4⟩ | ⟨h1, h2⟩
    · rw [h1, h2]
      simp only [Out.ok_bind]
      have hfill : oneByOne (fun x => fillValue x.1 (gotOf ra x.2)) (valued mode.children) =
          oneByOne (fun x => fillValue x.1 (gotOf ra' x.2)) (valued mode.children) := by
        refine oneByOne_congr fun x hx => ?_
        by_cases hi : x.2 = p.argument.1
        · have hx1 : x.1 = p.argument.2 := by
            have := (List.mem_filter.1 hx).1
            rw [List.mem_zipIdx_iff_getElem?, hi, hg.child] at this
            exact (Option.some.inj this).symm
          obtain ⟨h5, h6⟩ := h4 x.2 (fun h => h hi)
          rw [h5, h6, hi, hrb, gotOf_set', if_pos ⟨rfl, by omega⟩, hx1,
            optional_fills hg.optional, fillValue_some]
        · rw [h3 x.2 hi]
      rw [hfill]
    · rw [h1]
  | _ => rfl

omit hp in
theorem default_plain (chosen : Choices) : choose mode chosen p.argument = chosen ∧
    ∀ o, ¬ Clashes mode chosen p.argument o := by
  have h : oneOfAt mode p.argument = none := by
    unfold oneOfAt
    rw [hg.child, Option.filter_some, if_neg]
    simpa using hg.optional.leaf.2.2
  constructor
  · unfold choose
    rw [h]
  · rintro o ⟨h1, -⟩
    rw [h] at h1
    cases h1

end

/-! ## C116 -/

section
variable (hc : compiles cfg depth defaultRules root = true) (hu : Conventional root)
include hc hu

/-- C116: an optional argument that is given its default value may be left out: what is accepted with
it is accepted without it, with the same calls. -/
theorem C116_left_out {before : List TypedArg} {p : TypedArg} {v : Value} {after : List Bytes} (s : St)
    (hl : LedTo cfg root mode names (typed before ++ p.words ++ after))
    (hl' : LedTo cfg root mode names (typed before ++ after))
    (hb : ∀ x ∈ before, x.Fits cfg mode) (hp : p.Fits cfg mode) (hg : GivesDefault mode p v)
    (htext : ∀ x ∈ names ++ (typed before ++ p.words ++ after), Readable cfg ⟨.none, x⟩)
    (hlen : ((names ++ (typed before ++ p.words ++ after)).map List.length).sum +
      (names ++ (typed before ++ p.words ++ after)).length < 2 ^ 63)
    (hok : (parseArgs cfg root (names ++ (typed before ++ p.words ++ after)) s).1 = .ok ()) :
    EndAlike (parseArgs cfg root (names ++ (typed before ++ p.words ++ after)) s)
      (parseArgs cfg root (names ++ (typed before ++ after)) s) := by
  have hprog := C92_ordinary_partial hc hu
  obtain ⟨hm, hk⟩ := ledTo_mem hl
  obtain ⟨hord, hrep⟩ := ledTo_ordinary hprog hl
  have hsub : (names ++ (typed before ++ after)).Sublist
      (names ++ (typed before ++ p.words ++ after)) := by
    rw [List.append_assoc]
    exact ((List.sublist_append_right _ _).append_left _).append_left _
  have htoks : (typed before ++ p.words ++ after).map (Token.mk .none) =
      before.flatMap TypedArg.tokens ++ (p.tokens ++ after.map (Token.mk .none)) := by
    rw [List.map_append, List.map_append, typed_tokens, List.append_assoc]
    rfl
  have htoks' : (typed before ++ after).map (Token.mk .none) =
      before.flatMap TypedArg.tokens ++ after.map (Token.mk .none) := by
    rw [List.map_append, typed_tokens]
  have hw : weight ((typed before ++ p.words ++ after).map (Token.mk .none)) < 2 ^ 63 := by
    refine Nat.lt_of_le_of_lt (weight_raw _) (fits_shorter ?_ hlen)
    exact List.sublist_append_right _ _
  have hread : Expanding mode → ∀ t ∈ (typed before ++ p.words ++ after).map (Token.mk .none),
      Readable cfg t := by
    intro _ t ht
    obtain ⟨y, hy, rfl⟩ := List.mem_map.1 ht
    exact htext y (List.mem_append_right _ hy)
  obtain ⟨r, c, hr⟩ := reading_of (chosen := s.sel) hord hrep hw hread
  have hrun := led_run hc hu hl s htext hlen hr
  rw [hrun] at hok ⊢
  obtain ⟨uses, rfl⟩ : ∃ uses, r = .accepts uses := by
    by_cases h : ∃ uses, r = .accepts uses
    · exact h
    · obtain ⟨o, h1, h2⟩ := outcome_failed cfg mode fun uses hr => h ⟨uses, hr⟩
      rw [h2] at hok
      exact absurd hok h1
  have hacc := accepted_outcome hc hm hk hr { s with sel := c }
  rw [hacc] at hok ⊢
  have huses := reading_uses ⟨_, hc⟩ hm hk hr (fun l hl => nomatch hl) uses rfl
  rw [htoks] at hw hread hr
  obtain ⟨ch, b, used', h1, h2, -, -⟩ := before_accepted hord hb hw hread hr
  have hw2 : weight (p.tokens ++ after.map (Token.mk .none)) < 2 ^ 63 := by
    rw [weight_append] at hw
    omega
  have hread2 : Expanding mode → ∀ t ∈ p.tokens ++ after.map (Token.mk .none), Readable cfg t :=
    fun he t ht => hread he t (List.mem_append_right _ ht)
  rcases stops_or_goes mode p ch ([] ++ b) used' with ⟨e, ce, hs⟩ | hgo
  · obtain ⟨h, -⟩ := reading_unique hord (piece_stops hp hs _) hw2 hread2 h1
    cases h
  have h3 := piece_inv hp hord hgo hw2 hread2 h1
  rw [(default_plain hg ch).1] at h3
  have hwith : WithDefault p ([] ++ b) ([] ++ b ++ p.uses mode) used' (p.argument.1 :: used') mode :=
    ⟨fun x => by rw [seen_append, default_use hp hg]; simp, fun i => by simp⟩
  obtain ⟨more, rfl, h4⟩ := without_default hp hg h3 rfl hwith
  have h5 := h2 _ _ _ h4
  rw [← htoks'] at h5
  rw [led_run hc hu hl' s (fun x hx => htext x (hsub.mem hx)) (fits_shorter hsub hlen) h5,
    accepted_outcome hc hm hk h5]
  simp only [List.nil_append] at huses hok ⊢
  have hcol : ∃ ra, collectOf mode.children (b ++ p.uses mode ++ more)
      (List.replicate mode.children.length none) = .ok ra := by
    cases hx : collectOf mode.children (b ++ p.uses mode ++ more)
      (List.replicate mode.children.length none) with
    | ok ra => exact ⟨ra, rfl⟩
    | _ =>
      exfalso
      unfold modeOf at hok
      rw [hx] at hok
      cases hok
  obtain ⟨ra, hcol⟩ := hcol
  have honce : ∀ {x y : List Leaf} {l : Leaf}, b ++ p.uses mode ++ more = x ++ l :: y →
      IsFor mode.children l p.argument.1 → ∀ z ∈ y, ¬ IsFor mode.children z p.argument.1 := by
    intro x y l he hl
    rw [he, collectOf_append, Out.bind_eq_ok] at hcol
    obtain ⟨rx, hx, hy⟩ := hcol
    simp only [collectOf, Out.bind_eq_ok] at hy
    obtain ⟨w, -, hy⟩ := hy
    have hlt : p.argument.1 < rx.length := by
      rw [collectOf_length hx, List.length_replicate]
      have := hg.child
      rw [List.getElem?_eq_some_iff] at this
      exact this.1
    rw [default_found hp hg hl] at hy
    simp only [hg.optional.value, default_once hp hg, Bool.false_eq_true, if_false] at hy
    split at hy
    · cases hy
    · exact default_given hp hg hy (by rw [gotOf_set', if_pos ⟨rfl, hlt⟩]; rfl)
  have hpf := default_isFor hp hg
  rw [modeOf_default hp hg ?_ ?_]
  · exact ended_same rfl fun _ => rfl
  · intro l hl hf
    obtain ⟨x, y, rfl⟩ := List.append_of_mem hl
    refine honce (x := x) (y := y ++ p.uses mode ++ more) (l := l) (by simp) hf
      ⟨p.argument.2, p.values⟩ ?_ hpf
    simp [default_use hp hg]
  · exact honce (x := b) (y := more) (l := ⟨p.argument.2, p.values⟩) (by simp [default_use hp hg]) hpf

/-- C116: an optional argument that is not given may be given its default value: what is accepted
without it is accepted with it, with the same calls. -/
theorem C116_given {before : List TypedArg} {p : TypedArg} {v : Value} {after : List Bytes} (s : St)
    (hl : LedTo cfg root mode names (typed before ++ p.words ++ after))
    (hl' : LedTo cfg root mode names (typed before ++ after))
    (hb : ∀ x ∈ before, x.Fits cfg mode) (hp : p.Fits cfg mode) (hg : GivesDefault mode p v)
    (hn : NotGivenElsewhere cfg mode p (typed before ++ after))
    (htext : ∀ x ∈ names ++ (typed before ++ p.words ++ after), Readable cfg ⟨.none, x⟩)
    (hlen : ((names ++ (typed before ++ p.words ++ after)).map List.length).sum +
      (names ++ (typed before ++ p.words ++ after)).length < 2 ^ 63)
    (hok : (parseArgs cfg root (names ++ (typed before ++ after)) s).1 = .ok ()) :
    EndAlike (parseArgs cfg root (names ++ (typed before ++ p.words ++ after)) s)
      (parseArgs cfg root (names ++ (typed before ++ after)) s) := by
  have hprog := C92_ordinary_partial hc hu
  obtain ⟨hm, hk⟩ := ledTo_mem hl
  obtain ⟨hord, hrep⟩ := ledTo_ordinary hprog hl
  have hsub : (names ++ (typed before ++ after)).Sublist
      (names ++ (typed before ++ p.words ++ after)) := by
    rw [List.append_assoc]
    exact ((List.sublist_append_right _ _).append_left _).append_left _
  have htoks : (typed before ++ p.words ++ after).map (Token.mk .none) =
      before.flatMap TypedArg.tokens ++ (p.tokens ++ after.map (Token.mk .none)) := by
    rw [List.map_append, List.map_append, typed_tokens, List.append_assoc]
    rfl
  have htoks' : (typed before ++ after).map (Token.mk .none) =
      before.flatMap TypedArg.tokens ++ after.map (Token.mk .none) := by
    rw [List.map_append, typed_tokens]
  have htext' : ∀ x ∈ names ++ (typed before ++ after), Readable cfg ⟨.none, x⟩ :=
    fun x hx => htext x (hsub.mem hx)
  have hlen' := fits_shorter hsub hlen
  have hw : weight ((typed before ++ after).map (Token.mk .none)) < 2 ^ 63 := by
    refine Nat.lt_of_le_of_lt (weight_raw _) (fits_shorter ?_ hlen')
    exact List.sublist_append_right _ _
  have hread : Expanding mode → ∀ t ∈ (typed before ++ after).map (Token.mk .none),
      Readable cfg t := by
    intro _ t ht
    obtain ⟨y, hy, rfl⟩ := List.mem_map.1 ht
    exact htext' y (List.mem_append_right _ hy)
  obtain ⟨r, c, hr⟩ := reading_of (chosen := s.sel) hord hrep hw hread
  have hrun := led_run hc hu hl' s htext' hlen' hr
  rw [hrun] at hok ⊢
  obtain ⟨uses, rfl⟩ : ∃ uses, r = .accepts uses := by
    by_cases h : ∃ uses, r = .accepts uses
    · exact h
    · obtain ⟨o, h1, h2⟩ := outcome_failed cfg mode fun uses hr => h ⟨uses, hr⟩
      rw [h2] at hok
      exact absurd hok h1
  rw [accepted_outcome hc hm hk hr]
  rw [htoks'] at hw hread hr
  obtain ⟨ch, b, used', h1, h2, h3, h4⟩ := before_accepted hord hb hw hread hr
  have hother : ∀ x ∈ before, x.argument ≠ p.argument := by
    intro x hx he
    obtain ⟨follows, h5, -⟩ := (hb x hx).takes []
    obtain ⟨cl, h6⟩ := labels_claims (mode := mode) (sofar := []) h5
    have h7 : Mentions cfg x.argument.2 ⟨.none, x.word⟩ :=
      claims_mentions (hb x hx).named ⟨x.shape, (hb x hx).declared, h6⟩
    rw [he] at h7
    refine hn.unused.unmentioned _ (.typed ?_) h7
    refine List.mem_append_left _ (List.mem_flatMap.2 ⟨x, hx, ?_⟩)
    simp [TypedArg.words]
  have hmem : ∀ x ∈ before, x.argument ∈ arguments mode := by
    intro x hx
    obtain ⟨_, _, h, -⟩ := (hb x hx).first
    rw [h]
    simp
  have hgo : Goes mode p ch ([] ++ b) used' := by
    refine ⟨(default_plain hg ch).2, .inr ?_, ?_⟩
    · intro hi
      rcases h3 _ hi with h | ⟨x, hx, h⟩
      · cases h
      · exact hother x hx (default_argument hp hg (hmem x hx) h.symm)
    · rintro d ⟨refs, _, _, h, -⟩
      rw [hn.free] at h
      cases h
  have hwith : WithDefault p ([] ++ b) ([] ++ b ++ p.uses mode) used' (p.argument.1 :: used') mode :=
    ⟨fun x => by rw [seen_append, default_use hp hg]; simp, fun i => by simp⟩
  obtain ⟨more, rfl, h5, h6⟩ := with_default hp hg hn h1 rfl (fun t ht => by
    obtain ⟨y, hy, rfl⟩ := List.mem_map.1 ht
    exact .typed (List.mem_append_right _ hy)) hwith
  have h7 := h2 _ _ _ (piece_goes hp hgo (by rw [(default_plain hg ch).1]; exact h6))
  rw [← htoks] at h7
  rw [led_run hc hu hl s htext hlen h7, accepted_outcome hc hm hk h7]
  simp only [List.nil_append]
  rw [modeOf_default hp hg ?_ ?_]
  · exact ended_same rfl fun _ => rfl
  · intro l hl hf
    obtain ⟨x, hx, hlx⟩ := h4 l hl
    exact other_use hp hg hn (hmem x hx) (hother x hx) (hb x hx).declared l hlx
      (default_isFor_hash hp hg hf)
  · intro l hl hf
    exact h5 l hl (default_isFor_hash hp hg hf)

end

/-! ## Examples -/

theorem toolOut_policies : ∀ q ∈ toolOut.policies, (match q with
    | .minMaxValue .. => false | .validation .. => false | .multiStage .. => false
    | .valueSeparator .. => false | .required => false | .runtimeEnableRequired .. => false
    | _ => true) = true := by
  decide

theorem out_default : GivesDefault toolMode (outTyped (b "9")) (.one (.int 9)) where
  optional := {
    leaf := by decide
    single := rfl
    value := rfl
    fallback := by
      refine ⟨?_, by decide⟩
      rintro (h | ⟨v, h⟩)
      · exact absurd (toolOut_policies _ h) (by simp)
      · exact absurd (toolOut_policies _ h) (by simp)
    fine := .fine fun q hq => .indifferent
      (by rintro _ _ _ rfl; exact absurd (toolOut_policies _ hq) (by simp))
      (by rintro _ _ rfl; exact absurd (toolOut_policies _ hq) (by simp)) }
  once f h := absurd (toolOut_policies _ h) (by simp)
  child := rfl
  noAlias := rfl
  value := (gives_iff (.inr (.inr (by decide))) _).2 (by decide +kernel)
  type := by
    intro j d hd x hx hh
    have : ∀ j < 4, ∀ d ∈ toolMode.children[j]?, ∀ x ∈ d.nodes, x.hash = 44 → j = 3 := by decide
    refine this j ?_ d hd x hx hh
    exact (List.getElem?_eq_some_iff.1 hd).1
  needed a ha refs h := absurd (.inr h) (toolRoot_unlinked a.2
    (child_mem_nodes (n := toolRoot) (c := toolMode) List.mem_cons_self _ (arguments_nodes ha)) refs)

theorem out_elsewhere {others : List Bytes} (h : b "--out" ∉ others) :
    NotGivenElsewhere .default toolMode (outTyped (b "9")) others where
  free := rfl
  unused := ⟨rfl, longOnly_unmentioned (n := b "out") rfl rfl rfl
    (fun s hs => absurd (toolOut_policies _ hs) (by simp)) h⟩
  noAlias a ha refs h := absurd (.inl h) (toolRoot_unlinked a.2
    (child_mem_nodes (n := toolRoot) (c := toolMode) List.mem_cons_self _ (arguments_nodes ha)) refs)

/-- The hypotheses of the C116 theorems are met, by `--num` with any value that is not `--out`, then
`--out 9`, then `-a`. -/
example (v : Bytes) (hv : v ≠ b "--out") :
    LedTo .default toolRoot toolMode [] (typed [numTyped v] ++ (outTyped (b "9")).words ++ [b "-a"]) ∧
    LedTo .default toolRoot toolMode [] (typed [numTyped v] ++ [b "-a"]) ∧
    (∀ x ∈ [numTyped v], x.Fits .default toolMode) ∧ (outTyped (b "9")).Fits .default toolMode ∧
    GivesDefault toolMode (outTyped (b "9")) (.one (.int 9)) ∧
    NotGivenElsewhere .default toolMode (outTyped (b "9")) (typed [numTyped v] ++ [b "-a"]) := by
  refine ⟨toolMode_led _, toolMode_led _, ?_, out_fits _, out_default, out_elsewhere ?_⟩
  · simp only [List.mem_singleton]
    rintro x rfl
    exact num_fits v
  · intro h
    simp only [typed, TypedArg.words, numTyped, List.flatMap_cons, List.flatMap_nil, List.append_nil,
      List.cons_append, List.nil_append, List.mem_cons, List.not_mem_nil, or_false] at h
    rcases h with h | h | h
    · exact absurd h (by decide)
    · exact hv h.symm
    · exact absurd h (by decide)

/-- What C116 is about; and why the argument must not be given elsewhere. -/
example :
    parseArgs .default toolRoot [b "--num", b "5", b "--out", b "9", b "-a"] .fresh =
      (.ok (), ⟨[], [⟨45, [.one (.bool true), .one (.int 0), .one (.int 5), .one (.int 9)]⟩]⟩) ∧
    parseArgs .default toolRoot [b "--num", b "5", b "-a"] .fresh =
      (.ok (), ⟨[], [⟨45, [.one (.bool true), .one (.int 0), .one (.int 5), .one (.int 9)]⟩]⟩) ∧
    parseArgs .default toolRoot [b "--num", b "5", b "--out", b "9", b "--out", b "3"] .fresh =
      (.throw ⟨.argument_has_already_been_set, [⟨.none, b "--out"⟩]⟩, .fresh) := by
  decide +kernel

/-- Why no other argument may need it: an argument that needs `--out`. -/
def afterOut : Node := mkArg 47 47 digitType [.longName (b "mode"), .defaultValue (.one (.int 1)),
  .dependent [.long (b "out")]]
def afterOutRoot : Node := mkRoot 46 46 [mkMode 45 45 [.router] [toolOut, afterOut]]

example :
    parseArgs .default afterOutRoot [b "--out", b "9", b "--mode", b "1"] .fresh =
      (.ok (), ⟨[], [⟨45, [.one (.int 9), .one (.int 1)]⟩]⟩) ∧
    parseArgs .default afterOutRoot [b "--mode", b "1"] .fresh =
      (.throw ⟨.dependent_argument_missing, [⟨.long, b "out"⟩]⟩, .fresh) := by
  decide +kernel

end ArgRouter.Props
