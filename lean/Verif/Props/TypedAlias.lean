import Verif.Props.TypedDefault

/-!
# Other arguments that mean the same

C118: an alias may be typed, or the arguments it stands for.
-/

namespace ArgRouter.Props

open Spec

variable {cfg : Config} {depth : Nat} {root mode : Node} {names : List Bytes} {others : List Bytes}

theorem own_argument {p : TypedArg} (hp : p.Fits cfg mode) (ho : OnItsOwn cfg mode others p) {a : Nat × Node}
    (ha : a ∈ arguments mode) (hi : a.1 = p.argument.1) : a = p.argument := by
  obtain ⟨c, -, h1, h2, h3⟩ := argumentsFrom_child ha
  rw [Nat.sub_zero, hi, ho.child] at h1
  cases h1
  rw [members_leaf hp.declared.leaf] at h3
  exact Prod.ext hi (by simpa using h3)

theorem own_plain {p : TypedArg} (hp : p.Fits cfg mode) (ho : OnItsOwn cfg mode others p)
    (chosen : Choices) : choose mode chosen p.argument = chosen ∧
    ∀ o, ¬ Clashes mode chosen p.argument o := by
  have h : oneOfAt mode p.argument = none := by
    unfold oneOfAt
    rw [ho.child, Option.filter_some, if_neg]
    simpa using hp.declared.leaf.2.2
  constructor
  · unfold choose
    rw [h]
  · rintro o ⟨h1, -⟩
    rw [h] at h1
    cases h1

/-- Arguments on their own that are accepted: the rest is read after them. -/
theorem own_accepted (ho : Ordinary mode) {ps : List TypedArg}
    (hp : ∀ x ∈ ps, x.Fits cfg mode) (hown : ∀ x ∈ ps, OnItsOwn cfg mode others x) {rest : List Token}
    {uses : List Leaf} {chosen c : Choices} : ∀ {sofar : List Leaf} {used : List Nat},
    weight (ps.flatMap TypedArg.tokens ++ rest) < 2 ^ 63 →
    (Expanding mode → ∀ t ∈ ps.flatMap TypedArg.tokens ++ rest, Readable cfg t) →
    Reading cfg mode chosen sofar used (ps.flatMap TypedArg.tokens ++ rest) (.accepts uses) c →
    ∃ used', Reading cfg mode chosen (sofar ++ ps.flatMap (·.uses mode)) used' rest (.accepts uses) c ∧
      ∀ i, i ∈ used' ↔ i ∈ used ∨ ∃ x ∈ ps, i = x.argument.1 := by
  induction ps with
  | nil =>
    intro sofar used _ _ h
    exact ⟨used, by simpa using h, fun i => by simp⟩
  | cons x ps ih =>
    intro sofar used hw hread hr
    have hx := hp x List.mem_cons_self
    simp only [List.flatMap_cons, List.append_assoc] at hw hread hr ⊢
    rcases stops_or_goes mode x chosen sofar used with ⟨e, ce, hs⟩ | hg
    · obtain ⟨h, -⟩ := reading_unique ho (piece_stops hx hs _) hw hread hr
      cases h
    · have h0 := piece_inv hx ho hg hw hread hr
      rw [(own_plain hx (hown x List.mem_cons_self) chosen).1] at h0
      obtain ⟨used', h1, h2⟩ := ih (fun y hy => hp y (List.mem_cons_of_mem _ hy))
        (fun y hy => hown y (List.mem_cons_of_mem _ hy))
        (by rw [weight_append] at hw; omega) (fun he t ht => hread he t (List.mem_append_right _ ht)) h0
      refine ⟨used', by simpa using h1, fun i => ?_⟩
      rw [h2]
      simp only [List.mem_cons, exists_eq_or_imp]
      constructor
      · rintro ((h | h) | h)
        · exact .inr (.inl h)
        · exact .inl h
        · exact .inr (.inr h)
      · rintro (h | h | h)
        · exact .inl (.inr h)
        · exact .inl (.inl h)
        · exact .inr h

/-- Arguments on their own, each once, go through. -/
theorem own_goes {ps : List TypedArg} (hp : ∀ x ∈ ps, x.Fits cfg mode)
    (hown : ∀ x ∈ ps, OnItsOwn cfg mode others x) (hd : NoneTwice ps)
    {rest : List Token} {r : Result} {chosen c : Choices} : ∀ {sofar : List Leaf} {used : List Nat},
    (∀ x ∈ ps, Available used x.argument) →
    Reading cfg mode chosen (sofar ++ ps.flatMap (·.uses mode)) ((ps.map (·.argument.1)).reverse ++ used)
      rest r c →
    Reading cfg mode chosen sofar used (ps.flatMap TypedArg.tokens ++ rest) r c := by
  induction ps with
  | nil =>
    intro sofar used _ h
    simpa using h
  | cons x ps ih =>
    intro sofar used hu hr
    have hx := hp x List.mem_cons_self
    have hxo := hown x List.mem_cons_self
    obtain ⟨hd1, hd2⟩ := List.pairwise_cons.1 hd
    simp only [List.flatMap_cons, List.append_assoc]
    refine piece_goes hx ⟨(own_plain hx hxo chosen).2, hu x List.mem_cons_self, ?_⟩ ?_
    · rintro d ⟨refs, _, _, h, -⟩
      rw [hxo.free] at h
      cases h
    · rw [(own_plain hx hxo chosen).1]
      refine ih (fun y hy => hp y (List.mem_cons_of_mem _ hy))
        (fun y hy => hown y (List.mem_cons_of_mem _ hy)) hd2 ?_ ?_
      · intro y hy
        by_cases h : x.argument.1 = y.argument.1
        · exact .inl (hd1 y hy h)
        · refine (hu y (List.mem_cons_of_mem _ hy)).imp id fun h1 hm => ?_
          rcases List.mem_cons.1 hm with h2 | h2
          · exact h h2.symm
          · exact h1 h2
      · simpa using hr

/-- Whether arguments that are not mentioned have been used makes no difference to what is accepted. -/
theorem unmentioned_used {K : Nat → Prop}
    (hK : ∀ a ∈ arguments mode, K a.1 → a.2.isNamed = true ∧
      (a.2.isMultiStage = true ∨ ∀ t, Arises cfg others t → ¬ Mentions cfg a.2 t))
    {chosen c : Choices} {sofar uses : List Leaf} {used : List Nat} {args : List Token} {r : Result}
    (hr : Reading cfg mode chosen sofar used args r c) :
    r = .accepts uses → (∀ t ∈ args, Arises cfg others t) →
      ∀ {used' : List Nat}, (∀ i, ¬ K i → (i ∈ used ↔ i ∈ used')) →
      Reading cfg mode chosen sofar used' args (.accepts uses) c := by
  induction hr generalizing uses with
  | done =>
    intro h _ used' _
    cases h
    exact .done
  | @take chosen c sofar us used t rest left a r hf hk ha hcl hrd ih =>
    intro h hargs used' hs
    have ham := First.mem hf
    have hav : ∀ x : Nat × Node, ¬ K x.1 → (Available used x ↔ Available used' x) := by
      intro x hx
      unfold Available
      rw [hs _ hx]
    have hwants : ∀ x ∈ arguments mode, (Wants cfg mode sofar used t rest x ↔
        Wants cfg mode sofar used' t rest x) := by
      intro x hx
      unfold Wants
      by_cases hk : K x.1
      · simp [(hK x hx hk).1]
      · rw [hav x hk]
    obtain ⟨b, e, h1, h2, h3⟩ := hf
    refine .take (a := a) ⟨b, e, h1, fun x hx hw => h2 x hx ((hwants x (by rw [h1]; simp [hx])).2 hw),
      (hwants a ham).1 h3⟩ hk ?_ hcl (ih h (claims_left hcl hargs) ?_)
    · by_cases hk : K a.1
      · obtain ⟨hn, hm | hm⟩ := hK a ham hk
        · exact .inl hm
        · exact absurd (claims_mentions hn hcl) (hm t (hargs t List.mem_cons_self))
      · exact (hav a hk).1 ha
    · intro i hi
      rw [List.mem_cons, List.mem_cons, hs i hi]
  | clash => exact fun h => nomatch h
  | again => exact fun h => nomatch h
  | refused => exact fun h => nomatch h
  | unhandled => exact fun h => nomatch h
  | unknown => exact fun h => nomatch h

/-! ## C118 -/

section
variable (hc : compiles cfg depth defaultRules root = true) (hu : Conventional root)
include hc hu

/-- C118: on a command line arguments may be replaced by others that mean the same uses (of other
arguments, if they are aliases), each of them a child of the mode of its own that needs no other argument and
may be repeated or is not used elsewhere: what is accepted with the ones is accepted with the others, with the same calls. -/
theorem C118_same_uses {before ps qs : List TypedArg} {after : List Bytes} (s : St)
    (hl : LedTo cfg root mode names (typed before ++ typed ps ++ after))
    (hl' : LedTo cfg root mode names (typed before ++ typed qs ++ after))
    (hb : ∀ x ∈ before, x.Fits cfg mode) (hp : ∀ x ∈ ps, x.Fits cfg mode) (hq : ∀ x ∈ qs, x.Fits cfg mode)
    (hpo : ∀ x ∈ ps, OnItsOwn cfg mode (typed before ++ after) x)
    (hqo : ∀ x ∈ qs, OnItsOwn cfg mode (typed before ++ after) x)
    (hd : NoneTwice qs) (hsame : ps.flatMap (·.uses mode) = qs.flatMap (·.uses mode))
    (htext : ∀ x ∈ names ++ (typed before ++ typed ps ++ after), Readable cfg ⟨.none, x⟩)
    (htext' : ∀ x ∈ names ++ (typed before ++ typed qs ++ after), Readable cfg ⟨.none, x⟩)
    (hlen : ((names ++ (typed before ++ typed ps ++ after)).map List.length).sum +
      (names ++ (typed before ++ typed ps ++ after)).length < 2 ^ 63)
    (hlen' : ((names ++ (typed before ++ typed qs ++ after)).map List.length).sum +
      (names ++ (typed before ++ typed qs ++ after)).length < 2 ^ 63)
    (hok : (parseArgs cfg root (names ++ (typed before ++ typed ps ++ after)) s).1 = .ok ()) :
    EndAlike (parseArgs cfg root (names ++ (typed before ++ typed ps ++ after)) s)
      (parseArgs cfg root (names ++ (typed before ++ typed qs ++ after)) s) := by
  have hprog := C92_ordinary_partial hc hu
  obtain ⟨hm, hk⟩ := ledTo_mem hl
  obtain ⟨hord, hrep⟩ := ledTo_ordinary hprog hl
  have htoks : ∀ xs : List TypedArg, (typed before ++ typed xs ++ after).map (Token.mk .none) =
      before.flatMap TypedArg.tokens ++ (xs.flatMap TypedArg.tokens ++ after.map (Token.mk .none)) := by
    intro xs
    rw [List.map_append, List.map_append, typed_tokens, typed_tokens, List.append_assoc]
  have hw : weight ((typed before ++ typed ps ++ after).map (Token.mk .none)) < 2 ^ 63 := by
    refine Nat.lt_of_le_of_lt (weight_raw _) (fits_shorter ?_ hlen)
    exact List.sublist_append_right _ _
  have hread : Expanding mode → ∀ t ∈ (typed before ++ typed ps ++ after).map (Token.mk .none),
      Readable cfg t := by
    intro _ t ht
    obtain ⟨y, hy, rfl⟩ := List.mem_map.1 ht
    exact htext y (List.mem_append_right _ hy)
  obtain ⟨r, c, hr⟩ := reading_of (chosen := s.sel) hord hrep hw hread
  have hrun := led_run hc hu hl s htext hlen hr
  rw [hrun] at hok ⊢
  obtain ⟨uses, rfl⟩ : ∃ uses, r = .accepts uses := by
    by_cases h : ∃ uses, r = .accepts uses
    · exact h
    · obtain ⟨o, h1, h2⟩ := outcome_failed cfg mode fun uses hr => h ⟨uses, hr⟩
      rw [h2] at hok
      exact absurd hok h1
  rw [accepted_outcome hc hm hk hr]
  rw [htoks] at hw hread hr
  obtain ⟨ch, b, used', h1, h2, h3, -⟩ := before_accepted hord hb hw hread hr
  have hw2 : weight (ps.flatMap TypedArg.tokens ++ after.map (Token.mk .none)) < 2 ^ 63 := by
    rw [weight_append] at hw
    omega
  obtain ⟨used2, h4, h5⟩ := own_accepted hord hp hpo hw2
    (fun he t ht => hread he t (List.mem_append_right _ ht)) h1
  rw [hsame] at h4
  have hmem : ∀ x : TypedArg, x.Fits cfg mode → x.argument ∈ arguments mode := by
    intro x hx
    obtain ⟨_, _, h, -⟩ := hx.first
    rw [h]
    simp
  have hfree : ∀ x ∈ qs, Available used' x.argument := by
    intro x hx
    refine (hqo x hx).once.imp id fun hun hi => ?_
    rcases h3 _ hi with h | ⟨y, hy, h⟩
    · cases h
    · have he := own_argument (hq x hx) (hqo x hx) (hmem y (hb y hy)) h.symm
      obtain ⟨follows, h5, -⟩ := (hb y hy).takes []
      obtain ⟨cl, h6⟩ := labels_claims (mode := mode) (sofar := []) h5
      have h7 : Mentions cfg y.argument.2 ⟨.none, y.word⟩ :=
        claims_mentions (hb y hy).named ⟨y.shape, (hb y hy).declared, h6⟩
      rw [he] at h7
      refine hun.unmentioned _ (.typed ?_) h7
      refine List.mem_append_left _ (List.mem_flatMap.2 ⟨y, hy, ?_⟩)
      simp [TypedArg.words]
  have h6 := unmentioned_used (others := typed before ++ after)
    (K := fun i => (∃ x ∈ ps, i = x.argument.1) ∨ ∃ x ∈ qs, i = x.argument.1)
    (by
      rintro a ha (⟨x, hx, h⟩ | ⟨x, hx, h⟩)
      · obtain rfl := own_argument (hp x hx) (hpo x hx) ha h
        exact ⟨(hp x hx).named, (hpo x hx).once.imp id fun h => h.unmentioned⟩
      · obtain rfl := own_argument (hq x hx) (hqo x hx) ha h
        exact ⟨(hq x hx).named, (hqo x hx).once.imp id fun h => h.unmentioned⟩)
    h4 rfl (fun t ht => by
      obtain ⟨y, hy, rfl⟩ := List.mem_map.1 ht
      exact .typed (List.mem_append_right _ hy))
    (used' := (qs.map (·.argument.1)).reverse ++ used') (by
      intro i hi
      have h7 : ¬ ∃ x ∈ ps, i = x.argument.1 := fun h => hi (.inl h)
      have h8 : ¬ i ∈ (qs.map (·.argument.1)).reverse := by
        intro h
        obtain ⟨x, hx, rfl⟩ := List.mem_map.1 (List.mem_reverse.1 h)
        exact hi (.inr ⟨x, hx, rfl⟩)
      rw [h5, List.mem_append]
      simp only [h7, h8, or_false, false_or])
  have h7 := h2 _ _ _ (own_goes hq hqo hd hfree h6)
  rw [← htoks] at h7
  rw [led_run hc hu hl' s htext' hlen' h7, accepted_outcome hc hm hk h7]
  exact ended_same rfl fun _ => rfl

omit hc hu in
theorem stands_same {p : TypedArg} {qs : List TypedArg} (h : StandsFor mode p qs) :
    [p].flatMap (·.uses mode) = qs.flatMap (·.uses mode) := by
  obtain ⟨⟨refs, h1, h2⟩, h3⟩ := h
  have h4 : ∀ qs : List TypedArg, (∀ q ∈ qs, q.values = p.values ∧ q.shape.aliasOf = none) →
      qs.flatMap (·.uses mode) = (qs.map (·.argument.2)).map fun d => ⟨d, p.values⟩ := by
    intro qs
    induction qs with
    | nil => exact fun _ => rfl
    | cons q qs ih =>
      intro h
      obtain ⟨h4, h5⟩ := h q List.mem_cons_self
      rw [List.flatMap_cons, ih fun x hx => h x (List.mem_cons_of_mem _ hx)]
      simp [TypedArg.uses, Shape.uses, h4, h5]
  rw [h4 qs h3, h2]
  simp [TypedArg.uses, Shape.uses, h1]

/-- C118: typing an alias is the same as typing the arguments it stands for, in the order of their
declaration and with its values: if the one command line is accepted, then so is the other, with the
same calls. -/
theorem C118_alias {before : List TypedArg} {p : TypedArg} {qs : List TypedArg} {after : List Bytes}
    (s : St) (hl : LedTo cfg root mode names (typed before ++ p.words ++ after))
    (hl' : LedTo cfg root mode names (typed before ++ typed qs ++ after))
    (hb : ∀ x ∈ before, x.Fits cfg mode) (hp : ∀ x ∈ p :: qs, x.Fits cfg mode)
    (ho : ∀ x ∈ p :: qs, OnItsOwn cfg mode (typed before ++ after) x)
    (hd : NoneTwice qs) (hs : StandsFor mode p qs)
    (htext : ∀ x ∈ names ++ (typed before ++ p.words ++ after), Readable cfg ⟨.none, x⟩)
    (htext' : ∀ x ∈ names ++ (typed before ++ typed qs ++ after), Readable cfg ⟨.none, x⟩)
    (hlen : ((names ++ (typed before ++ p.words ++ after)).map List.length).sum +
      (names ++ (typed before ++ p.words ++ after)).length < 2 ^ 63)
    (hlen' : ((names ++ (typed before ++ typed qs ++ after)).map List.length).sum +
      (names ++ (typed before ++ typed qs ++ after)).length < 2 ^ 63)
    (hok : (parseArgs cfg root (names ++ (typed before ++ p.words ++ after)) s).1 = .ok () ∨
      (parseArgs cfg root (names ++ (typed before ++ typed qs ++ after)) s).1 = .ok ()) :
    EndAlike (parseArgs cfg root (names ++ (typed before ++ p.words ++ after)) s)
      (parseArgs cfg root (names ++ (typed before ++ typed qs ++ after)) s) := by
  have hone : typed [p] = p.words := by simp [typed]
  have hp1 : ∀ x ∈ [p], x ∈ p :: qs := fun x hx => by
    rw [List.mem_singleton.1 hx]
    exact List.mem_cons_self
  have hq1 : ∀ x ∈ qs, x ∈ p :: qs := fun x hx => List.mem_cons_of_mem _ hx
  rw [← hone] at hl htext hlen hok ⊢
  rcases hok with hok | hok
  · exact C118_same_uses hc hu s hl hl' hb (fun x hx => hp x (hp1 x hx)) (fun x hx => hp x (hq1 x hx))
      (fun x hx => ho x (hp1 x hx)) (fun x hx => ho x (hq1 x hx)) hd (stands_same hs) htext htext' hlen
      hlen' hok
  · have h := C118_same_uses hc hu s hl' hl hb (fun x hx => hp x (hq1 x hx))
      (fun x hx => hp x (hp1 x hx)) (fun x hx => ho x (hq1 x hx)) (fun x hx => ho x (hp1 x hx))
      (List.pairwise_singleton _ _) (stands_same hs).symm htext' htext hlen' hlen hok
    exact ⟨h.outcome.symm, h.calls.symm, fun h' u => (h.choices hok u).symm⟩

end

/-! ## Examples -/

/-- `--size` stands for `--width` and `--height`. -/
def sizeW : Node := mkArg 101 101 digitType [.longName (b "width"), .defaultValue (.one (.int 1))]
def sizeH : Node := mkArg 102 102 digitType [.longName (b "height"), .defaultValue (.one (.int 2))]
def sizeBoth : Node := mkArg 103 103 digitType [.longName (b "size"),
  .alias [.long (b "width"), .long (b "height")]]
def sizeNum : Node := mkArg 104 104 digitType [.longName (b "num"), .required]
def sizeMode : Node := mkMode 105 105 [.router] [sizeBoth, sizeW, sizeH, sizeNum]
def sizeRoot : Node := mkRoot 106 106 [sizeMode]

theorem sizeMode_led (rest : List Bytes) : LedTo .default sizeRoot sizeMode [] rest where
  way := ⟨[], sizeMode, [], rfl, .unnamed rfl (by decide), fun d hd => nomatch hd⟩
  here := by
    intro t _ d hd hk
    have : ∀ d ∈ sizeMode.children, d.kind ≠ .mode := by decide
    exact absurd hk (this d hd)

def bothSize (v : Bytes) : TypedArg :=
  ⟨(0, sizeBoth), shapeOf sizeBoth, b "--size", [v], [⟨.none, v⟩]⟩
def widthSize (v : Bytes) : TypedArg :=
  ⟨(1, sizeW), shapeOf sizeW, b "--width", [v], [⟨.none, v⟩]⟩
def heightSize (v : Bytes) : TypedArg :=
  ⟨(2, sizeH), shapeOf sizeH, b "--height", [v], [⟨.none, v⟩]⟩
def numSize (v : Bytes) : TypedArg :=
  ⟨(3, sizeNum), shapeOf sizeNum, b "--num", [v], [⟨.none, v⟩]⟩

theorem size_fits (v : Bytes) : (bothSize v).Fits .default sizeMode ∧
    (widthSize v).Fits .default sizeMode ∧ (heightSize v).Fits .default sizeMode ∧
    (numSize v).Fits .default sizeMode := by
  refine ⟨?_, ?_, ?_, ?_⟩
  · exact C114_label (declared_of_test (by decide +kernel)) rfl (by decide) (by decide) rfl rfl
      (.inl ⟨b "size", rfl, rfl⟩) ⟨[], [(1, sizeW), (2, sizeH), (3, sizeNum)], rfl, by simp⟩
  · refine C114_label (declared_of_test (by decide +kernel)) rfl (by decide) (by decide) rfl rfl
      (.inl ⟨b "width", rfl, rfl⟩) ⟨[(0, sizeBoth)], [(2, sizeH), (3, sizeNum)], rfl, ?_⟩
    intro x hx
    simp only [List.mem_cons, List.not_mem_nil, or_false] at hx
    rcases hx with rfl
    exact ⟨rfl, dashes_unmentioned (l := b "width") (by decide) rfl (by decide)⟩
  · refine C114_label (declared_of_test (by decide +kernel)) rfl (by decide) (by decide) rfl rfl
      (.inl ⟨b "height", rfl, rfl⟩) ⟨[(0, sizeBoth), (1, sizeW)], [(3, sizeNum)], rfl, ?_⟩
    intro x hx
    simp only [List.mem_cons, List.not_mem_nil, or_false] at hx
    rcases hx with rfl | rfl
    · exact ⟨rfl, dashes_unmentioned (l := b "height") (by decide) rfl (by decide)⟩
    · exact ⟨rfl, dashes_unmentioned (l := b "height") (by decide) rfl (by decide)⟩
  · refine C114_label (declared_of_test (by decide +kernel)) rfl (by decide) (by decide) rfl rfl
      (.inl ⟨b "num", rfl, rfl⟩) ⟨[(0, sizeBoth), (1, sizeW), (2, sizeH)], [], rfl, ?_⟩
    intro x hx
    simp only [List.mem_cons, List.not_mem_nil, or_false] at hx
    rcases hx with rfl | rfl | rfl
    · exact ⟨rfl, dashes_unmentioned (l := b "num") (by decide) rfl (by decide)⟩
    · exact ⟨rfl, dashes_unmentioned (l := b "num") (by decide) rfl (by decide)⟩
    · exact ⟨rfl, dashes_unmentioned (l := b "num") (by decide) rfl (by decide)⟩

theorem size_policies : ∀ c ∈ sizeMode.children, ∀ q ∈ c.policies, (match q with
    | .valueSeparator .. => false | _ => true) = true := by
  decide

theorem size_own {x : TypedArg} {n : Bytes} {others : List Bytes}
    (h : sizeMode.children[x.argument.1]? = some x.argument.2) (hf : x.shape.needs = none)
    (hnm : x.argument.2.isNamed = true) (hn : x.argument.2.longName = some n)
    (hs : x.argument.2.shortName = none) (hno : x.argument.2.noneName = none)
    (ho : b "--" ++ n ∉ others) : OnItsOwn .default sizeMode others x where
  child := h
  free := hf
  once := .inr ⟨hnm, longOnly_unmentioned hn hs hno (fun s hx =>
    absurd (size_policies _ (List.mem_of_getElem? h) _ hx) (by simp)) ho⟩

/-- The hypotheses of the C118 theorems are met, by `--num 5`, then `--size` with any value, or `--width`
and `--height` with it. -/
example (v : Bytes) : compiles .default 100 defaultRules sizeRoot = true ∧ Conventional sizeRoot ∧
    LedTo .default sizeRoot sizeMode [] (typed [numSize (b "5")] ++ (bothSize v).words ++ []) ∧
    LedTo .default sizeRoot sizeMode []
      (typed [numSize (b "5")] ++ typed [widthSize v, heightSize v] ++ []) ∧
    (∀ x ∈ [numSize (b "5")], x.Fits .default sizeMode) ∧
    (∀ x ∈ [bothSize v, widthSize v, heightSize v], x.Fits .default sizeMode) ∧
    (∀ x ∈ [bothSize v, widthSize v, heightSize v],
      OnItsOwn .default sizeMode (typed [numSize (b "5")] ++ []) x) ∧
    NoneTwice [widthSize v, heightSize v] ∧ StandsFor sizeMode (bothSize v) [widthSize v, heightSize v] := by
  refine ⟨by decide +kernel, conventional_of_test (by decide +kernel), sizeMode_led _, sizeMode_led _,
    ?_, ?_, ?_, ?_, ⟨⟨_, rfl, rfl⟩, ?_⟩⟩
  · simp only [List.mem_singleton]
    rintro x rfl
    exact (size_fits _).2.2.2
  · simp only [List.mem_cons, List.not_mem_nil, or_false]
    rintro x (rfl | rfl | rfl)
    · exact (size_fits v).1
    · exact (size_fits v).2.1
    · exact (size_fits v).2.2.1
  · simp only [List.mem_cons, List.not_mem_nil, or_false]
    rintro x (rfl | rfl | rfl)
    · exact size_own (n := b "size") rfl rfl rfl rfl rfl rfl (by decide)
    · exact size_own (n := b "width") rfl rfl rfl rfl rfl rfl (by decide)
    · exact size_own (n := b "height") rfl rfl rfl rfl rfl rfl (by decide)
  · simp [NoneTwice, widthSize, heightSize]
  · simp only [List.mem_cons, List.not_mem_nil, or_false]
    rintro x (rfl | rfl)
    · exact ⟨rfl, rfl⟩
    · exact ⟨rfl, rfl⟩

/-- What C118 is about. -/
example :
    parseArgs .default sizeRoot [b "--num", b "5", b "--size", b "3"] .fresh =
      (.ok (), ⟨[], [⟨105, [.one (.int 3), .one (.int 3), .one (.int 5)]⟩]⟩) ∧
    parseArgs .default sizeRoot [b "--num", b "5", b "--width", b "3", b "--height", b "3"] .fresh =
      (.ok (), ⟨[], [⟨105, [.one (.int 3), .one (.int 3), .one (.int 5)]⟩]⟩) := by
  decide +kernel

/-- `--deep` stands for `--depth`, which needs `--num`. -/
def deepArg : Node := mkArg 101 101 digitType [.longName (b "depth"), .defaultValue (.one (.int 1)),
  .dependent [.long (b "num")]]
def deepAlias : Node := mkArg 103 103 digitType [.longName (b "deep"), .alias [.long (b "depth")]]
def deepNum : Node := mkArg 104 104 digitType [.longName (b "num"), .defaultValue (.one (.int 5))]
def deepRoot : Node := mkRoot 106 106 [mkMode 105 105 [.router] [deepAlias, deepArg, deepNum]]

/-- C118: why the arguments may not need others: an argument that needs another may be given through its
alias without the other, but not directly. -/
theorem C118_needs : compiles .default 100 defaultRules deepRoot = true ∧
    parseArgs .default deepRoot [b "--deep", b "3"] .fresh =
      (.ok (), ⟨[], [⟨105, [.one (.int 3), .one (.int 5)]⟩]⟩) ∧
    parseArgs .default deepRoot [b "--depth", b "3"] .fresh =
      (.throw ⟨.dependent_argument_missing, [⟨.long, b "num"⟩]⟩, .fresh) := by
  decide +kernel

end ArgRouter.Props
