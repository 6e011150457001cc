import Verif.Spec.Typed
import Verif.Props.Rearranged

/-!
# Parts of a command line that are whole arguments
-/

namespace ArgRouter

open Spec Props

variable {cfg : Config} {mode : Node}

/-! ## One argument -/

/-- The argument is not taken, with this error; the choices afterwards. -/
inductive Stops (mode : Node) (p : TypedArg) (chosen : Choices) (sofar : List Leaf) (used : List Nat) :
    Exc → Choices → Prop
  | clash {o : Node} : Clashes mode chosen p.argument o →
      Stops mode p chosen sofar used ⟨.one_of_selected_type_mismatch, [o.tokenType]⟩ chosen
  | again : (∀ o, ¬ Clashes mode chosen p.argument o) → ¬ Available used p.argument →
      Stops mode p chosen sofar used ⟨.argument_has_already_been_set, [⟨.none, p.word⟩]⟩
        (choose mode chosen p.argument)
  | lacks {d : Node} : (∀ o, ¬ Clashes mode chosen p.argument o) → Available used p.argument →
      Lacks mode sofar p.shape d →
      Stops mode p chosen sofar used ⟨.dependent_argument_missing, [d.tokenType]⟩
        (choose mode chosen p.argument)

/-- The argument is taken. -/
structure Goes (mode : Node) (p : TypedArg) (chosen : Choices) (sofar : List Leaf) (used : List Nat) :
    Prop where
  clash : ∀ o, ¬ Clashes mode chosen p.argument o
  available : Available used p.argument
  needs : ∀ d, ¬ Lacks mode sofar p.shape d

theorem stops_or_goes (mode : Node) (p : TypedArg) (chosen : Choices) (sofar : List Leaf)
    (used : List Nat) :
    (∃ e c, Stops mode p chosen sofar used e c) ∨ Goes mode p chosen sofar used := by
  by_cases h1 : ∃ o, Clashes mode chosen p.argument o
  · obtain ⟨o, h1⟩ := h1
    exact .inl ⟨_, _, .clash h1⟩
  · have h1 : ∀ o, ¬ Clashes mode chosen p.argument o := fun o h => h1 ⟨o, h⟩
    by_cases h2 : Available used p.argument
    · by_cases h3 : ∃ d, Lacks mode sofar p.shape d
      · obtain ⟨d, h3⟩ := h3
        exact .inl ⟨_, _, .lacks h1 h2 h3⟩
      · exact .inr ⟨h1, h2, fun d h => h3 ⟨d, h⟩⟩
    · exact .inl ⟨_, _, .again h1 h2⟩

/-- The words of the argument, as tokens. -/
def Spec.TypedArg.tokens (p : TypedArg) : List Token := p.words.map (Token.mk .none)

theorem piece_first {p : TypedArg} (h : p.Fits cfg mode) (sofar : List Leaf) (used : List Nat)
    (rest : List Token) :
    First cfg mode sofar used ⟨.none, p.word⟩ (p.more.map (Token.mk .none) ++ rest) p.argument := by
  obtain ⟨before, after, h1, h2⟩ := h.first
  refine ⟨before, after, h1, ?_, ?_, .inl h.named⟩
  · rintro x hx ⟨⟨cl, hcl⟩, -⟩
    obtain ⟨h3, h4⟩ := h2 x hx
    exact h4 (claims_mentions h3 hcl)
  · obtain ⟨follows, h3, -⟩ := h.takes rest
    obtain ⟨cl, hcl⟩ := labels_claims (mode := mode) (sofar := sofar) h3
    exact ⟨cl, p.shape, h.declared, hcl⟩

theorem piece_stops {p : TypedArg} (h : p.Fits cfg mode) {chosen c : Choices} {sofar : List Leaf}
    {used : List Nat} {e : Exc} (hs : Stops mode p chosen sofar used e c) (rest : List Token) :
    Reading cfg mode chosen sofar used (p.tokens ++ rest) (.fails e) c := by
  have hf := piece_first h sofar used rest
  cases hs with
  | clash hk => exact .clash hf hk
  | again hk ha => exact .again hf hk ha
  | lacks hk ha hl =>
    obtain ⟨follows, h3, h4⟩ := h.takes rest
    exact .refused hf hk ha ⟨p.shape, h.declared, .lacks h3 h4 hl⟩

theorem piece_claim {p : TypedArg} (h : p.Fits cfg mode) {sofar : List Leaf}
    (hn : ∀ d, ¬ Lacks mode sofar p.shape d) (rest : List Token) :
    Claims cfg mode sofar p.argument.2 ⟨.none, p.word⟩ (p.more.map (Token.mk .none) ++ rest)
      (.takes (p.uses mode) rest) := by
  obtain ⟨follows, h3, h4⟩ := h.takes rest
  exact ⟨p.shape, h.declared, .takes h3 h4 hn⟩

theorem piece_goes {p : TypedArg} (h : p.Fits cfg mode) {chosen c : Choices} {sofar : List Leaf}
    {used : List Nat} (hg : Goes mode p chosen sofar used) {rest : List Token} {r : Result}
    (hr : Reading cfg mode (choose mode chosen p.argument) (sofar ++ p.uses mode)
      (p.argument.1 :: used) rest r c) :
    Reading cfg mode chosen sofar used (p.tokens ++ rest) r c :=
  .take (piece_first h sofar used rest) hg.clash hg.available (piece_claim h hg.needs rest) hr

theorem piece_inv {p : TypedArg} (h : p.Fits cfg mode) (ho : Ordinary mode) {chosen c : Choices}
    {sofar : List Leaf} {used : List Nat} (hg : Goes mode p chosen sofar used) {rest : List Token}
    {r : Result} (hw : weight (p.tokens ++ rest) < 2 ^ 63)
    (hread : Expanding mode → ∀ t ∈ p.tokens ++ rest, Readable cfg t)
    (hr : Reading cfg mode chosen sofar used (p.tokens ++ rest) r c) :
    Reading cfg mode (choose mode chosen p.argument) (sofar ++ p.uses mode)
      (p.argument.1 :: used) rest r c := by
  have hf := piece_first h sofar used rest
  have hcl := piece_claim h hg.needs rest
  have ham : p.argument ∈ arguments mode := First.mem hf
  have huniq : ∀ {cl}, Claims cfg mode sofar p.argument.2 ⟨.none, p.word⟩
      (p.more.map (Token.mk .none) ++ rest) cl → cl = .takes (p.uses mode) rest :=
    fun h' => claims_unique ho ham hw (fun he => hread he _ (by simp [TypedArg.tokens, TypedArg.words])) h' hcl
  have hr' : Reading cfg mode chosen sofar used
      (⟨.none, p.word⟩ :: (p.more.map (Token.mk .none) ++ rest)) r c := hr
  cases hr' with
  | take hf' hk ha hc' hr' =>
    obtain rfl := First.unique hf hf'
    cases huniq hc'
    exact hr'
  | clash hf' hk => cases First.unique hf hf'; exact absurd hk (hg.clash _)
  | again hf' hk ha => cases First.unique hf hf'; exact absurd hg.available ha
  | refused hf' hk ha hc' =>
    obtain rfl := First.unique hf hf'
    cases huniq hc'
  | unhandled hn _ => exact (First.not_none hf hn).elim
  | unknown hn _ => exact (First.not_none hf hn).elim

/-! ## States that make no difference -/

/-- What has been read makes no difference to what follows. -/
structure SameSofar (mode : Node) (chosen chosen' : Choices) (sofar sofar' : List Leaf)
    (used used' : List Nat) : Prop where
  chosen : ∀ u, chosen.lookup u = chosen'.lookup u
  sofar : ∀ x, Spec.Seen ⟨mode, [], sofar⟩ x ↔ Spec.Seen ⟨mode, [], sofar'⟩ x
  used : ∀ i, i ∈ used ↔ i ∈ used'

theorem lacks_same {sofar sofar' : List Leaf} {sh : Shape} {d : Node}
    (hs : ∀ refs, sh.needs = some refs → ∀ x ∈ mode.owners refs,
      (Spec.Seen ⟨mode, [], sofar⟩ x ↔ Spec.Seen ⟨mode, [], sofar'⟩ x))
    (h : Lacks mode sofar sh d) : Lacks mode sofar' sh d := by
  obtain ⟨refs, pre, post, h1, h2, h3, h4⟩ := h
  refine ⟨refs, pre, post, h1, h2, fun x hx => ?_, fun h => h4 ?_⟩
  · exact (hs refs h1 x (by rw [h2]; simp [hx])).1 (h3 x hx)
  · exact (hs refs h1 d (by rw [h2]; simp)).2 h

theorem claims_same {sofar sofar' : List Leaf} {c : Node} {t : Token} {rest : List Token} {cl : Claim}
    (hs : ∀ x, Spec.Seen ⟨mode, [], sofar⟩ x ↔ Spec.Seen ⟨mode, [], sofar'⟩ x)
    (h : Claims cfg mode sofar c t rest cl) : Claims cfg mode sofar' c t rest cl := by
  obtain ⟨sh, hd, h⟩ := h
  refine ⟨sh, hd, ?_⟩
  cases h with
  | noSeparator h1 h2 h3 => exact .noSeparator h1 h2 h3
  | count h1 h2 => exact .count h1 h2
  | lacks h1 h2 h3 => exact .lacks h1 h2 (lacks_same (fun _ _ x _ => hs x) h3)
  | takes h1 h2 h3 =>
    exact .takes h1 h2 fun d hd => h3 d (lacks_same (fun _ _ x _ => (hs x).symm) hd)

theorem available_same {used used' : List Nat} (h : ∀ i, i ∈ used ↔ i ∈ used') (a : Nat × Node) :
    Available used a ↔ Available used' a := by
  unfold Available
  rw [h a.1]

theorem clashes_same {chosen chosen' : Choices} (h : ∀ u, chosen.lookup u = chosen'.lookup u)
    {a : Nat × Node} {o : Node} : Clashes mode chosen a o ↔ Clashes mode chosen' a o := by
  unfold Clashes
  rw [h o.uid]

theorem choose_same {chosen chosen' : Choices} (h : ∀ u, chosen.lookup u = chosen'.lookup u)
    (a : Nat × Node) (u : Nat) :
    (choose mode chosen a).lookup u = (choose mode chosen' a).lookup u := by
  unfold choose
  cases oneOfAt mode a with
  | none => exact h u
  | some o =>
    simp only [h o.uid]
    cases chosen'.lookup o.uid with
    | some _ => exact h u
    | none => simp only [List.lookup_cons, h u]

theorem seen_append {sofar uses : List Leaf} {x : Node} :
    Spec.Seen ⟨mode, [], sofar ++ uses⟩ x ↔
      Spec.Seen ⟨mode, [], sofar⟩ x ∨ ∃ l ∈ uses, l.node.hash = x.hash := by
  unfold Spec.Seen
  simp only [List.mem_append]
  constructor
  · rintro (h | ⟨l, h | h, h2⟩)
    · exact .inl (.inl h)
    · exact .inl (.inr ⟨l, h, h2⟩)
    · exact .inr ⟨l, h, h2⟩
  · rintro ((h | ⟨l, h, h2⟩) | ⟨l, h, h2⟩)
    · exact .inl h
    · exact .inr ⟨l, .inl h, h2⟩
    · exact .inr ⟨l, .inr h, h2⟩

theorem wants_same {sofar sofar' : List Leaf} {used used' : List Nat} {t : Token} {rest : List Token}
    (hs : ∀ x, Spec.Seen ⟨mode, [], sofar⟩ x ↔ Spec.Seen ⟨mode, [], sofar'⟩ x)
    (hu : ∀ i, i ∈ used ↔ i ∈ used') (a : Nat × Node) :
    Wants cfg mode sofar used t rest a ↔ Wants cfg mode sofar' used' t rest a := by
  unfold Wants
  rw [available_same hu]
  constructor
  · rintro ⟨⟨cl, h⟩, h2⟩
    exact ⟨⟨cl, claims_same hs h⟩, h2⟩
  · rintro ⟨⟨cl, h⟩, h2⟩
    exact ⟨⟨cl, claims_same (fun x => (hs x).symm) h⟩, h2⟩

theorem first_same {sofar sofar' : List Leaf} {used used' : List Nat} {t : Token} {rest : List Token}
    (hs : ∀ x, Spec.Seen ⟨mode, [], sofar⟩ x ↔ Spec.Seen ⟨mode, [], sofar'⟩ x)
    (hu : ∀ i, i ∈ used ↔ i ∈ used') {a : Nat × Node} (h : First cfg mode sofar used t rest a) :
    First cfg mode sofar' used' t rest a := by
  obtain ⟨b, e, h1, h2, h3⟩ := h
  exact ⟨b, e, h1, fun x hx hw => h2 x hx ((wants_same hs hu x).2 hw), (wants_same hs hu a).1 h3⟩

/-- The result is the same but for the uses before. -/
def SameResult (sofar sofar' : List Leaf) (r r' : Result) : Prop :=
  (∃ more, r = .accepts (sofar ++ more) ∧ r' = .accepts (sofar' ++ more)) ∨
    (r' = r ∧ ∀ uses, r ≠ .accepts uses)

theorem reading_same {chosen c : Choices} {sofar : List Leaf} {used : List Nat} {args : List Token}
    {r : Result} (hr : Reading cfg mode chosen sofar used args r c) :
    ∀ {chosen' sofar' used'}, SameSofar mode chosen chosen' sofar sofar' used used' →
      ∃ r' c', Reading cfg mode chosen' sofar' used' args r' c' ∧ SameResult sofar sofar' r r' ∧
        ∀ u, c.lookup u = c'.lookup u := by
  induction hr with
  | done =>
    intro chosen' sofar' used' h
    exact ⟨_, _, .done, .inl ⟨[], by simp, by simp⟩, h.chosen⟩
  | @take chosen c sofar uses used t rest left a r hf hk ha hcl hrd ih =>
    intro chosen' sofar' used' h
    have h' : SameSofar mode (choose mode chosen a) (choose mode chosen' a) (sofar ++ uses)
        (sofar' ++ uses) (a.1 :: used) (a.1 :: used') :=
      ⟨choose_same h.chosen a, fun x => by rw [seen_append, seen_append, h.sofar x],
        fun i => by rw [List.mem_cons, List.mem_cons, h.used i]⟩
    obtain ⟨r', c', h1, h2, h3⟩ := ih h'
    refine ⟨r', c', .take (first_same h.sofar h.used hf)
      (fun o ho => hk o ((clashes_same h.chosen).2 ho)) ((available_same h.used a).1 ha)
      (claims_same h.sofar hcl) h1, ?_, h3⟩
    rcases h2 with ⟨more, h4, h5⟩ | h2
    · exact .inl ⟨uses ++ more, by rw [h4, List.append_assoc], by rw [h5, List.append_assoc]⟩
    · exact .inr h2
  | @clash chosen sofar used t rest a o hf hk =>
    intro chosen' sofar' used' h
    exact ⟨_, _, .clash (first_same h.sofar h.used hf) ((clashes_same h.chosen).1 hk),
      .inr ⟨rfl, by simp⟩, h.chosen⟩
  | @again chosen sofar used t rest a hf hk ha =>
    intro chosen' sofar' used' h
    exact ⟨_, _, .again (first_same h.sofar h.used hf)
      (fun o ho => hk o ((clashes_same h.chosen).2 ho))
      (fun h' => ha ((available_same h.used a).2 h')), .inr ⟨rfl, by simp⟩, choose_same h.chosen a⟩
  | @refused chosen sofar used t rest a e hf hk ha hcl =>
    intro chosen' sofar' used' h
    exact ⟨_, _, .refused (first_same h.sofar h.used hf)
      (fun o ho => hk o ((clashes_same h.chosen).2 ho)) ((available_same h.used a).1 ha)
      (claims_same h.sofar hcl), .inr ⟨rfl, by simp⟩, choose_same h.chosen a⟩
  | @unhandled chosen sofar used t rest hn hu =>
    intro chosen' sofar' used' h
    exact ⟨_, _, .unhandled (fun a ha hw => hn a ha ((wants_same h.sofar h.used a).2 hw))
      (fun i hi => (h.used i).1 (hu i hi)), .inr ⟨rfl, by simp⟩, h.chosen⟩
  | @unknown chosen sofar used t rest hn hu =>
    intro chosen' sofar' used' h
    obtain ⟨i, hi, hin⟩ := hu
    exact ⟨_, _, .unknown (fun a ha hw => hn a ha ((wants_same h.sofar h.used a).2 hw))
      ⟨i, hi, fun h' => hin ((h.used i).2 h')⟩, .inr ⟨rfl, by simp⟩, h.chosen⟩

/-! ## Two arguments that have nothing to do with each other -/

theorem oneOfs_apart (hobj : Objects mode) {a b : Nat × Node} (hab : a.1 ≠ b.1) {o o' : Node}
    (h : oneOfAt mode a = some o) (h' : oneOfAt mode b = some o') : o.uid ≠ o'.uid := by
  have key : ∀ {a : Nat × Node} {o : Node}, oneOfAt mode a = some o → mode.children[a.1]? = some o := by
    intro a o h
    unfold oneOfAt at h
    rw [Option.filter_eq_some_iff] at h
    exact h.1
  have h1 := key h
  have h2 := key h'
  obtain ⟨hlt, h3⟩ := List.getElem?_eq_some_iff.1 h1
  have hsplit : mode.children = mode.children.take a.1 ++ o :: mode.children.drop (a.1 + 1) := by
    rw [← h3, ← List.drop_eq_getElem_cons hlt, List.take_append_drop]
  have hn := (objects_children hobj).2
  rw [hsplit] at hn
  have := (objects_split hn).2 o (self_mem_nodes o) o' ?_ o' (self_mem_nodes o')
  · exact fun he => this he.symm
  · rcases Nat.lt_or_gt_of_ne hab with hlt2 | hlt2
    · right
      refine List.mem_of_getElem? (i := b.1 - (a.1 + 1)) ?_
      rw [List.getElem?_drop, show a.1 + 1 + (b.1 - (a.1 + 1)) = b.1 by omega, h2]
    · left
      refine List.mem_of_getElem? (i := b.1) ?_
      rw [List.getElem?_take, if_pos hlt2, h2]

theorem choose_lookup (hobj : Objects mode) {a b : Nat × Node} (hab : a.1 ≠ b.1) {o : Node}
    (h : oneOfAt mode a = some o) (chosen : Choices) :
    (choose mode chosen b).lookup o.uid = chosen.lookup o.uid := by
  unfold choose
  cases hb : oneOfAt mode b with
  | none => rfl
  | some o' =>
    simp only []
    have hne := oneOfs_apart hobj hab h hb
    cases chosen.lookup o'.uid with
    | some _ => rfl
    | none =>
      simp only [List.lookup_cons, beq_eq_false_iff_ne.2 hne]

theorem clashes_apart (hobj : Objects mode) {a b : Nat × Node} (hab : a.1 ≠ b.1) {o : Node}
    (chosen : Choices) : Clashes mode (choose mode chosen b) a o ↔ Clashes mode chosen a o := by
  unfold Clashes
  constructor
  · rintro ⟨h1, h2⟩
    rw [choose_lookup hobj hab h1] at h2
    exact ⟨h1, h2⟩
  · rintro ⟨h1, h2⟩
    rw [← choose_lookup hobj hab h1] at h2
    exact ⟨h1, h2⟩

theorem choose_commutes (hobj : Objects mode) {a b : Nat × Node} (hab : a.1 ≠ b.1) (chosen : Choices)
    (u : Nat) : (choose mode (choose mode chosen a) b).lookup u =
      (choose mode (choose mode chosen b) a).lookup u := by
  cases ha : oneOfAt mode a with
  | none =>
    have h1 : ∀ ch, choose mode ch a = ch := fun ch => by unfold choose; rw [ha]
    rw [h1, h1]
  | some o =>
    cases hb : oneOfAt mode b with
    | none =>
      have h1 : ∀ ch, choose mode ch b = ch := fun ch => by unfold choose; rw [hb]
      rw [h1, h1]
    | some o' =>
      have hne := oneOfs_apart hobj hab ha hb
      have hA : ∀ ch : Choices, choose mode ch a =
          match ch.lookup o.uid with | some _ => ch | none => (o.uid, a.2.hash) :: ch := by
        intro ch; unfold choose; rw [ha]; rfl
      have hB : ∀ ch : Choices, choose mode ch b =
          match ch.lookup o'.uid with | some _ => ch | none => (o'.uid, b.2.hash) :: ch := by
        intro ch; unfold choose; rw [hb]; rfl
      have h1 := choose_lookup hobj hab ha chosen
      have h2 := choose_lookup hobj (Ne.symm hab) hb chosen
      rw [hA (choose mode chosen b), hB (choose mode chosen a), h1, h2, hA, hB]
      cases h3 : chosen.lookup o.uid with
      | some x =>
        cases h4 : chosen.lookup o'.uid with
        | some y => rfl
        | none => rfl
      | none =>
        cases h4 : chosen.lookup o'.uid with
        | some y => rfl
        | none =>
          simp only [List.lookup_cons]
          by_cases hu : u = o.uid
          · subst hu
            rw [beq_eq_false_iff_ne.2 hne]
          · by_cases hu2 : u = o'.uid
            · subst hu2
              rw [beq_eq_false_iff_ne.2 hu]
            · rw [beq_eq_false_iff_ne.2 hu, beq_eq_false_iff_ne.2 hu2]

theorem available_apart {a b : Nat × Node} (hab : a.1 ≠ b.1) (used : List Nat) :
    Available (b.1 :: used) a ↔ Available used a := by
  unfold Available
  simp [hab]

theorem lacks_apart {p q : TypedArg} (h : ∀ refs, p.shape.needs = some refs → ∀ x ∈ mode.owners refs,
    ∀ y ∈ q.uses mode, y.node.hash ≠ x.hash) {sofar : List Leaf} {d : Node} :
    Lacks mode (sofar ++ q.uses mode) p.shape d ↔ Lacks mode sofar p.shape d := by
  have key : ∀ refs, p.shape.needs = some refs → ∀ x ∈ mode.owners refs,
      (Spec.Seen ⟨mode, [], sofar ++ q.uses mode⟩ x ↔ Spec.Seen ⟨mode, [], sofar⟩ x) := by
    intro refs hr x hx
    rw [seen_append]
    constructor
    · rintro (h1 | ⟨l, h1, h2⟩)
      · exact h1
      · exact absurd h2 (h refs hr x hx l h1)
    · exact .inl
  exact ⟨lacks_same key, lacks_same fun refs hr x hx => (key refs hr x hx).symm⟩

section
variable {p q : TypedArg} (hobj : Objects mode) (hab : p.argument.1 ≠ q.argument.1)
  (hneeds : ∀ refs, p.shape.needs = some refs → ∀ x ∈ mode.owners refs,
    ∀ y ∈ q.uses mode, y.node.hash ≠ x.hash)
include hobj hab hneeds

/-- The other argument makes no difference to whether the argument is taken. -/
theorem goes_apart {chosen : Choices} {sofar : List Leaf} {used : List Nat} :
    Goes mode p (choose mode chosen q.argument) (sofar ++ q.uses mode) (q.argument.1 :: used) ↔
      Goes mode p chosen sofar used := by
  constructor
  · rintro ⟨h1, h2, h3⟩
    exact ⟨fun o ho => h1 o ((clashes_apart hobj hab chosen).2 ho), (available_apart hab used).1 h2,
      fun d hd => h3 d ((lacks_apart hneeds).2 hd)⟩
  · rintro ⟨h1, h2, h3⟩
    exact ⟨fun o ho => h1 o ((clashes_apart hobj hab chosen).1 ho), (available_apart hab used).2 h2,
      fun d hd => h3 d ((lacks_apart hneeds).1 hd)⟩

theorem stops_apart {chosen c : Choices} {sofar : List Leaf} {used : List Nat} {e : Exc}
    (h : Stops mode p chosen sofar used e c) : ∃ c',
    Stops mode p (choose mode chosen q.argument) (sofar ++ q.uses mode) (q.argument.1 :: used) e c' := by
  cases h with
  | clash h1 => exact ⟨_, .clash ((clashes_apart hobj hab chosen).2 h1)⟩
  | again h1 h2 =>
    exact ⟨_, .again (fun o ho => h1 o ((clashes_apart hobj hab chosen).1 ho))
      fun h => h2 ((available_apart hab used).1 h)⟩
  | lacks h1 h2 h3 =>
    exact ⟨_, .lacks (fun o ho => h1 o ((clashes_apart hobj hab chosen).1 ho))
      ((available_apart hab used).2 h2) ((lacks_apart hneeds).2 h3)⟩

end

/-! ## Values -/

theorem collectOf_append (cs : List Node) (l l' : List Leaf) (rs : List (Option Value)) :
    collectOf cs (l ++ l') rs = (collectOf cs l rs >>= fun rs => collectOf cs l' rs) := by
  induction l generalizing rs with
  | nil => rfl
  | cons x l ih =>
    simp only [List.cons_append, collectOf]
    cases valueOf x with
    | ok v =>
      simp only [Out.ok_bind]
      split
      · exact ih rs
      · split
        · exact ih rs
        · split
          · exact ih _
          · split
            · rfl
            · exact ih _
    | _ => rfl

theorem gotOf_set' (rs : List (Option Value)) (i j : Nat) (r : Option Value) :
    gotOf (rs.set i r) j = if i = j ∧ i < rs.length then r else gotOf rs j := by
  unfold gotOf
  rw [List.getElem?_set]
  by_cases h : i = j
  · subst h
    by_cases h2 : i < rs.length
    · simp [h2]
    · simp [h2]
  · simp [h]

/-- What the uses come to depends only on the children they are for. -/
theorem collectOf_agree {cs : List Node} {P : Nat → Prop} {ls : List Leaf}
    (hP : ∀ l ∈ ls, ∀ i, IsFor cs l i → P i) {rs rs' : List (Option Value)}
    (hl : rs.length = rs'.length) (hg : ∀ i, P i → gotOf rs i = gotOf rs' i) :
    (∃ ra ra', collectOf cs ls rs = .ok ra ∧ collectOf cs ls rs' = .ok ra' ∧
      (∀ i, P i → gotOf ra i = gotOf ra' i) ∧
      ∀ i, ¬ P i → gotOf ra i = gotOf rs i ∧ gotOf ra' i = gotOf rs' i) ∨
    (collectOf cs ls rs' = collectOf cs ls rs ∧ ∀ x, collectOf cs ls rs ≠ .ok x) := by
  induction ls generalizing rs rs' with
  | nil => exact .inl ⟨rs, rs', rfl, rfl, hg, fun i _ => ⟨rfl, rfl⟩⟩
  | cons l ls ih =>
    have ih := fun {rs rs'} => ih (rs := rs) (rs' := rs') fun x hx => hP x (List.mem_cons_of_mem _ hx)
    have hPl := hP l List.mem_cons_self
    simp only [collectOf]
    cases valueOf l with
    | ok v =>
      simp only [Out.ok_bind]
      cases hf : findChild l.node.hash cs 0 with
      | none => exact ih hl hg
      | some x =>
        obtain ⟨i, c, n⟩ := x
        have hi : P i := hPl i ((isFor_iff cs l i).2 ⟨c, n, hf⟩)
        simp only [← hg i hi]
        have hset : ∀ r : Option Value,
            (∃ ra ra', collectOf cs ls (rs.set i r) = .ok ra ∧ collectOf cs ls (rs'.set i r) = .ok ra' ∧
              (∀ i, P i → gotOf ra i = gotOf ra' i) ∧
              ∀ i, ¬ P i → gotOf ra i = gotOf rs i ∧ gotOf ra' i = gotOf rs' i) ∨
            (collectOf cs ls (rs'.set i r) = collectOf cs ls (rs.set i r) ∧
              ∀ x, collectOf cs ls (rs.set i r) ≠ .ok x) := by
          intro r
          rcases ih (rs := rs.set i r) (rs' := rs'.set i r) (by simp [hl]) (by
            intro j hj
            rw [gotOf_set', gotOf_set', hl, hg j hj]) with ⟨ra, ra', h1, h2, h3, h4⟩ | h
          · refine .inl ⟨ra, ra', h1, h2, h3, fun j hj => ?_⟩
            obtain ⟨h5, h6⟩ := h4 j hj
            have hne : ¬ (i = j) := fun he => hj (he ▸ hi)
            rw [gotOf_set', if_neg (fun h => hne h.1)] at h5 h6
            exact ⟨h5, h6⟩
          · exact .inr h
        split
        · exact ih hl hg
        · split
          · exact hset _
          · split
            · exact .inr ⟨rfl, by simp⟩
            · exact hset _
    | throw e => exact .inr ⟨rfl, by simp⟩
    | foreign => exact .inr ⟨rfl, by simp⟩
    | ub => exact .inr ⟨rfl, by simp⟩
    | diverge => exact .inr ⟨rfl, by simp⟩

theorem gotOf_ext {rs rs' : List (Option Value)} (hl : rs.length = rs'.length)
    (h : ∀ i, gotOf rs i = gotOf rs' i) : rs = rs' := by
  refine List.ext_getElem hl fun i h1 h2 => ?_
  have := h i
  unfold gotOf at this
  rwa [List.getElem?_eq_getElem h1, List.getElem?_eq_getElem h2] at this

/-- Uses for different children. -/
theorem collectOf_commutes {cs : List Node} {ls ls' : List Leaf}
    (hd : ∀ x ∈ ls, ∀ y ∈ ls', ∀ i, IsFor cs x i → ¬ IsFor cs y i) (rs : List (Option Value)) :
    collectOf cs (ls ++ ls') rs = collectOf cs (ls' ++ ls) rs ∨
    ((∀ x, collectOf cs ls rs ≠ .ok x) ∧ ∀ x, collectOf cs ls' rs ≠ .ok x) := by
  rw [collectOf_append, collectOf_append]
  by_cases h1 : ∃ ra, collectOf cs ls rs = .ok ra
  · obtain ⟨ra, h1⟩ := h1
    -- what `ls'` comes to after `ls`
    have hfr : ∀ i, (∃ l ∈ ls', IsFor cs l i) → gotOf rs i = gotOf ra i := by
      rintro i ⟨y, hy, hi⟩
      rcases collectOf_agree (P := fun j => ∃ l ∈ ls, IsFor cs l j) (cs := cs) (ls := ls)
        (fun l hl i h => ⟨l, hl, h⟩) (rs := rs) (rs' := rs) rfl (fun _ _ => rfl) with
        ⟨a, a', h2, h3, -, h4⟩ | ⟨-, h2⟩
      · rw [h1] at h2
        cases h2
        exact ((h4 i fun ⟨x, hx, hxi⟩ => hd x hx y hy i hxi hi).1).symm
      · exact absurd h1 (h2 _)
    by_cases h2 : ∃ rb, collectOf cs ls' rs = .ok rb
    · obtain ⟨rb, h2⟩ := h2
      left
      simp only [h1, h2, Out.ok_bind]
      have la := collectOf_length h1
      have lb := collectOf_length h2
      have hfr' : ∀ i, (∃ l ∈ ls, IsFor cs l i) → gotOf rs i = gotOf rb i := by
        rintro i ⟨y, hy, hi⟩
        rcases collectOf_agree (P := fun j => ∃ l ∈ ls', IsFor cs l j) (cs := cs) (ls := ls')
          (fun l hl i h => ⟨l, hl, h⟩) (rs := rs) (rs' := rs) rfl (fun _ _ => rfl) with
          ⟨a, a', h3, -, -, h4⟩ | ⟨-, h3⟩
        · rw [h2] at h3
          cases h3
          exact ((h4 i fun ⟨x, hx, hxi⟩ => hd y hy x hx i hi hxi).1).symm
        · exact absurd h2 (h3 _)
      rcases collectOf_agree (P := fun j => ∃ l ∈ ls', IsFor cs l j) (cs := cs) (ls := ls')
        (fun l hl i h => ⟨l, hl, h⟩) (rs := rs) (rs' := ra) la.symm hfr with
        ⟨b, rab, h3, h4, h5, h6⟩ | ⟨-, h3⟩
      · rw [h2] at h3
        cases h3
        rcases collectOf_agree (P := fun j => ∃ l ∈ ls, IsFor cs l j) (cs := cs) (ls := ls)
          (fun l hl i h => ⟨l, hl, h⟩) (rs := rs) (rs' := rb) lb.symm hfr' with
          ⟨a, rba, h7, h8, h9, h10⟩ | ⟨-, h7⟩
        · rw [h1] at h7
          cases h7
          rw [h4, h8]
          congr 1
          refine gotOf_ext ?_ fun i => ?_
          · rw [collectOf_length h4, collectOf_length h8, la, lb]
          · by_cases hi : ∃ l ∈ ls', IsFor cs l i
            · have hni : ¬ ∃ l ∈ ls, IsFor cs l i := by
                rintro ⟨x, hx, hxi⟩
                obtain ⟨y, hy, hyi⟩ := hi
                exact hd x hx y hy i hxi hyi
              rw [← h5 i hi, (h10 i hni).2]
            · rw [(h6 i hi).2]
              by_cases hi2 : ∃ l ∈ ls, IsFor cs l i
              · rw [h9 i hi2]
              · rw [(h10 i hi2).1, (h10 i hi2).2, (h6 i hi).1]
        · exact absurd h1 (h7 _)
      · exact absurd h2 (h3 _)
    · have h2 : ∀ x, collectOf cs ls' rs ≠ .ok x := fun x h => h2 ⟨x, h⟩
      left
      simp only [h1, Out.ok_bind]
      rcases collectOf_agree (P := fun j => ∃ l ∈ ls', IsFor cs l j) (cs := cs) (ls := ls')
        (fun l hl i h => ⟨l, hl, h⟩) (rs := rs) (rs' := ra) (collectOf_length h1).symm hfr with
        ⟨b, rab, h3, -⟩ | ⟨h3, -⟩
      · exact absurd h3 (h2 _)
      · rw [h3]
        cases hx : collectOf cs ls' rs with
        | ok x => exact absurd hx (h2 x)
        | _ => rfl
  · have h1 : ∀ x, collectOf cs ls rs ≠ .ok x := fun x h => h1 ⟨x, h⟩
    by_cases h2 : ∃ rb, collectOf cs ls' rs = .ok rb
    · obtain ⟨rb, h2⟩ := h2
      left
      simp only [h2, Out.ok_bind]
      have hfr' : ∀ i, (∃ l ∈ ls, IsFor cs l i) → gotOf rs i = gotOf rb i := by
        rintro i ⟨y, hy, hi⟩
        rcases collectOf_agree (P := fun j => ∃ l ∈ ls', IsFor cs l j) (cs := cs) (ls := ls')
          (fun l hl i h => ⟨l, hl, h⟩) (rs := rs) (rs' := rs) rfl (fun _ _ => rfl) with
          ⟨a, a', h3, -, -, h4⟩ | ⟨-, h3⟩
        · rw [h2] at h3
          cases h3
          exact ((h4 i fun ⟨x, hx, hxi⟩ => hd y hy x hx i hi hxi).1).symm
        · exact absurd h2 (h3 _)
      rcases collectOf_agree (P := fun j => ∃ l ∈ ls, IsFor cs l j) (cs := cs) (ls := ls)
        (fun l hl i h => ⟨l, hl, h⟩) (rs := rs) (rs' := rb) (collectOf_length h2).symm hfr' with
        ⟨b, rab, h3, -⟩ | ⟨h3, -⟩
      · exact absurd h3 (h1 _)
      · rw [h3]
        cases hx : collectOf cs ls rs with
        | ok x => exact absurd hx (h1 x)
        | _ => rfl
    · exact .inr ⟨h1, fun x h => h2 ⟨x, h⟩⟩

end ArgRouter
