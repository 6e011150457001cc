import Verif.Spec.Route
import Verif.Lemmas.ParseStage

/-!
# The stateless stage functions against the specification
-/

namespace ArgRouter

open Spec

theorem parseToken_iff (n : Node) (s : Bytes) (x : Scalar) (h : parseToken n s = .ok x) :
    TokenValue n s x := by
  unfold parseToken at h
  split at h
  · rename_i f hf
    rw [List.findSome?_eq_some_iff] at hf
    obtain ⟨l1, p, l2, hl, hp', -⟩ := hf
    cases p <;> simp at hp'
    subst hp'
    exact .inl ⟨_, by rw [hl]; simp, h⟩
  · rename_i hf
    refine .inr ⟨?_, h⟩
    intro f hmem
    rw [List.findSome?_eq_none_iff] at hf
    exact absurd (hf _ hmem) (by simp)

theorem parseTokens_spec (n : Node) (ts : List Token) (xs : List Scalar)
    (h : parseTokens n ts = .ok xs) : xs.length = ts.length ∧
      ∀ (i : Nat) (t : Token) (x : Scalar), ts[i]? = some t → xs[i]? = some x →
        TokenValue n t.name x := by
  induction ts generalizing xs with
  | nil =>
    simp only [parseTokens, Out.ok.injEq] at h
    subst h
    exact ⟨rfl, by intro i t x h; simp at h⟩
  | cons t ts ih =>
    simp only [parseTokens, Out.bind_eq_ok, Out.pure_eq, Out.ok.injEq] at h
    obtain ⟨y, h1, ys, h2, rfl⟩ := h
    obtain ⟨e1, e2⟩ := ih _ h2
    refine ⟨by simp [e1], ?_⟩
    intro i t' x ht hx
    cases i with
    | zero =>
      simp only [List.getElem?_cons_zero, Option.some.injEq] at ht hx
      subst ht hx
      exact parseToken_iff _ _ _ h1
    | succ i => exact e2 i t' x (by simpa using ht) (by simpa using hx)

theorem validationOf_ok (n : Node) (v : Value) (ps : List Policy) :
    validationOf n v ps = .ok () ↔ (∀ lo hi less, .minMaxValue lo hi less ∈ ps →
      (∀ x, lo = some x → less v x = false) ∧ (∀ x, hi = some x → less x v = false)) ∧
      ∀ tag f, .validation tag f ∈ ps → f v = .ok () := by
  induction ps with
  | nil => simp [validationOf]
  | cons p ps ih =>
    have hskip : (∀ lo hi less, p ≠ .minMaxValue lo hi less) → (∀ t f, p ≠ .validation t f) →
        ((validationOf n v ps = .ok ()) ↔ (∀ lo hi less, .minMaxValue lo hi less ∈ p :: ps →
      (∀ x, lo = some x → less v x = false) ∧ (∀ x, hi = some x → less x v = false)) ∧
      ∀ tag f, .validation tag f ∈ p :: ps → f v = .ok ()) := by
      intro hp hq
      rw [ih]
      constructor
      · rintro ⟨h, h'⟩
        refine ⟨fun lo hi less hm => ?_, fun t f hm => ?_⟩
        · rcases List.mem_cons.1 hm with h1 | h1
          · exact absurd h1.symm (hp _ _ _)
          · exact h _ _ _ h1
        · rcases List.mem_cons.1 hm with h1 | h1
          · exact absurd h1.symm (hq _ _)
          · exact h' _ _ h1
      · exact fun h => ⟨fun lo hi less hm => h.1 _ _ _ (List.mem_cons_of_mem _ hm),
          fun t f hm => h.2 _ _ (List.mem_cons_of_mem _ hm)⟩
    cases p
    case minMaxValue lo hi less =>
      simp only [validationOf]
      cases hlo : (lo.map (less v)).getD false
      · cases hhi : (hi.map (less · v)).getD false
        · simp only [Bool.false_eq_true, if_false]
          rw [ih]
          constructor
          · rintro ⟨h, h'⟩
            refine ⟨fun lo' hi' less' hm => ?_, fun t f hm => ?_⟩
            · rcases List.mem_cons.1 hm with h1 | h1
              · simp only [Policy.minMaxValue.injEq] at h1
                obtain ⟨rfl, rfl, rfl⟩ := h1
                constructor
                · rintro x rfl; simpa using hlo
                · rintro x rfl; simpa using hhi
              · exact h _ _ _ h1
            · rcases List.mem_cons.1 hm with h1 | h1
              · cases h1
              · exact h' _ _ h1
          · exact fun h => ⟨fun lo hi less hm => h.1 _ _ _ (List.mem_cons_of_mem _ hm),
              fun t f hm => h.2 _ _ (List.mem_cons_of_mem _ hm)⟩
        · simp only [Bool.false_eq_true, if_false, if_true, reduceCtorEq, false_iff]
          intro h
          have := (h.1 lo hi less List.mem_cons_self).2
          cases hi with
          | none => simp at hhi
          | some x => rw [Option.map_some, Option.getD_some, this x rfl] at hhi; cases hhi
      · simp only [if_true, reduceCtorEq, false_iff]
        intro h
        have := (h.1 lo hi less List.mem_cons_self).1
        cases lo with
        | none => simp at hlo
        | some x => rw [Option.map_some, Option.getD_some, this x rfl] at hlo; cases hlo
    case validation t f =>
      simp only [validationOf, Out.bind_eq_ok]
      constructor
      · rintro ⟨u, hu, h⟩
        obtain ⟨h, h'⟩ := ih.1 h
        refine ⟨fun lo hi less hm => ?_, fun t' f' hm => ?_⟩
        · rcases List.mem_cons.1 hm with h1 | h1
          · cases h1
          · exact h _ _ _ h1
        · rcases List.mem_cons.1 hm with h1 | h1
          · cases h1; exact hu
          · exact h' _ _ h1
      · intro h
        exact ⟨(), h.2 t f List.mem_cons_self, ih.2
          ⟨fun lo hi less hm => h.1 _ _ _ (List.mem_cons_of_mem _ hm),
            fun t f hm => h.2 _ _ (List.mem_cons_of_mem _ hm)⟩⟩
    all_goals
      simp only [validationOf]
      exact hskip (by intro _ _ _ h; cases h) (by intro _ _ h; cases h)

theorem inBounds_iff (n : Node) (v : Value) :
    validationOf n v n.policies = .ok () ↔ InBounds n v ∧ Approved n v :=
  validationOf_ok n v n.policies

theorem leafValue_spec {l : Leaf} {v : Value} (h : leafValue l = .ok (some v)) :
    UseValue l v ∧ (l.node.kind ≠ .flag → l.node.kind ≠ .countingFlag →
      InBounds l.node v ∧ Approved l.node v) := by
  have hval : ∀ {ov}, (do
      let v ← parseValue l.node l.tokens
      validationOf l.node v l.node.policies
      return some v : Out (Option Value)) = .ok (some ov) →
      (if l.node.vt.isList then
      ∃ xs, ov = .many xs ∧ xs.length = l.tokens.length ∧
        ∀ (i : Nat) (t : Token) (x : Scalar), l.tokens[i]? = some t → xs[i]? = some x →
          TokenValue l.node t.name x
    else
      (l.tokens = [] ∧ ov = l.node.vt.zero) ∨
      ∃ t more x, l.tokens = t :: more ∧ ov = .one x ∧ TokenValue l.node t.name x) ∧
      InBounds l.node ov ∧ Approved l.node ov := by
    intro ov h
    simp only [Out.bind_eq_ok, Out.pure_eq, Out.ok.injEq, Option.some.injEq] at h
    obtain ⟨w, h1, u, h2, rfl⟩ := h
    refine ⟨?_, (inBounds_iff _ _).1 h2⟩
    unfold parseValue at h1
    split at h1
    · rename_i hl
      rw [if_pos hl]
      simp only [Out.bind_eq_ok, Out.pure_eq, Out.ok.injEq] at h1
      obtain ⟨xs, h3, rfl⟩ := h1
      obtain ⟨e1, e2⟩ := parseTokens_spec _ _ _ h3
      exact ⟨xs, rfl, e1, e2⟩
    · rename_i hl
      rw [if_neg hl]
      split at h1
      · rename_i ht
        simp only [Out.ok.injEq] at h1
        exact .inl ⟨ht, h1.symm⟩
      · rename_i t more ht
        simp only [Out.bind_eq_ok, Out.pure_eq, Out.ok.injEq] at h1
        obtain ⟨x, h3, rfl⟩ := h1
        exact .inr ⟨t, more, x, ht, rfl, parseToken_iff _ _ _ h3⟩
  cases hk : l.node.kind
  case flag =>
    simp only [leafValue, hk, Out.ok.injEq, Option.some.injEq] at h
    simp only [UseValue, hk, h]
    exact ⟨trivial, fun h => absurd rfl h⟩
  case countingFlag =>
    simp only [leafValue, hk, Out.ok.injEq, Option.some.injEq] at h
    simp only [UseValue, hk, h]
    exact ⟨trivial, fun _ h => absurd rfl h⟩
  case arg => simp only [leafValue, hk] at h; simp only [UseValue, hk]; exact ⟨(hval h).1, fun _ _ => (hval h).2⟩
  case multiArg => simp only [leafValue, hk] at h; simp only [UseValue, hk]; exact ⟨(hval h).1, fun _ _ => (hval h).2⟩
  case positional => simp only [leafValue, hk] at h; simp only [UseValue, hk]; exact ⟨(hval h).1, fun _ _ => (hval h).2⟩
  case forwarding => simp only [leafValue, hk] at h; simp only [UseValue, hk]; exact ⟨(hval h).1, fun _ _ => (hval h).2⟩
  case help => simp [leafValue, hk, Out.bind_eq_ok] at h
  all_goals simp only [leafValue, hk] at h; cases h

theorem leafValue_none {l : Leaf} (h : leafValue l = .ok none) : l.node.kind = .help := by
  cases hk : l.node.kind
  case help => rfl
  case flag => simp [leafValue, hk] at h
  case countingFlag => simp [leafValue, hk] at h
  case arg => simp [leafValue, hk, Out.bind_eq_ok] at h
  case multiArg => simp [leafValue, hk, Out.bind_eq_ok] at h
  case positional => simp [leafValue, hk, Out.bind_eq_ok] at h
  case forwarding => simp [leafValue, hk, Out.bind_eq_ok] at h
  all_goals simp only [leafValue, hk] at h; cases h

theorem matchChild_isSome (hash : Nat) (c : Node) :
    (∃ n, matchChild hash c = some n) ↔ Contains c hash := by
  unfold matchChild Contains
  constructor
  · rintro ⟨n, h⟩
    have h1 := List.find?_some h
    have h2 := List.mem_of_find?_eq_some h
    simp only [Bool.and_eq_true, bne_iff_ne, ne_eq, beq_iff_eq] at h1
    exact ⟨n, h2, h1.1.1, h1.1.2, h1.2⟩
  · rintro ⟨n, h1, h2, h3, h4⟩
    cases hf : c.nodes.find? fun n => n.kind != .mode && n.hasParse && n.hash == hash with
    | some m => exact ⟨m, rfl⟩
    | none =>
      rw [List.find?_eq_none] at hf
      exact absurd (hf n h1) (by simp [h2, h3, h4])

theorem matchChild_spec {hash : Nat} {c n : Node} (h : matchChild hash c = some n) :
    n ∈ c.nodes ∧ n.hash = hash ∧ n.kind ≠ .mode := by
  unfold matchChild at h
  have h1 := List.find?_some h
  have h2 := List.mem_of_find?_eq_some h
  simp only [Bool.and_eq_true, bne_iff_ne, ne_eq, beq_iff_eq] at h1
  exact ⟨h2, h1.2, h1.1.1⟩

theorem findChild_none {hash : Nat} {cs : List Node} {k : Nat} (h : findChild hash cs k = none) :
    ∀ c ∈ cs, matchChild hash c = none := by
  induction cs generalizing k with
  | nil => simp
  | cons c cs ih =>
    rw [findChild] at h
    split at h
    · cases h
    · rename_i hc
      simp only [List.forall_mem_cons]
      exact ⟨hc, ih h⟩

theorem isFor_iff (children : List Node) (l : Leaf) (i : Nat) :
    IsFor children l i ↔ ∃ c n, findChild l.node.hash children 0 = some (i, c, n) := by
  constructor
  · rintro ⟨⟨c, hc, hcon⟩, hbefore⟩
    cases hf : findChild l.node.hash children 0 with
    | none =>
      have := findChild_none hf c (List.mem_of_getElem? hc)
      obtain ⟨n, hn⟩ := (matchChild_isSome _ _).2 hcon
      rw [this] at hn; cases hn
    | some x =>
      obtain ⟨j, d, n⟩ := x
      obtain ⟨j', h1, h2, h3, h4⟩ := findChild_spec _ _ _ hf
      have hj : j = j' := by omega
      subst hj
      have : j = i := by
        rcases Nat.lt_trichotomy j i with h5 | h5 | h5
        · exact absurd ((matchChild_isSome _ _).1 ⟨n, h3⟩) (hbefore j d h5 h2)
        · exact h5
        · have := h4 i c h5 hc
          obtain ⟨m, hm⟩ := (matchChild_isSome _ _).2 hcon
          rw [this] at hm; cases hm
      subst this
      exact ⟨d, n, rfl⟩
  · rintro ⟨c, n, hf⟩
    obtain ⟨j', h1, h2, h3, h4⟩ := findChild_spec _ _ _ hf
    have hj : i = j' := by omega
    subst hj
    refine ⟨⟨c, h2, (matchChild_isSome _ _).1 ⟨n, h3⟩⟩, ?_⟩
    intro j c' hj hc' hcon
    obtain ⟨m, hm⟩ := (matchChild_isSome _ _).2 hcon
    rw [h4 j c' hj hc'] at hm; cases hm

theorem missingOf_ok (n : Node) (ps : List Policy) (r r' : Option Value)
    (h : missingOf n ps r = .ok r') :
    .required ∉ ps ∧ (∀ v, .runtimeEnableRequired true v ∉ ps) ∧
    r' = (ps.filterMap Policy.default?).getLast?.or r := by
  induction ps generalizing r with
  | nil =>
    simp only [missingOf, Out.ok.injEq] at h
    subst h
    simp
  | cons p ps ih =>
    cases p
    case defaultValue w =>
      simp only [missingOf] at h
      obtain ⟨h1, h2, h3⟩ := ih _ h
      refine ⟨by simpa using h1, by simpa using h2, ?_⟩
      rw [h3]
      simp only [List.filterMap_cons, Policy.default?, List.getLast?_cons]
      cases (ps.filterMap Policy.default?).getLast? <;> rfl
    case required => simp [missingOf] at h
    case runtimeEnableRequired e w =>
      cases e
      · simp only [missingOf, Bool.false_eq_true, if_false] at h
        obtain ⟨h1, h2, h3⟩ := ih _ h
        refine ⟨by simpa using h1, by simpa using h2, ?_⟩
        rw [h3]
        simp only [List.filterMap_cons, Policy.default?, List.getLast?_cons]
        cases (ps.filterMap Policy.default?).getLast? <;> rfl
      · simp [missingOf] at h
    all_goals
      simp only [missingOf] at h
      obtain ⟨h1, h2, h3⟩ := ih _ h
      refine ⟨by simpa using h1, by simpa using h2, ?_⟩
      rw [h3]
      simp only [List.filterMap_cons, Policy.default?]

theorem missingOf_throw (n : Node) (ps : List Policy) (r : Option Value)
    (h : .required ∈ ps ∨ ∃ v, .runtimeEnableRequired true v ∈ ps) :
    missingOf n ps r = .throw ⟨.missing_required_argument, [n.tokenType]⟩ := by
  induction ps generalizing r with
  | nil => simp at h
  | cons p ps ih =>
    cases p
    case required => rfl
    case runtimeEnableRequired e w =>
      cases e
      · simp only [missingOf, Bool.false_eq_true, if_false]
        exact ih _ (by simpa using h)
      · simp [missingOf]
    all_goals
      simp only [missingOf]
      exact ih _ (by simpa using h)

theorem missingOf_total (n : Node) (ps : List Policy) (r : Option Value)
    (h1 : .required ∉ ps) (h2 : ∀ v, .runtimeEnableRequired true v ∉ ps) :
    ∃ r', missingOf n ps r = .ok r' := by
  induction ps generalizing r with
  | nil => exact ⟨r, rfl⟩
  | cons p ps ih =>
    cases p
    case required => simp at h1
    case runtimeEnableRequired e w =>
      cases e
      · simp only [missingOf, Bool.false_eq_true, if_false]
        exact ih _ (by simpa using h1) (by simpa using h2)
      · exact absurd List.mem_cons_self (h2 w)
    all_goals
      simp only [missingOf]
      exact ih _ (by simpa using h1) (by simpa using h2)

theorem fallbackOf_ok (c : Node) (v : Value) :
    fallbackOf c = .ok v ↔ Fallback c v ∧ InBounds c v ∧ Approved c v := by
  constructor
  · intro h
    simp only [fallbackOf, Out.bind_eq_ok, Out.pure_eq, Out.ok.injEq] at h
    obtain ⟨r, h1, u, h2, rfl⟩ := h
    obtain ⟨e1, e2, e3⟩ := missingOf_ok _ _ _ _ h1
    refine ⟨⟨?_, ?_⟩, (inBounds_iff _ _).1 h2⟩
    · rintro (h | ⟨w, h⟩)
      · exact e1 h
      · exact e2 w h
    · rw [e3, Option.or_none]; rfl
  · rintro ⟨⟨h1, h2⟩, h3⟩
    obtain ⟨r, hr⟩ := missingOf_total c c.policies none (fun h => h1 (.inl h))
      fun w h => h1 (.inr ⟨w, h⟩)
    obtain ⟨-, -, e3⟩ := missingOf_ok _ _ _ _ hr
    have : r.getD c.vt.zero = v := by rw [h2, e3, Option.or_none]; rfl
    simp only [fallbackOf, hr, Out.ok_bind, this]
    rw [(inBounds_iff _ _).2 h3]
    rfl

end ArgRouter
