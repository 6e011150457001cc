import Verif.Spec.Outcome
import Verif.Lemmas.Route

/-!
# The second stage against its specification
-/

namespace ArgRouter

open Spec

theorem sameFailure_bind {α β : Type} {o : Out α} {o' : Out β} (h : SameFailure o o')
    (f : α → Out β) : (o >>= f) = o' := by
  cases h <;> rfl

theorem sameFailure_not_ok {α β : Type} {o : Out α} {o' : Out β} (h : SameFailure o o') (a : α) :
    o ≠ .ok a := by
  cases h <;> simp

theorem bind_sameFailure {α β : Type} {o : Out α} (h : ∀ a, o ≠ .ok a) (f : α → Out β) :
    SameFailure o (o >>= f) := by
  cases o with
  | ok a => exact absurd rfl (h a)
  | throw e => exact .throws e
  | foreign => exact .foreign
  | ub => exact .undefined
  | diverge => exact .forever

/-- One after the other, as code. -/
def oneByOne {α β : Type} (f : α → Out β) : List α → Out (List β)
  | [] => .ok []
  | a :: as => do
    let x ← f a
    let xs ← oneByOne f as
    return x :: xs

theorem oneByOne_iff {α β : Type} {does : α → Out β → Prop} {f : α → Out β} {as : List α}
    (h : ∀ a ∈ as, ∀ o, does a o ↔ f a = o) (o : Out (List β)) :
    OneByOne does as o ↔ oneByOne f as = o := by
  induction as generalizing o with
  | nil =>
    constructor
    · intro h; cases h; rfl
    · rintro rfl; exact .nothing
  | cons a as ih =>
    have ih := ih fun x hx => h x (List.mem_cons_of_mem _ hx)
    have ha := h a List.mem_cons_self
    constructor
    · intro h
      rw [oneByOne]
      cases h with
      | next h1 h2 => rw [(ha _).1 h1, Out.ok_bind, (ih _).1 h2]; rfl
      | fails h1 h2 => rw [(ha _).1 h1]; exact sameFailure_bind h2 _
      | later h1 h2 h3 => rw [(ha _).1 h1, Out.ok_bind, (ih _).1 h2]; exact sameFailure_bind h3 _
    · rintro rfl
      rw [oneByOne]
      by_cases hok : ∃ x, f a = .ok x
      · obtain ⟨x, hx⟩ := hok
        rw [hx, Out.ok_bind]
        by_cases hok' : ∃ xs, oneByOne f as = .ok xs
        · obtain ⟨xs, hxs⟩ := hok'
          rw [hxs]
          exact .next ((ha _).2 hx) ((ih _).2 hxs)
        · exact .later ((ha _).2 hx) ((ih _).2 rfl) (bind_sameFailure (fun a h => hok' ⟨a, h⟩) _)
      · exact .fails ((ha _).2 rfl) (bind_sameFailure (fun a h => hok ⟨a, h⟩) _)

/-! ## Values -/

theorem findSome_first {α β : Type} {f : α → Option β} {l before after : List α} {a : α} {x : β}
    (hl : l = before ++ a :: after) (hb : ∀ y ∈ before, f y = none) (ha : f a = some x) :
    l.findSome? f = some x := by
  subst hl
  induction before with
  | nil => simp [ha]
  | cons y ys ih =>
    rw [List.cons_append, List.findSome?_cons, hb y List.mem_cons_self]
    exact ih fun z hz => hb z (List.mem_cons_of_mem _ hz)

theorem parses_iff (n : Node) (s : Bytes) (o : Out Scalar) : Parses n s o ↔ parseToken n s = o := by
  constructor
  · intro h
    unfold parseToken
    cases h with
    | @custom before after f h1 h2 =>
      rw [findSome_first (x := f) h1 (fun y hy => ?_) rfl]
      cases y <;> first | rfl | exact absurd hy (h2 _)
    | standard h =>
      rw [List.findSome?_eq_none_iff.2 fun y hy => ?_]
      cases y <;> first | rfl | exact absurd hy (h _)
  · rintro rfl
    unfold parseToken
    split
    · rename_i f hf
      rw [List.findSome?_eq_some_iff] at hf
      obtain ⟨l1, p, l2, hl, hp', hb⟩ := hf
      cases p <;> simp at hp'
      subst hp'
      exact .custom hl fun g hg => by have := hb _ hg; simp at this
    · rename_i hf
      refine .standard ?_
      intro f hmem
      rw [List.findSome?_eq_none_iff] at hf
      exact absurd (hf _ hmem) (by simp)

theorem parseTokens_oneByOne (n : Node) (ts : List Token) :
    parseTokens n ts = oneByOne (fun t => parseToken n t.name) ts := by
  induction ts with
  | nil => rfl
  | cons t ts ih => rw [parseTokens, oneByOne, ih]

theorem means_iff (l : Leaf) (o : Out Value) : Means l o ↔ parseValue l.node l.tokens = o := by
  have hts : ∀ o, OneByOne (fun t o => Parses l.node t.name o) l.tokens o ↔
      parseTokens l.node l.tokens = o := by
    intro o
    rw [parseTokens_oneByOne]
    exact oneByOne_iff (fun t _ o => parses_iff l.node t.name o) o
  unfold parseValue
  constructor
  · intro h
    cases h with
    | list h1 h2 => rw [if_pos h1, (hts _).1 h2]; rfl
    | listFails h1 h2 h3 => rw [if_pos h1, (hts _).1 h2]; exact sameFailure_bind h3 _
    | one h1 h2 h3 =>
      rw [if_neg (by simp [h1]), h2]
      simp only [(parses_iff _ _ _).1 h3]
      rfl
    | oneFails h1 h2 h3 h4 =>
      rw [if_neg (by simp [h1]), h2]
      simp only [(parses_iff _ _ _).1 h3]
      exact sameFailure_bind h4 _
    | nothing h1 h2 => rw [if_neg (by simp [h1]), h2]
  · rintro rfl
    cases hl : l.node.vt.isList with
    | true =>
      simp only [if_true]
      by_cases hok : ∃ x, parseTokens l.node l.tokens = .ok x
      · obtain ⟨x, hx⟩ := hok
        rw [hx]
        exact .list hl ((hts _).2 hx)
      · exact .listFails hl ((hts _).2 rfl) (bind_sameFailure (fun a h => hok ⟨a, h⟩) _)
    | false =>
      simp only [Bool.false_eq_true, if_false]
      split
      · rename_i ht
        exact .nothing hl ht
      · rename_i t more ht
        by_cases hok : ∃ x, parseToken l.node t.name = .ok x
        · obtain ⟨x, hx⟩ := hok
          rw [hx]
          exact .one hl ht ((parses_iff _ _ _).2 hx)
        · exact .oneFails hl ht ((parses_iff _ _ _).2 rfl)
            (bind_sameFailure (fun a h => hok ⟨a, h⟩) _)

/-! ## Checks -/

/-- What one policy says, as code. -/
def sayOf (n : Node) (v : Value) (p : Policy) : Out Unit := validationOf n v [p]

theorem says_iff (n : Node) (v : Value) (p : Policy) (o : Out Unit) :
    Says n v p o ↔ sayOf n v p = o := by
  have hb : ∀ (lo hi : Option Value) (less : Value → Value → Bool),
      ((lo.map (less v)).getD false = false ↔ ∀ x, lo = some x → less v x = false) ∧
      ((hi.map (less · v)).getD false = false ↔ ∀ x, hi = some x → less x v = false) := by
    intro lo hi less
    cases lo <;> cases hi <;> simp
  constructor
  · intro h
    unfold sayOf
    cases h with
    | tooSmall h => simp [validationOf, h]
    | tooLarge h1 h2 =>
      simp only [validationOf]
      rw [(hb _ none _).1.2 h1]
      simp [h2]
    | within h1 h2 =>
      simp only [validationOf]
      rw [(hb _ none _).1.2 h1, (hb none _ _).2.2 h2]
      rfl
    | @users tag f =>
      simp only [validationOf]
      cases f v <;> rfl
    | indifferent h1 h2 =>
      cases p <;> first | rfl | exact absurd rfl (h1 _ _ _) | exact absurd rfl (h2 _ _)
  · rintro rfl
    unfold sayOf
    cases p with
    | minMaxValue lo hi less =>
      simp only [validationOf]
      cases hlo : (lo.map (less v)).getD false with
      | true =>
        cases lo with
        | none => simp at hlo
        | some x => exact .tooSmall (by simpa using hlo)
      | false =>
        cases hhi : (hi.map (less · v)).getD false with
        | true =>
          cases hi with
          | none => simp at hhi
          | some x => exact .tooLarge ((hb _ none _).1.1 hlo) (by simpa using hhi)
        | false => exact .within ((hb _ none _).1.1 hlo) ((hb none _ _).2.1 hhi)
    | validation tag f =>
      have : validationOf n v [.validation tag f] = f v := by
        simp only [validationOf]
        cases f v <;> rfl
      rw [this]
      exact .users
    | _ => exact .indifferent (by simp) (by simp)

theorem validationOf_cons (n : Node) (v : Value) (p : Policy) (ps : List Policy) :
    validationOf n v (p :: ps) = (sayOf n v p >>= fun _ => validationOf n v ps) := by
  unfold sayOf
  cases p <;> try rfl
  · simp only [validationOf]
    split
    · rfl
    · split <;> rfl
  · rename_i tag f
    simp only [validationOf]
    cases f v <;> rfl

theorem judged_iff (n : Node) (v : Value) (o : Out Unit) :
    Judged n v o ↔ validationOf n v n.policies = o := by
  have key : ∀ (ps : List Policy) (o : Out Unit), validationOf n v ps = o ↔
      ((∀ p ∈ ps, Says n v p (.ok ())) ∧ o = .ok ()) ∨
      ∃ before p after, ps = before ++ p :: after ∧ (∀ q ∈ before, Says n v q (.ok ())) ∧
        Says n v p o ∧ o ≠ .ok () := by
    intro ps
    induction ps with
    | nil =>
      intro o
      constructor
      · rintro rfl; exact .inl ⟨by simp, rfl⟩
      · rintro (⟨-, rfl⟩ | ⟨before, p, after, h, -⟩)
        · rfl
        · simp at h
    | cons p ps ih =>
      intro o
      rw [validationOf_cons]
      by_cases hp : sayOf n v p = .ok ()
      · rw [hp, Out.ok_bind, ih]
        constructor
        · rintro (⟨h1, rfl⟩ | ⟨before, q, after, rfl, h2, h3, h4⟩)
          · refine .inl ⟨?_, rfl⟩
            intro q hq
            rcases List.mem_cons.1 hq with rfl | hq
            · exact (says_iff _ _ _ _).2 hp
            · exact h1 q hq
          · refine .inr ⟨p :: before, q, after, rfl, ?_, h3, h4⟩
            intro q hq
            rcases List.mem_cons.1 hq with rfl | hq
            · exact (says_iff _ _ _ _).2 hp
            · exact h2 q hq
        · rintro (⟨h1, rfl⟩ | ⟨before, q, after, he, h2, h3, h4⟩)
          · exact .inl ⟨fun q hq => h1 q (List.mem_cons_of_mem _ hq), rfl⟩
          · cases before with
            | nil =>
              simp only [List.nil_append, List.cons.injEq] at he
              obtain ⟨rfl, rfl⟩ := he
              rw [says_iff, hp] at h3
              exact absurd h3.symm h4
            | cons x before =>
              simp only [List.cons_append, List.cons.injEq] at he
              obtain ⟨rfl, rfl⟩ := he
              exact .inr ⟨before, q, after, rfl, fun y hy => h2 y (List.mem_cons_of_mem _ hy),
                h3, h4⟩
      · have hb : (sayOf n v p >>= fun _ => validationOf n v ps) = sayOf n v p := by
          cases hs : sayOf n v p with
          | ok u => exact absurd hs hp
          | _ => rfl
        rw [hb]
        constructor
        · rintro rfl
          exact .inr ⟨[], p, ps, rfl, by simp, (says_iff _ _ _ _).2 rfl, hp⟩
        · rintro (⟨h1, rfl⟩ | ⟨before, q, after, he, h2, h3, h4⟩)
          · exact absurd ((says_iff _ _ _ _).1 (h1 p List.mem_cons_self)) hp
          · cases before with
            | nil =>
              simp only [List.nil_append, List.cons.injEq] at he
              obtain ⟨rfl, rfl⟩ := he
              exact (says_iff _ _ _ _).1 h3
            | cons x before =>
              simp only [List.cons_append, List.cons.injEq] at he
              obtain ⟨rfl, rfl⟩ := he
              exact absurd ((says_iff _ _ _ _).1 (h2 p List.mem_cons_self)) hp
  rw [key]
  constructor
  · intro h
    cases h with
    | fine h => exact .inl ⟨h, rfl⟩
    | refused h1 h2 h3 h4 => exact .inr ⟨_, _, _, h1, h2, h3, h4⟩
  · rintro (⟨h, rfl⟩ | ⟨_, _, _, h1, h2, h3, h4⟩)
    · exact .fine h
    · exact .refused h1 h2 h3 h4

/-- The value of a use, as code. -/
def valueOf (l : Leaf) : Out Value :=
  if TakesValues l.node then do
    let v ← parseValue l.node l.tokens
    validationOf l.node v l.node.policies
    return v
  else .ok (.one (.bool true))

theorem leafValue_valueOf {l : Leaf} (hl : HasUses l.node) :
    leafValue l = (valueOf l >>= fun v => .ok (some v)) := by
  unfold leafValue valueOf
  rcases hl with h | h | h
  · simp only [h, TakesValues, Bool.false_eq_true, if_false]; rfl
  · simp only [h, TakesValues, Bool.false_eq_true, if_false]; rfl
  · rw [if_pos h]
    have : ∀ (n : Node) (ts : List Token), (do
        let v ← parseValue n ts
        validationOf n v n.policies
        return some v : Out (Option Value)) = (do
        let v ← parseValue n ts
        validationOf n v n.policies
        return v : Out Value) >>= fun v => .ok (some v) := by
      intro n ts
      cases parseValue n ts with
      | ok v =>
        simp only [Out.ok_bind]
        cases validationOf n v n.policies <;> rfl
      | _ => rfl
    cases hk : l.node.kind <;> simp only [TakesValues, hk, Bool.false_eq_true] at h <;>
      exact this _ _

theorem gives_iff {l : Leaf} (hl : HasUses l.node) (o : Out Value) :
    Gives l o ↔ valueOf l = o := by
  unfold valueOf
  constructor
  · intro h
    cases h with
    | flag h => rw [if_neg]; rcases h with h | h <;> simp [TakesValues, h]
    | value h1 h2 h3 =>
      rw [if_pos h1, (means_iff _ _).1 h2, Out.ok_bind, (judged_iff _ _ _).1 h3]
      rfl
    | unreadable h1 h2 h3 => rw [if_pos h1, (means_iff _ _).1 h2]; exact sameFailure_bind h3 _
    | refused h1 h2 h3 h4 =>
      rw [if_pos h1, (means_iff _ _).1 h2, Out.ok_bind, (judged_iff _ _ _).1 h3]
      exact sameFailure_bind h4 _
  · rintro rfl
    split
    · rename_i ht
      by_cases hok : ∃ v, parseValue l.node l.tokens = .ok v
      · obtain ⟨v, hv⟩ := hok
        rw [hv, Out.ok_bind]
        by_cases hok' : validationOf l.node v l.node.policies = .ok ()
        · rw [hok']
          exact .value ht ((means_iff _ _).2 hv) ((judged_iff _ _ _).2 hok')
        · exact .refused ht ((means_iff _ _).2 hv) ((judged_iff _ _ _).2 rfl)
            (bind_sameFailure (fun _ h => hok' h) _)
      · exact .unreadable ht ((means_iff _ _).2 rfl) (bind_sameFailure (fun a h => hok ⟨a, h⟩) _)
    · rename_i ht
      rcases hl with h | h | h
      · exact .flag (.inl h)
      · exact .flag (.inr h)
      · exact absurd h ht

/-! ## Uses -/

/-- What the children have got, as a function. -/
def gotOf (rs : List (Option Value)) : Nat → Option Value := fun i => rs[i]?.getD none

theorem gotOf_set {rs : List (Option Value)} {i : Nat} (hi : i < rs.length) (r : Option Value) :
    gotOf (rs.set i r) = put (gotOf rs) i r := by
  funext j
  unfold gotOf put
  by_cases h : j = i
  · subst h
    rw [List.getElem?_set_self hi, if_pos rfl]
    rfl
  · rw [List.getElem?_set_ne (fun e => h e.symm), if_neg h]

theorem gotOf_start (n : Nat) : gotOf (List.replicate n none) = fun _ => none := by
  funext j
  unfold gotOf
  rw [List.getElem?_replicate]
  split <;> rfl

/-- The uses, as code without state. -/
def collectOf (children : List Node) : List Leaf → List (Option Value) → Out (List (Option Value))
  | [], rs => .ok rs
  | l :: ls, rs => do
    let v ← valueOf l
    match findChild l.node.hash children 0 with
    | none => collectOf children ls rs
    | some (i, c, n) =>
      if c.hasNoResult then collectOf children ls rs
      else if n.isMultiStage then collectOf children ls (rs.set i (mergeValue n (gotOf rs i) v))
      else if (gotOf rs i).isSome then .throw ⟨.argument_has_already_been_set, [n.tokenType]⟩
      else collectOf children ls (rs.set i (some v))

theorem processSubs_collectOf (children : List Node) (ls : List Leaf) (rs : List (Option Value))
    (s : St) (hu : ∀ l ∈ ls, HasUses l.node) (hr : ∀ l ∈ ls, l.node.hasRouter = false) :
    processSubs children ls rs s = (collectOf children ls rs, s) := by
  induction ls generalizing rs with
  | nil => rfl
  | cons l ls ih =>
    have ih := fun rs => ih rs (fun x hx => hu x (List.mem_cons_of_mem _ hx))
      fun x hx => hr x (List.mem_cons_of_mem _ hx)
    have hu := hu l List.mem_cons_self
    have hr := hr l List.mem_cons_self
    rw [processSubs, M.bind_apply, parseLeaf_apply, leafValue_valueOf hu, collectOf]
    cases hv : valueOf l with
    | ok v =>
      have hc : leafCalls l (some v) = [] := by
        unfold leafCalls
        rcases hu with h | h | h
        · simp [h, hr]
        · simp [h]
        · cases hk : l.node.kind <;> simp [TakesValues, hk] at h <;> simp [hr]
      simp only [Out.ok_bind, hc, withCalls_nil]
      cases findChild l.node.hash children 0 with
      | none => exact ih rs
      | some x =>
        obtain ⟨i, c, n⟩ := x
        simp only [processResult]
        cases c.hasNoResult with
        | true => simp only [if_true, M.pure_bind]; exact ih rs
        | false =>
          simp only [Bool.false_eq_true, if_false]
          cases n.isMultiStage with
          | true => simp only [if_true, M.pure_bind]; exact ih _
          | false =>
            simp only [Bool.false_eq_true, if_false]
            unfold gotOf
            split
            · rfl
            · rw [M.pure_bind]; exact ih _
    | _ => rfl

theorem forArgument_iff (c : Node) (l : Leaf) (n : Node) :
    ForArgument c l n ↔ matchChild l.node.hash c = some n := by
  have hp : ∀ x : Node, (x.kind != .mode && x.hasParse && x.hash == l.node.hash) = true ↔
      x.kind ≠ .mode ∧ x.hasParse = true ∧ x.hash = l.node.hash := by
    intro x
    simp only [Bool.and_eq_true, bne_iff_ne, ne_eq, beq_iff_eq, and_assoc]
  unfold matchChild ForArgument
  rw [List.find?_eq_some_iff_append]
  constructor
  · rintro ⟨before, after, h1, h2, h3⟩
    exact ⟨(hp n).2 h2, before, after, h1, fun x hx => by
      rw [Bool.not_eq_true', Bool.eq_false_iff]; exact fun h => h3 x hx ((hp x).1 h)⟩
  · rintro ⟨h2, before, after, h1, h3⟩
    exact ⟨before, after, h1, (hp n).1 h2, fun x hx h => by
      have := h3 x hx
      rw [(hp x).2 h] at this
      cases this⟩

theorem forChild_iff (children : List Node) (l : Leaf) (i : Nat) (c n : Node) :
    ForChild children l i c n ↔
      findChild l.node.hash children 0 = some (i, c, n) ∧ c.hasNoResult = false := by
  constructor
  · rintro ⟨h1, h2, h3, h4⟩
    obtain ⟨c', n', h5⟩ := (isFor_iff _ _ _).1 h1
    obtain ⟨j, hj, h6, h7, -⟩ := findChild_spec _ _ _ h5
    rw [Nat.zero_add] at hj
    subst hj
    rw [h2] at h6
    cases h6
    rw [forArgument_iff, h7] at h4
    cases h4
    exact ⟨h5, h3⟩
  · rintro ⟨h5, h3⟩
    obtain ⟨j, hj, h6, h7, -⟩ := findChild_spec _ _ _ h5
    rw [Nat.zero_add] at hj
    subst hj
    exact ⟨(isFor_iff _ _ _).2 ⟨_, _, h5⟩, h6, h3, (forArgument_iff _ _ _).2 h7⟩

theorem onceOnly_iff (n : Node) : OnceOnly n ↔ n.isMultiStage = false := by
  unfold OnceOnly Node.isMultiStage
  rw [List.any_eq_false]
  constructor
  · intro h p hp
    cases p <;> first | exact absurd hp (h _) | simp
  · intro h f hf
    exact absurd rfl (h _ hf)

theorem merges_iff (n : Node) (old : Option Value) (v : Value) (new : Option Value) :
    Merges n old v new ↔ n.isMultiStage = true ∧ mergeValue n old v = new := by
  unfold mergeValue
  constructor
  · rintro ⟨before, after, f, h1, h2, rfl⟩
    refine ⟨?_, ?_⟩
    · unfold Node.isMultiStage
      rw [List.any_eq_true]
      exact ⟨.multiStage f, by rw [h1]; simp, rfl⟩
    · rw [findSome_first (x := f) h1 (fun y hy => ?_) rfl]
      cases y <;> first | rfl | exact absurd hy (h2 _)
  · rintro ⟨h, rfl⟩
    split
    · rename_i f hf
      rw [List.findSome?_eq_some_iff] at hf
      obtain ⟨l1, p, l2, hl, hp', hb⟩ := hf
      cases p <;> simp at hp'
      subst hp'
      exact ⟨_, _, _, hl, fun g hg => by have := hb _ hg; simp at this, rfl⟩
    · rename_i hf
      rw [List.findSome?_eq_none_iff] at hf
      unfold Node.isMultiStage at h
      rw [List.any_eq_true] at h
      obtain ⟨p, hp, h⟩ := h
      cases p <;> simp at h
      exact absurd (hf _ hp) (by simp)

theorem collects_iff (children : List Node) (ls : List Leaf) (rs : List (Option Value))
    (hu : ∀ l ∈ ls, HasUses l.node) (hlen : rs.length = children.length)
    (o : Out (Nat → Option Value)) :
    Collects children ls (gotOf rs) o ↔
      (collectOf children ls rs >>= fun rs => .ok (gotOf rs)) = o := by
  induction ls generalizing rs o with
  | nil =>
    constructor
    · intro h; cases h; rfl
    · rintro rfl; exact .done
  | cons l ls ih =>
    have ih : ∀ rs : List (Option Value), rs.length = children.length → ∀ {o},
        Collects children ls (gotOf rs) o ↔
          (collectOf children ls rs >>= fun rs => .ok (gotOf rs)) = o :=
      fun rs h o => ih rs (fun x hx => hu x (List.mem_cons_of_mem _ hx)) h o
    have hg := @gives_iff l (hu l List.mem_cons_self)
    have hbound : ∀ {i c n}, findChild l.node.hash children 0 = some (i, c, n) → i < rs.length := by
      intro i c n h
      obtain ⟨j, hj, h6, -, -⟩ := findChild_spec _ _ _ h
      have := (List.getElem?_eq_some_iff.1 h6).1
      omega
    constructor
    · intro h
      rw [collectOf]
      cases h with
      | fails h1 h2 => rw [(hg _).1 h1]; cases h2 <;> rfl
      | ignored h1 h2 h3 =>
        rw [(hg _).1 h1, Out.ok_bind]
        have h3 := (ih rs hlen).1 h3
        cases hf : findChild l.node.hash children 0 with
        | none => exact h3
        | some x =>
          obtain ⟨i, c, n⟩ := x
          obtain ⟨j, hj, h6, -, -⟩ := findChild_spec _ _ _ hf
          rw [Nat.zero_add] at hj
          subst hj
          simp only [h2 _ _ ((isFor_iff _ _ _).2 ⟨_, _, hf⟩) h6, if_true]
          exact h3
      | first h1 h2 h3 h4 h5 =>
        obtain ⟨hf, hn⟩ := (forChild_iff _ _ _ _ _).1 h2
        rw [(hg _).1 h1, Out.ok_bind, hf]
        simp only [hn, (onceOnly_iff _).1 h3, h4, Option.isSome_none, Bool.false_eq_true, if_false]
        rw [← gotOf_set (hbound hf)] at h5
        exact (ih _ (by simpa using hlen)).1 h5
      | again h1 h2 h3 h4 =>
        obtain ⟨hf, hn⟩ := (forChild_iff _ _ _ _ _).1 h2
        rw [(hg _).1 h1, Out.ok_bind, hf]
        simp only [hn, (onceOnly_iff _).1 h3, h4, Option.isSome_some, Bool.false_eq_true, if_false,
          if_true]
        rfl
      | merged h1 h2 h3 h4 =>
        obtain ⟨hf, hn⟩ := (forChild_iff _ _ _ _ _).1 h2
        obtain ⟨h5, rfl⟩ := (merges_iff _ _ _ _).1 h3
        rw [(hg _).1 h1, Out.ok_bind, hf]
        simp only [hn, h5, Bool.false_eq_true, if_false, if_true]
        rw [← gotOf_set (hbound hf)] at h4
        exact (ih _ (by simpa using hlen)).1 h4
    · rintro rfl
      rw [collectOf]
      by_cases hok : ∃ v, valueOf l = .ok v
      · obtain ⟨v, hv⟩ := hok
        have hgv := (hg _).2 hv
        rw [hv, Out.ok_bind]
        cases hf : findChild l.node.hash children 0 with
        | none =>
          refine .ignored hgv (fun i c h _ => ?_) ((ih rs hlen).2 rfl)
          obtain ⟨_, _, h⟩ := (isFor_iff _ _ _).1 h
          rw [hf] at h
          cases h
        | some x =>
          obtain ⟨i, c, n⟩ := x
          simp only
          cases hn : c.hasNoResult with
          | true =>
            refine .ignored hgv (fun i' c' h h' => ?_) ((ih rs hlen).2 rfl)
            obtain ⟨c'', n'', h⟩ := (isFor_iff _ _ _).1 h
            obtain ⟨j, hj, h6, -, -⟩ := findChild_spec _ _ _ h
            rw [hf] at h
            cases h
            rw [Nat.zero_add] at hj
            subst hj
            rw [h6] at h'
            cases h'
            exact hn
          | false =>
            have hfor := (forChild_iff _ _ _ _ _).2 ⟨hf, hn⟩
            simp only [Bool.false_eq_true, if_false]
            cases hm : n.isMultiStage with
            | true =>
              simp only [if_true]
              refine .merged hgv hfor ((merges_iff _ _ _ _).2 ⟨hm, rfl⟩) ?_
              rw [← gotOf_set (hbound hf)]
              exact (ih _ (by simpa using hlen)).2 rfl
            | false =>
              have honce := (onceOnly_iff _).2 hm
              simp only [Bool.false_eq_true, if_false]
              cases hgot : gotOf rs i with
              | some w => exact .again hgv hfor honce hgot
              | none =>
                simp only [Option.isSome_none, Bool.false_eq_true, if_false]
                refine .first hgv hfor honce hgot ?_
                rw [← gotOf_set (hbound hf)]
                exact (ih _ (by simpa using hlen)).2 rfl
      · refine .fails ((hg _).2 rfl) ?_
        cases hv : valueOf l with
        | ok v => exact absurd ⟨v, hv⟩ hok
        | throw e => exact .throws e
        | foreign => exact .foreign
        | ub => exact .undefined
        | diverge => exact .forever

/-! ## Children -/

/-- The value of a child, as code. -/
def fillValue (c : Node) : Option Value → Out Value
  | some v => .ok v
  | none => fallbackOf c

theorem fillValue_some (c : Node) (v : Value) : fillValue c (some v) = .ok v := rfl

theorem fillValue_none (c : Node) : fillValue c none = fallbackOf c := rfl

theorem fallback_missing {c : Node} (h : ¬ MustBeGiven c) :
    fallbackOf c = (validationOf c ((defaults c).getLast?.getD c.vt.zero) c.policies >>= fun _ =>
      .ok ((defaults c).getLast?.getD c.vt.zero)) := by
  obtain ⟨r, hr⟩ := missingOf_total c c.policies none (fun hm => h (.inl hm))
    fun v hm => h (.inr ⟨v, hm⟩)
  have hd := (missingOf_ok _ _ _ _ hr).2.2
  rw [Option.or_none] at hd
  unfold fallbackOf
  rw [hr, Out.ok_bind, hd]
  rfl

theorem fills_iff (c : Node) (r : Option Value) (o : Out Value) :
    Fills c r o ↔ fillValue c r = o := by
  constructor
  · intro h
    cases h with
    | given => rfl
    | missing h =>
      simp only [fillValue, fallbackOf, missingOf_throw c c.policies none h]
      rfl
    | fallback h1 h2 =>
      obtain ⟨h1, rfl⟩ := h1
      rw [fillValue, fallback_missing h1, (judged_iff _ _ _).1 h2]
      rfl
    | refused h1 h2 h3 =>
      obtain ⟨h1, rfl⟩ := h1
      rw [fillValue, fallback_missing h1, (judged_iff _ _ _).1 h2]
      exact sameFailure_bind h3 _
  · rintro rfl
    cases r with
    | some v => exact .given
    | none =>
      by_cases hm : MustBeGiven c
      · simp only [fillValue, fallbackOf, missingOf_throw c c.policies none hm]
        exact .missing hm
      · rw [fillValue, fallback_missing hm]
        by_cases hok : validationOf c ((defaults c).getLast?.getD c.vt.zero) c.policies = .ok ()
        · rw [hok]
          exact .fallback ⟨hm, rfl⟩ ((judged_iff _ _ _).2 hok)
        · exact .refused ⟨hm, rfl⟩ ((judged_iff _ _ _).2 rfl)
            (bind_sameFailure (fun _ h => hok h) _)

/-- The final check, as code. -/
def checkValue (c : Node) (v : Value) : Out Unit :=
  if c.isMultiStage || c.children.any Node.isMultiStage then validationOf c v c.policies
  else .ok ()

theorem repeatable_iff (c : Node) :
    Repeatable c ↔ (c.isMultiStage || c.children.any Node.isMultiStage) = true := by
  unfold Repeatable
  simp only [onceOnly_iff, Bool.not_eq_false, Bool.or_eq_true, List.any_eq_true]

theorem checked_iff (c : Node) (v : Value) (o : Out Unit) :
    Checked c v o ↔ checkValue c v = o := by
  unfold checkValue
  constructor
  · intro h
    cases h with
    | merged h1 h2 => rw [if_pos ((repeatable_iff _).1 h1)]; exact (judged_iff _ _ _).1 h2
    | other h => rw [if_neg (fun h' => h ((repeatable_iff _).2 h'))]
  · rintro rfl
    split
    · rename_i h; exact .merged ((repeatable_iff _).2 h) ((judged_iff _ _ _).2 rfl)
    · rename_i h; exact .other fun h' => h ((repeatable_iff _).1 h')

/-- The children that have a value, numbered from `k`. -/
def valuedFrom (k : Nat) (cs : List Node) : List (Node × Nat) :=
  (cs.zipIdx k).filter fun x => !x.1.hasNoResult

theorem valuedFrom_cons (k : Nat) (c : Node) (cs : List Node) :
    valuedFrom k (c :: cs) =
      if c.hasNoResult then valuedFrom (k + 1) cs else (c, k) :: valuedFrom (k + 1) cs := by
  unfold valuedFrom
  rw [List.zipIdx_cons, List.filter_cons]
  cases c.hasNoResult <;> rfl

/-- The results of all children, from the values of those that have one. -/
def spread : List Node → List Value → List (Option Value)
  | [], _ => []
  | c :: cs, vs =>
    if c.hasNoResult then none :: spread cs vs
    else vs.head? :: spread cs vs.tail

theorem fillMissing_values (cs : List Node) (rs : List (Option Value)) (k : Nat)
    (got : Nat → Option Value) (s : St) (hlen : rs.length = cs.length)
    (hgot : ∀ j, j < cs.length → got (k + j) = rs[j]?.getD none) :
    fillMissing cs rs s =
      ((oneByOne (fun x => fillValue x.1 (got x.2)) (valuedFrom k cs) >>= fun vs =>
        .ok (spread cs vs) : Out (List (Option Value))), s) := by
  induction cs generalizing rs k with
  | nil =>
    cases rs with
    | nil => rfl
    | cons _ _ => simp at hlen
  | cons c cs ih =>
    cases rs with
    | nil => simp at hlen
    | cons r rs =>
      have ih := ih rs (k + 1) (by simpa using hlen) (fun j hj => by
        have := hgot (j + 1) (by simpa using hj)
        rw [List.getElem?_cons_succ] at this
        rw [← this]
        congr 1
        omega)
      have h0 := hgot 0 (by simp)
      rw [Nat.add_zero, List.getElem?_cons_zero, Option.getD_some] at h0
      rw [fillMissing, fillResult_eq, valuedFrom_cons]
      unfold fillOf
      cases hc : c.hasNoResult with
      | true =>
        simp only [if_true, M.bind_apply, M.lift_apply, ih]
        cases oneByOne (fun x => fillValue x.1 (got x.2)) (valuedFrom (k + 1) cs) with
        | ok vs => simp [spread, hc]
        | _ => rfl
      | false =>
        simp only [Bool.false_eq_true, if_false]
        rw [oneByOne, h0]
        cases r with
        | some v =>
          simp only [M.bind_apply, M.lift_apply, ih, fillValue_some, Out.ok_bind]
          cases oneByOne (fun x => fillValue x.1 (got x.2)) (valuedFrom (k + 1) cs) with
          | ok vs => simp [spread, hc]
          | _ => rfl
        | none =>
          simp only [fillValue_none]
          cases fallbackOf c with
          | ok v =>
            simp only [Out.ok_bind, Out.pure_eq, M.bind_apply, M.lift_apply, ih]
            cases oneByOne (fun x => fillValue x.1 (got x.2)) (valuedFrom (k + 1) cs) with
            | ok vs => simp [spread, hc]
            | _ => rfl
          | _ => rfl

theorem oneByOne_length {α β : Type} {f : α → Out β} {as : List α} {xs : List β}
    (h : oneByOne f as = .ok xs) : xs.length = as.length := by
  induction as generalizing xs with
  | nil => cases h; rfl
  | cons a as ih =>
    simp only [oneByOne, Out.bind_eq_ok, Out.pure_eq, Out.ok.injEq] at h
    obtain ⟨x, -, ys, h2, rfl⟩ := h
    simp [ih h2]

theorem routerArgs_spread (cs : List Node) (k : Nat) (vs : List Value)
    (hlen : vs.length = (valuedFrom k cs).length) : routerArgs cs (spread cs vs) = vs := by
  induction cs generalizing k vs with
  | nil => cases vs with
    | nil => rfl
    | cons _ _ => simp [valuedFrom] at hlen
  | cons c cs ih =>
    rw [valuedFrom_cons] at hlen
    rw [spread]
    cases hc : c.hasNoResult with
    | true =>
      simp only [hc, if_true] at hlen
      simp only [routerArgs, hc, if_true]
      exact ih _ _ hlen
    | false =>
      simp only [hc, Bool.false_eq_true, if_false, List.length_cons] at hlen
      cases vs with
      | nil => simp at hlen
      | cons v vs =>
        simp only [routerArgs, hc, Bool.false_eq_true, if_false, List.head?_cons, List.tail_cons,
          Option.toList]
        rw [ih (k + 1) vs (by simpa using hlen)]
        rfl

theorem stages_spread (cs : List Node) (k : Nat) (vs : List Value) (s : St)
    (hlen : vs.length = (valuedFrom k cs).length) :
    multiStageValidation cs (spread cs vs) s =
      ((oneByOne (fun x => checkValue x.1.1 x.2) ((valuedFrom k cs).zip vs) >>= fun _ => .ok () :
        Out Unit), s) := by
  induction cs generalizing k vs with
  | nil => rfl
  | cons c cs ih =>
    rw [valuedFrom_cons] at hlen
    rw [spread, valuedFrom_cons]
    cases hc : c.hasNoResult with
    | true =>
      simp only [hc, if_true] at hlen
      simp only [multiStageValidation, validateStages_eq, stagesOf, hc, if_true, Bool.not_true,
        Bool.false_and, Bool.false_eq_true, if_false, M.lift_ok_bind]
      exact ih _ _ hlen
    | false =>
      simp only [hc, Bool.false_eq_true, if_false, List.length_cons] at hlen
      cases vs with
      | nil => simp at hlen
      | cons v vs =>
        simp only [Bool.false_eq_true, if_false, List.head?_cons, List.tail_cons,
          multiStageValidation, validateStages_eq, stagesOf, hc, Bool.not_false, Bool.true_and,
          List.zip_cons_cons, oneByOne, M.bind_apply]
        have ih := ih (k + 1) vs (by simpa using hlen)
        unfold checkValue
        cases (if (c.isMultiStage || c.children.any Node.isMultiStage) = true then
            validationOf c v c.policies else .ok () : Out Unit) with
        | ok u =>
          simp only [M.lift_apply, Out.ok_bind, ih]
          unfold checkValue
          cases oneByOne (fun x : (Node × Nat) × Value =>
            (if (x.1.1.isMultiStage || x.1.1.children.any Node.isMultiStage) = true then
              validationOf x.1.1 x.2 x.1.1.policies else .ok () : Out Unit))
            ((valuedFrom (k + 1) cs).zip vs) <;> rfl
        | _ => rfl

/-- `parse` of a mode as code without state. -/
def modeOf (mode : Node) (uses : List Leaf) : Out (List Value) := do
  let rs ← collectOf mode.children uses (List.replicate mode.children.length none)
  let vals ← oneByOne (fun x => fillValue x.1 (gotOf rs x.2)) (valued mode.children)
  let _ ← oneByOne (fun x => checkValue x.1.1 x.2) ((valued mode.children).zip vals)
  if mode.hasRouter then .ok vals else .throw ⟨.mode_requires_arguments, [mode.tokenType]⟩

theorem collectOf_length {children : List Node} {ls : List Leaf} {rs rs' : List (Option Value)}
    (h : collectOf children ls rs = .ok rs') : rs'.length = rs.length := by
  induction ls generalizing rs with
  | nil => cases h; rfl
  | cons l ls ih =>
    simp only [collectOf, Out.bind_eq_ok] at h
    obtain ⟨v, -, h⟩ := h
    split at h
    · exact ih h
    · split at h
      · exact ih h
      · split at h
        · simpa using ih h
        · split at h
          · cases h
          · simpa using ih h

theorem hasRouter_iff (n : Node) : n.hasRouter = true ↔ .router ∈ n.policies := by
  unfold Node.hasRouter
  rw [List.any_eq_true]
  constructor
  · rintro ⟨p, hp, h⟩
    cases p <;> simp at h
    exact hp
  · exact fun h => ⟨_, h, rfl⟩

/-- The specification of a mode is what the code does. -/
theorem modeDoes_iff {mode : Node} {uses : List Leaf} (hu : ∀ l ∈ uses, HasUses l.node)
    (o : Out (List Value)) : ModeDoes mode uses o ↔ modeOf mode uses = o := by
  have hcol : ∀ o, Collects mode.children uses (fun _ => none) o ↔
      (collectOf mode.children uses (List.replicate mode.children.length none) >>= fun rs =>
        .ok (gotOf rs)) = o := by
    intro o
    rw [← gotOf_start mode.children.length]
    exact collects_iff _ _ _ hu (by simp) o
  have hfill : ∀ (got : Nat → Option Value) (o : Out (List Value)), OneByOne (fun x o => Fills x.1 (got x.2) o) (valued mode.children) o ↔
      oneByOne (fun x => fillValue x.1 (got x.2)) (valued mode.children) = o :=
    fun got o => oneByOne_iff (fun x _ o => fills_iff x.1 (got x.2) o) o
  have hcheck : ∀ (vals : List Value) (o : Out (List Unit)), OneByOne (fun x o => Checked x.1.1 x.2 o)
      ((valued mode.children).zip vals) o ↔
      oneByOne (fun x => checkValue x.1.1 x.2) ((valued mode.children).zip vals) = o :=
    fun vals o => oneByOne_iff (fun x _ o => checked_iff x.1.1 x.2 o) o
  unfold modeOf
  constructor
  · intro h
    have hok : ∀ got, Collects mode.children uses (fun _ => none) (.ok got) → ∃ rs,
        collectOf mode.children uses (List.replicate mode.children.length none) = .ok rs ∧
        gotOf rs = got := by
      intro got h
      have := (hcol _).1 h
      simp only [Out.bind_eq_ok, Out.ok.injEq] at this
      exact this
    cases h with
    | useFails h1 h2 =>
      have := (hcol _).1 h1
      cases hc : collectOf mode.children uses (List.replicate mode.children.length none) with
      | ok rs => rw [hc] at this; exact absurd this.symm (sameFailure_not_ok h2 _)
      | _ => rw [hc] at this; cases this; cases h2; rfl
    | fillFails h1 h2 h3 =>
      obtain ⟨rs, h4, rfl⟩ := hok _ h1
      rw [h4, Out.ok_bind, (hfill _ _).1 h2]
      exact sameFailure_bind h3 _
    | checkFails h1 h2 h3 h4 =>
      obtain ⟨rs, h5, rfl⟩ := hok _ h1
      rw [h5, Out.ok_bind, (hfill _ _).1 h2, Out.ok_bind, (hcheck _ _).1 h3]
      exact sameFailure_bind h4 _
    | noRouter h1 h2 h3 h4 =>
      obtain ⟨rs, h5, rfl⟩ := hok _ h1
      rw [h5, Out.ok_bind, (hfill _ _).1 h2, Out.ok_bind, (hcheck _ _).1 h3, Out.ok_bind, if_neg]
      rw [hasRouter_iff]
      exact h4
    | calls h1 h2 h3 h4 =>
      obtain ⟨rs, h5, rfl⟩ := hok _ h1
      rw [h5, Out.ok_bind, (hfill _ _).1 h2, Out.ok_bind, (hcheck _ _).1 h3, Out.ok_bind, if_pos]
      rw [hasRouter_iff]
      exact h4
  · rintro rfl
    by_cases hc : ∃ rs, collectOf mode.children uses
        (List.replicate mode.children.length none) = .ok rs
    · obtain ⟨rs, hc⟩ := hc
      have h1 := (hcol (.ok (gotOf rs))).2 (by rw [hc]; rfl)
      rw [hc, Out.ok_bind]
      by_cases hf : ∃ vals, oneByOne (fun x => fillValue x.1 (gotOf rs x.2))
          (valued mode.children) = .ok vals
      · obtain ⟨vals, hf⟩ := hf
        have h2 := (hfill _ _).2 hf
        rw [hf, Out.ok_bind]
        by_cases hk : ∃ us, oneByOne (fun x => checkValue x.1.1 x.2)
            ((valued mode.children).zip vals) = .ok us
        · obtain ⟨us, hk⟩ := hk
          have h3 := (hcheck _ _).2 hk
          rw [hk, Out.ok_bind]
          split
          · rename_i h; exact .calls h1 h2 h3 ((hasRouter_iff _).1 h)
          · rename_i h; exact .noRouter h1 h2 h3 fun h' => h ((hasRouter_iff _).2 h')
        · exact .checkFails h1 h2 ((hcheck _ _).2 rfl)
            (bind_sameFailure (fun a h => hk ⟨a, h⟩) _)
      · exact .fillFails h1 ((hfill _ _).2 rfl) (bind_sameFailure (fun a h => hf ⟨a, h⟩) _)
    · refine .useFails ((hcol _).2 rfl) ?_
      cases hv : collectOf mode.children uses (List.replicate mode.children.length none) with
      | ok v => exact absurd ⟨v, hv⟩ hc
      | throw e => exact .throws e
      | foreign => exact .foreign
      | ub => exact .undefined
      | diverge => exact .forever

theorem parseMode_modeOf (mode : Node) (uses : List Leaf) (s : St)
    (hu : ∀ l ∈ uses, HasUses l.node) (hr : ∀ l ∈ uses, l.node.hasRouter = false) :
    parseMode mode uses s = ended (called mode (modeOf mode uses)) s := by
  unfold parseMode modeOf
  rw [M.bind_apply, processSubs_collectOf _ _ _ _ hu hr]
  cases hc : collectOf mode.children uses (List.replicate mode.children.length none) with
  | ok rs =>
    have hlen := collectOf_length hc
    rw [List.length_replicate] at hlen
    simp only [M.bind_apply, Out.ok_bind]
    rw [fillMissing_values _ _ 0 (gotOf rs) s hlen (fun j _ => by rw [Nat.zero_add]; rfl)]
    rw [show valuedFrom 0 mode.children = valued mode.children from rfl]
    cases ho : oneByOne (fun x => fillValue x.1 (gotOf rs x.2)) (valued mode.children) with
    | ok vals =>
      have hvl := oneByOne_length ho
      simp only [Out.ok_bind]
      rw [stages_spread _ 0 _ _ hvl, routerArgs_spread _ 0 _ hvl]
      rw [show valuedFrom 0 mode.children = valued mode.children from rfl]
      cases oneByOne (fun x => checkValue x.1.1 x.2) ((valued mode.children).zip vals) with
      | ok us =>
        simp only [Out.ok_bind]
        cases mode.hasRouter <;> rfl
      | _ => rfl
    | _ => rfl
  | _ => rfl

end ArgRouter
