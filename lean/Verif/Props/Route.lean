import Verif.Lemmas.Route
import Verif.Parse.Classes
import Verif.Props.Groups

/-!
# C20-C25: what the router of a mode is called with
-/

namespace ArgRouter

namespace Spec

/-- The node is a counting flag with a counter of `width` bits. -/
def IsCounter (width : Nat) (c : Node) : Prop :=
  c.kind = .countingFlag ∧ c.children = [] ∧
    ∃ before after, c.policies = before ++ .multiStage (countingMerge width) :: after ∧
      ∀ f, .multiStage f ∉ before

end Spec

open Spec

namespace Props

theorem filterMap_position (cs : List Node) (rs : List (Option Value))
    (hlen : rs.length = cs.length)
    (h : ∀ (i : Nat) (h1 : i < cs.length) (h2 : i < rs.length),
      (rs[i].isSome = !cs[i].hasNoResult)) :
    (rs.filterMap id).length = parameters cs ∧
    ∀ (i : Nat) (c : Node), cs[i]? = some c → c.hasNoResult = false →
      ∀ r, rs[i]? = some r → (rs.filterMap id)[position cs i]? = r := by
  induction cs generalizing rs with
  | nil => cases rs with
    | nil => exact ⟨rfl, by intro i c h; simp at h⟩
    | cons _ _ => simp at hlen
  | cons c cs ih =>
    cases rs with
    | nil => simp at hlen
    | cons r rs =>
      simp only [List.length_cons, Nat.add_right_cancel_iff] at hlen
      obtain ⟨e1, e2⟩ := ih rs hlen fun i h1 h2 =>
        h (i + 1) (by simpa using h1) (by simpa using h2)
      have h0 := h 0 (by simp) (by simp)
      simp only [List.getElem_cons_zero] at h0
      cases hc : c.hasNoResult
      · rw [hc] at h0
        cases r with
        | none => simp at h0
        | some v =>
          constructor
          · simpa [parameters, hc] using e1
          · intro i d hd hn r' hr
            cases i with
            | zero =>
              simp only [List.getElem?_cons_zero, Option.some.injEq] at hr
              subst hr
              simp [position, parameters]
            | succ i =>
              have := e2 i d (by simpa using hd) hn r' (by simpa using hr)
              simpa [position, parameters, hc] using this
      · rw [hc] at h0
        cases r with
        | some v => simp at h0
        | none =>
          constructor
          · simpa [parameters, hc] using e1
          · intro i d hd hn r' hr
            cases i with
            | zero =>
              simp only [List.getElem?_cons_zero, Option.some.injEq] at hd
              subst hd
              rw [hc] at hn; cases hn
            | succ i =>
              have := e2 i d (by simpa using hd) hn r' (by simpa using hr)
              simpa [position, parameters, hc] using this

/-- The router's arguments in terms of the stateless stage functions. -/
theorem parseMode_args {mode : Node} {uses : List Leaf} {s s' : St}
    (h : parseMode mode uses s = (.ok (), s')) :
    (∀ l ∈ uses, ∃ v, leafValue l = .ok v) ∧
    ∃ args, RoutedWith mode s' args ∧ args.length = parameters mode.children ∧
      ∀ (i : Nat) (c : Node), mode.children[i]? = some c → c.hasNoResult = false →
        ∃ g v, gather (own mode.children uses i) none = some g ∧ fillOf c g = .ok (some v) ∧
          stagesOf c (some v) = .ok () ∧ args[position mode.children i]? = some v := by
  rw [parseMode_iff] at h
  obtain ⟨-, hl, rs, hlen, hrs, rfl⟩ := h
  refine ⟨hl, rs.filterMap id, ?_, ?_⟩
  · simp [RoutedWith, St.withCalls]
  · have hpat : ∀ (i : Nat) (h1 : i < mode.children.length) (h2 : i < rs.length),
        (rs[i].isSome = !mode.children[i].hasNoResult) := by
      intro i h1 h2
      obtain ⟨g, r, -, g2, -, g4⟩ := hrs i _ (List.getElem?_eq_getElem h1)
      rw [List.getElem?_eq_getElem h2, Option.some.injEq] at g4
      subst g4
      unfold fillOf at g2
      split at g2
      · rename_i hn
        simp only [Out.ok.injEq] at g2
        rw [← g2, hn]; rfl
      · rename_i hn
        have hn' : mode.children[i].hasNoResult = false := by simpa using hn
        rw [hn']
        cases g with
        | some v => simp only [Out.ok.injEq] at g2; rw [← g2]; rfl
        | none =>
          simp only [Out.bind_eq_ok, Out.pure_eq, Out.ok.injEq] at g2
          obtain ⟨v, -, g2⟩ := g2
          rw [← g2]; rfl
    obtain ⟨e1, e2⟩ := filterMap_position _ _ hlen hpat
    refine ⟨e1, ?_⟩
    intro i c hc hn
    obtain ⟨g, r, g1, g2, g3, g4⟩ := hrs i c hc
    have hr : ∃ v, r = some v := by
      obtain ⟨hi, rfl⟩ := List.getElem?_eq_some_iff.1 hc
      obtain ⟨hj, rfl⟩ := List.getElem?_eq_some_iff.1 g4
      have := hpat i hi hj
      rw [hn] at this
      exact Option.isSome_iff_exists.1 (by simpa using this)
    obtain ⟨v, rfl⟩ := hr
    exact ⟨g, v, g1, g2, g3, e2 i c hc hn _ g4⟩

theorem ownOf_none_iff {children : List Node} {l : Leaf} {i : Nat} {c : Node} {v : Value}
    (hv : leafValue l = .ok (some v)) (hc : children[i]? = some c) (hn : c.hasNoResult = false) :
    ownOf children i l = none ↔ ¬ IsFor children l i := by
  rw [isFor_iff]
  unfold ownOf
  rw [hv]
  cases hf : findChild l.node.hash children 0 with
  | none => simp
  | some x =>
    obtain ⟨j, d, n⟩ := x
    simp only
    by_cases hj : j = i
    · subst hj
      obtain ⟨k, h1, h2, -, -⟩ := findChild_spec _ _ _ hf
      have : d = c := by
        have hk : j = k := by omega
        subst hk
        rw [h2] at hc
        exact Option.some.inj hc
      subst this
      simp [hn]
    · simp [hj]

theorem own_nil_iff {children : List Node} {uses : List Leaf} {i : Nat} {c : Node}
    (hl : ∀ l ∈ uses, ∃ v, leafValue l = .ok v) (hh : ∀ l ∈ uses, l.node.kind ≠ .help)
    (hc : children[i]? = some c) (hn : c.hasNoResult = false) :
    own children uses i = [] ↔ NotGiven children uses i := by
  unfold own NotGiven
  rw [List.filterMap_eq_nil_iff]
  refine ⟨fun h l hm => ?_, fun h l hm => ?_⟩
  · obtain ⟨ov, hv⟩ := hl l hm
    cases ov with
    | none => exact absurd (leafValue_none hv) (hh l hm)
    | some v => exact (ownOf_none_iff hv hc hn).1 (h l hm)
  · obtain ⟨ov, hv⟩ := hl l hm
    cases ov with
    | none => exact absurd (leafValue_none hv) (hh l hm)
    | some v => exact (ownOf_none_iff hv hc hn).2 (h l hm)

theorem ownOf_some {children : List Node} {l : Leaf} {i : Nat} {n : Node} {v : Value}
    (h : ownOf children i l = some (n, v)) :
    IsFor children l i ∧ leafValue l = .ok (some v) ∧
      ∃ c, children[i]? = some c ∧ n ∈ c.nodes ∧ n.hash = l.node.hash ∧ n.kind ≠ .mode ∧
        matchChild l.node.hash c = some n := by
  unfold ownOf at h
  split at h
  · rename_i w j c m hv hf
    split at h
    · rename_i hj
      obtain ⟨rfl, hn⟩ := hj
      simp only [Option.some.injEq, Prod.mk.injEq] at h
      obtain ⟨rfl, rfl⟩ := h
      refine ⟨(isFor_iff _ _ _).2 ⟨c, m, hf⟩, hv, ?_⟩
      obtain ⟨k, h1, h2, h3, -⟩ := findChild_spec _ _ _ hf
      have hk : j = k := by omega
      subst hk
      obtain ⟨e1, e2, e3⟩ := matchChild_spec h3
      exact ⟨c, h2, e1, e2, e3, h3⟩
    · cases h
  · cases h

theorem gather_single {xs : List (Node × Value)} (hx : ∀ p ∈ xs, p.1.isMultiStage = false)
    {g : Option Value} (h : gather xs none = some g) :
    (xs = [] ∧ g = none) ∨ ∃ n v, xs = [(n, v)] ∧ g = some v := by
  match xs with
  | [] => simp only [gather, Option.some.injEq] at h; exact .inl ⟨rfl, h.symm⟩
  | [(n, v)] =>
    have hm := hx (n, v) List.mem_cons_self
    simp only at hm
    simp only [gather, hm, Bool.false_eq_true, if_false, Option.isSome_none,
      Option.some.injEq] at h
    exact .inr ⟨n, v, rfl, h.symm⟩
  | (n, v) :: (m, w) :: rest =>
    have h1 := hx (n, v) List.mem_cons_self
    have h2 := hx (m, w) (List.mem_cons_of_mem _ List.mem_cons_self)
    simp only at h1 h2
    simp [gather, h1, h2] at h

/-- What the router gets, with the bounds of the arguments that were used. -/
theorem router_arguments {mode : Node} {uses : List Leaf} {s s' : St}
    (hhelp : ∀ l ∈ uses, l.node.kind ≠ .help)
    (h : parseMode mode uses s = (.ok (), s')) :
    ∃ args, RoutedWith mode s' args ∧ args.length = parameters mode.children ∧
      ∀ (i : Nat) (c : Node), mode.children[i]? = some c → c.hasNoResult = false →
        (∀ n ∈ c.nodes, n.isMultiStage = false) →
        ∃ v, args[position mode.children i]? = some v ∧
          ((NotGiven mode.children uses i ∧ Fallback c v) ∨
            ∃ l, GivenOnce mode.children uses i l ∧ UseValue l v ∧
              (l.node.kind ≠ .flag → l.node.kind ≠ .countingFlag →
                InBounds l.node v ∧ Approved l.node v)) := by
  obtain ⟨hl, args, h1, h2, h3⟩ := parseMode_args h
  refine ⟨args, h1, h2, ?_⟩
  intro i c hc hn hsingle
  obtain ⟨g, v, g1, g2, -, g4⟩ := h3 i c hc hn
  refine ⟨v, g4, ?_⟩
  have hms : ∀ p ∈ own mode.children uses i, p.1.isMultiStage = false := by
    rintro ⟨n, w⟩ hp
    obtain ⟨l, -, hl2⟩ := List.mem_filterMap.1 hp
    obtain ⟨-, -, c', hc', hnm, -⟩ := ownOf_some hl2
    rw [hc] at hc'
    cases hc'
    exact hsingle n hnm
  rcases gather_single hms g1 with ⟨e1, rfl⟩ | ⟨n, w, e1, rfl⟩
  · left
    refine ⟨(own_nil_iff hl hhelp hc hn).1 e1, ?_⟩
    simp only [fillOf, hn, Bool.false_eq_true, if_false, Out.bind_eq_ok, Out.pure_eq,
      Out.ok.injEq, Option.some.injEq] at g2
    obtain ⟨w, g2, rfl⟩ := g2
    exact ((fallbackOf_ok _ _).1 g2).1
  · right
    simp only [fillOf, hn, Bool.false_eq_true, if_false, Out.ok.injEq, Option.some.injEq] at g2
    subst g2
    unfold own at e1
    rw [List.filterMap_eq_cons_iff] at e1
    obtain ⟨before, l, after, rfl, e2, e3, e4⟩ := e1
    obtain ⟨f1, f2, -⟩ := ownOf_some e3
    refine ⟨l, ⟨before, after, rfl, f1, ?_, ?_⟩, leafValue_spec f2⟩
    · have hb := (own_nil_iff (children := mode.children) (uses := before)
        (fun x hx => hl x (by simp [hx]))
        (fun x hx => hhelp x (by simp [hx])) hc hn).1
          (List.filterMap_eq_nil_iff.2 e2)
      exact hb
    · exact (own_nil_iff (children := mode.children) (uses := after)
        (fun x hx => hl x (by simp [hx]))
        (fun x hx => hhelp x (by simp [hx])) hc hn).1 e4

/-- C20: when a mode's router is called, it gets exactly one argument for every child that has a
value, at the place of its declaration. For a child made of single-use arguments, that argument is
the value of the one use of it on the command line, wherever that is, or if there is none, the
child's fallback. -/
theorem C20_router_arguments (mode : Node) (uses : List Leaf) (s s' : St)
    (hhelp : ∀ l ∈ uses, l.node.kind ≠ .help)
    (h : parseMode mode uses s = (.ok (), s')) :
    ∃ args, RoutedWith mode s' args ∧ args.length = parameters mode.children ∧
      ∀ (i : Nat) (c : Node), mode.children[i]? = some c → c.hasNoResult = false →
        (∀ n ∈ c.nodes, n.isMultiStage = false) →
        ∃ v, args[position mode.children i]? = some v ∧
          ((NotGiven mode.children uses i ∧ Fallback c v) ∨
            ∃ l, GivenOnce mode.children uses i l ∧ UseValue l v) := by
  obtain ⟨args, h1, h2, h3⟩ := router_arguments hhelp h
  refine ⟨args, h1, h2, fun i c hc hn hs => ?_⟩
  obtain ⟨v, g1, g2⟩ := h3 i c hc hn hs
  exact ⟨v, g1, g2.imp id fun ⟨l, e1, e2, _⟩ => ⟨l, e1, e2⟩⟩

theorem own_eq_of_uses {children : List Node} {uses : List Leaf} (i : Nat) :
    own children uses i = own children (usesOf children uses i) i := by
  unfold own usesOf
  induction uses with
  | nil => rfl
  | cons l ls ih =>
    by_cases hf : IsFor children l i
    · rw [List.filter_cons_of_pos (by simpa using hf)]
      simp only [List.filterMap_cons, ih]
    · rw [List.filter_cons_of_neg (by simpa using hf)]
      simp only [List.filterMap_cons]
      cases ho : ownOf children i l with
      | none => exact ih
      | some p =>
        obtain ⟨n, v⟩ := p
        exact absurd (ownOf_some ho).1 hf

/-- C20 (independence of the order): if two sequences of uses contain the same uses, and for every
child its own uses in the same order, then the router is called with the same arguments. -/
theorem C20_order_irrelevant (mode : Node) (uses uses' : List Leaf) (s s1 : St)
    (hperm : uses.Perm uses')
    (hsame : ∀ i, usesOf mode.children uses i = usesOf mode.children uses' i)
    (h : parseMode mode uses s = (.ok (), s1)) :
    ∃ s2, parseMode mode uses' s = (.ok (), s2) ∧
      ∀ args, RoutedWith mode s1 args → RoutedWith mode s2 args := by
  rw [parseMode_iff] at h
  obtain ⟨h1, h2, rs, h3, h4, rfl⟩ := h
  refine ⟨s.withCalls (allLeafCalls uses' ++ [⟨mode.uid, rs.filterMap id⟩]), ?_, ?_⟩
  · rw [parseMode_iff]
    refine ⟨h1, fun l hl => h2 l (hperm.mem_iff.2 hl), rs, h3, ?_, rfl⟩
    intro i c hc
    obtain ⟨g, r, g1, g2⟩ := h4 i c hc
    refine ⟨g, r, ?_, g2⟩
    rw [own_eq_of_uses, ← hsame i, ← own_eq_of_uses]
    exact g1
  · intro args ha
    simp only [RoutedWith, St.withCalls] at ha ⊢
    simpa using ha

/-- C20 (any order): in a mode of single-use arguments, the order of the uses is irrelevant. -/
theorem C20_any_order (mode : Node) (uses uses' : List Leaf) (s s1 : St)
    (hsingle : ∀ c ∈ mode.children, c.hasNoResult = false →
      ∀ n ∈ c.nodes, n.isMultiStage = false)
    (hperm : uses.Perm uses') (h : parseMode mode uses s = (.ok (), s1)) :
    ∃ s2, parseMode mode uses' s = (.ok (), s2) ∧
      ∀ args, RoutedWith mode s1 args → RoutedWith mode s2 args := by
  have hsame : ∀ i, own mode.children uses i = own mode.children uses' i := by
    intro i
    have hp : (own mode.children uses i).Perm (own mode.children uses' i) :=
      hperm.filterMap _
    cases hc : mode.children[i]? with
    | none =>
      have : own mode.children uses i = [] := by
        refine List.filterMap_eq_nil_iff.2 fun l _ => ?_
        cases ho : ownOf mode.children i l with
        | none => rfl
        | some p =>
          obtain ⟨n, v⟩ := p
          obtain ⟨-, -, c, hc', -⟩ := ownOf_some ho
          rw [hc] at hc'; cases hc'
      rw [this] at hp ⊢
      exact hp.nil_eq
    | some c =>
      cases hn : c.hasNoResult with
      | true =>
        have hnil : ∀ us, own mode.children us i = [] := by
          intro us
          refine List.filterMap_eq_nil_iff.2 fun l _ => ?_
          unfold ownOf
          split
          · rename_i v j d m hv hf
            split
            · rename_i hj
              obtain ⟨rfl, hd⟩ := hj
              obtain ⟨k, e1, e2, -, -⟩ := findChild_spec _ _ _ hf
              have hk : j = k := by omega
              subst hk
              rw [hc] at e2
              cases e2
              rw [hn] at hd; cases hd
            · rfl
          · rfl
        rw [hnil, hnil]
      | false =>
        rw [parseMode_iff] at h
        obtain ⟨-, h2, rs, h3, h4, -⟩ := h
        obtain ⟨g, r, g1, -⟩ := h4 i c hc
        have hms : ∀ p ∈ own mode.children uses i, p.1.isMultiStage = false := by
          rintro ⟨n, w⟩ hp
          obtain ⟨l, -, hl2⟩ := List.mem_filterMap.1 hp
          obtain ⟨-, -, c', hc', hnm, -⟩ := ownOf_some hl2
          rw [hc] at hc'
          cases hc'
          exact hsingle c (List.mem_of_getElem? hc) hn n hnm
        rcases gather_single hms g1 with ⟨e1, -⟩ | ⟨n, w, e1, -⟩
        · rw [e1] at hp ⊢; exact hp.nil_eq
        · rw [e1] at hp ⊢; exact (List.perm_singleton.1 hp.symm).symm
  rw [parseMode_iff] at h
  obtain ⟨h1, h2, rs, h3, h4, rfl⟩ := h
  refine ⟨s.withCalls (allLeafCalls uses' ++ [⟨mode.uid, rs.filterMap id⟩]), ?_, ?_⟩
  · rw [parseMode_iff]
    refine ⟨h1, fun l hl => h2 l (hperm.mem_iff.2 hl), rs, h3, ?_, rfl⟩
    intro i c hc
    rw [← hsame i]
    exact h4 i c hc
  · intro args ha
    simp only [RoutedWith, St.withCalls] at ha ⊢
    simpa using ha

/-! ## C21, C22: missing arguments -/

/-- C21: if a required child is not given, the parse does not succeed. -/
theorem C21_required (mode : Node) (uses : List Leaf) (s s' : St) (i : Nat) (c : Node)
    (hc : mode.children[i]? = some c) (hn : c.hasNoResult = false) (hreq : MustBeGiven c)
    (hnot : NotGiven mode.children uses i) (hhelp : ∀ l ∈ uses, l.node.kind ≠ .help) :
    parseMode mode uses s ≠ (.ok (), s') := by
  intro h
  obtain ⟨hl, args, -, -, h3⟩ := parseMode_args h
  obtain ⟨g, v, g1, g2, -, -⟩ := h3 i c hc hn
  rw [(own_nil_iff hl hhelp hc hn).2 hnot] at g1
  simp only [gather, Option.some.injEq] at g1
  subst g1
  simp only [fillOf, hn, Bool.false_eq_true, if_false, Out.bind_eq_ok, Out.pure_eq,
    Out.ok.injEq, Option.some.injEq] at g2
  obtain ⟨w, g2, rfl⟩ := g2
  exact ((fallbackOf_ok _ _).1 g2).1.1 hreq

theorem fillMissing_throw (cs : List Node) (rs : List (Option Value)) (hlen : rs.length = cs.length)
    (i : Nat) (hi : i < cs.length) (hr : i < rs.length) (e : Exc) (s : St)
    (hbefore : ∀ (j : Nat) (h1 : j < cs.length) (h2 : j < rs.length), j < i →
      ∃ r, fillOf cs[j] rs[j] = .ok r)
    (he : fillOf cs[i] rs[i] = .throw e) : fillMissing cs rs s = (.throw e, s) := by
  induction cs generalizing rs i with
  | nil => simp at hi
  | cons c cs ih =>
    cases rs with
    | nil => simp at hlen
    | cons r rs =>
      simp only [List.length_cons, Nat.add_right_cancel_iff] at hlen
      rw [fillMissing, fillResult_eq]
      cases i with
      | zero =>
        simp only [List.getElem_cons_zero] at he
        rw [he]; rfl
      | succ i =>
        obtain ⟨r0, h0⟩ := hbefore 0 (by simp) (by simp) (by omega)
        simp only [List.getElem_cons_zero] at h0
        rw [h0, M.lift_ok_bind]
        exact M.bind_throw (ih rs hlen i (by simpa using hi) (by simpa using hr)
          (fun j h1 h2 hj => hbefore (j + 1) (by simpa using h1) (by simpa using h2) (by omega)) he)

/-- C21 (the error): if every use is fine by itself, and no child is given more than once, and
the required child is the first in declaration order that is not satisfied, then the parse fails
with `missing_required_argument` naming that child, and no router has been called. -/
theorem C21_error (mode : Node) (uses : List Leaf) (s : St) (i : Nat) (c : Node)
    (hc : mode.children[i]? = some c) (hn : c.hasNoResult = false) (hreq : MustBeGiven c)
    (hnot : NotGiven mode.children uses i)
    (huses : ∀ l ∈ uses, l.node.hasRouter = false ∧ l.node.kind ≠ .help ∧
      ∃ v, leafValue l = .ok v)
    (honce : ∀ j, (usesOf mode.children uses j).length ≤ 1)
    (hbefore : ∀ (j : Nat) (d : Node), j < i → mode.children[j]? = some d →
      d.hasNoResult = true ∨ (¬ NotGiven mode.children uses j ∧ ∀ n ∈ d.nodes, n.isMultiStage = false)
        ∨ ∃ v, Fallback d v ∧ InBounds d v ∧ Approved d v) :
    parseMode mode uses s = (.throw ⟨.missing_required_argument, [c.tokenType]⟩, s) := by
  have hlen1 : ∀ j, (own mode.children uses j).length ≤ 1 := by
    intro j
    rw [own_eq_of_uses]
    exact Nat.le_trans (List.length_filterMap_le _ _) (honce j)
  have hg : ∀ j, ∃ g, gather (own mode.children uses j) none = some g := by
    intro j
    match ho : own mode.children uses j, hlen1 j with
    | [], _ => exact ⟨none, rfl⟩
    | [(n, v)], _ =>
      simp only [gather, Option.isSome_none, Bool.false_eq_true, if_false]
      split
      · exact ⟨_, rfl⟩
      · exact ⟨_, rfl⟩
    | _ :: _ :: _, h => simp at h
  let rs0 := (List.range mode.children.length).map fun i =>
    (gather (own mode.children uses i) none).getD none
  have hrs0l : rs0.length = mode.children.length := by simp [rs0]
  have hrs0 : ∀ (j : Nat) (h : j < rs0.length), gather (own mode.children uses j) none =
      some rs0[j] := by
    intro j h
    obtain ⟨g, hg⟩ := hg j
    have : rs0[j] = g := by simp [rs0, hg]
    rw [hg, this]
  have hcalls : allLeafCalls uses = [] := by
    simp only [allLeafCalls, List.flatMap_eq_nil_iff]
    intro l hl
    obtain ⟨h1, h2, v, hv⟩ := huses l hl
    rw [hv]
    simp only [leafCalls]
    split
    · rfl
    · rename_i hk; exact absurd hk h2
    · rw [h1]; rfl
  have hps : processSubs mode.children uses (List.replicate mode.children.length none) s =
      (.ok rs0, s) := by
    rw [processSubs_iff _ _ _ _ _ _ (by simp)]
    refine ⟨fun l hl => (huses l hl).2.2, by rw [hcalls]; simp, by simpa using hrs0l, ?_⟩
    intro j h1 h2
    rw [List.getElem_replicate]
    exact hrs0 j h2
  have hl : ∀ l ∈ uses, ∃ v, leafValue l = .ok v := fun l hl => (huses l hl).2.2
  have hhelp : ∀ l ∈ uses, l.node.kind ≠ .help := fun l hl => (huses l hl).2.1
  obtain ⟨hi, hci⟩ := List.getElem?_eq_some_iff.1 hc
  have hfill : fillMissing mode.children rs0 s =
      (.throw ⟨.missing_required_argument, [c.tokenType]⟩, s) := by
    refine fillMissing_throw _ _ hrs0l i hi (by omega) _ _ ?_ ?_
    · intro j h1 h2 hj
      have hgj := hrs0 j h2
      unfold fillOf
      split
      · exact ⟨_, rfl⟩
      · rename_i hnr
        have hnr' : mode.children[j].hasNoResult = false := by simpa using hnr
        cases hr : rs0[j] with
        | some v => exact ⟨_, rfl⟩
        | none =>
          rcases hbefore j _ hj (List.getElem?_eq_getElem h1) with h | ⟨h, hsg⟩ | ⟨v, h⟩
          · rw [hnr'] at h; cases h
          · exfalso
            apply h
            rw [← own_nil_iff hl hhelp (List.getElem?_eq_getElem h1) hnr']
            rw [hr] at hgj
            have hms : ∀ p ∈ own mode.children uses j, p.1.isMultiStage = false := by
              rintro ⟨n, w⟩ hp
              obtain ⟨l, -, hl2⟩ := List.mem_filterMap.1 hp
              obtain ⟨-, -, c', hc', hnm, -⟩ := ownOf_some hl2
              rw [List.getElem?_eq_getElem h1] at hc'
              cases hc'
              exact hsg n hnm
            rcases gather_single hms hgj with ⟨e1, -⟩ | ⟨_, _, _, e2⟩
            · exact e1
            · cases e2
          · exact ⟨some v, by simp [(fallbackOf_ok _ _).2 h]⟩
    · have hgi := hrs0 i (by omega)
      rw [(own_nil_iff hl hhelp hc hn).2 hnot] at hgi
      simp only [gather, Option.some.injEq] at hgi
      rw [← hgi, hci]
      simp only [fillOf, hn, Bool.false_eq_true, if_false, fallbackOf]
      rw [missingOf_throw _ _ _ hreq]
      rfl
  unfold parseMode
  rw [M.bind_ok hps]
  exact M.bind_throw hfill

/-- C22: a child that is not given gets its fallback: the router receives its default if it has
one, else a default-constructed value. -/
theorem C22_fallback (mode : Node) (uses : List Leaf) (s s' : St) (i : Nat) (c : Node)
    (args : List Value) (hhelp : ∀ l ∈ uses, l.node.kind ≠ .help)
    (h : parseMode mode uses s = (.ok (), s')) (hargs : RoutedWith mode s' args)
    (hc : mode.children[i]? = some c) (hn : c.hasNoResult = false)
    (hnot : NotGiven mode.children uses i) :
    (∀ d, defaults c = [d] → args[position mode.children i]? = some d) ∧
    (defaults c = [] → args[position mode.children i]? = some c.vt.zero) := by
  obtain ⟨hl, args', h1, h2, h3⟩ := parseMode_args h
  have : args' = args := by
    rw [RoutedWith] at hargs h1
    rw [hargs] at h1
    simpa using h1.symm
  subst this
  obtain ⟨g, v, g1, g2, -, g4⟩ := h3 i c hc hn
  rw [(own_nil_iff hl hhelp hc hn).2 hnot] at g1
  simp only [gather, Option.some.injEq] at g1
  subst g1
  simp only [fillOf, hn, Bool.false_eq_true, if_false, Out.bind_eq_ok, Out.pure_eq,
    Out.ok.injEq, Option.some.injEq] at g2
  obtain ⟨w, g2, rfl⟩ := g2
  have hf := ((fallbackOf_ok _ _).1 g2).1.2
  rw [g4, hf]
  constructor
  · intro d hd; rw [hd]; rfl
  · intro hd; rw [hd]; rfl

/-- C22 for flags: a flag made with `flag(...)` without a default of its own is `false` if it is not
given. -/
theorem C22_flag (cfg : Config) (uid hash : Nat) (user : List Policy)
    (huser : user.filterMap Policy.default? = []) :
    defaults (mkFlag cfg uid hash user) = [.one (.bool false)] := by
  simp only [defaults, mkFlag, Node.policies, List.filterMap_append, huser]
  unfold expanderIf
  split <;> rfl

/-! ## C23, C24: repeated arguments -/

/-- C23 (second stage): a child made of single-use arguments that is given more than one value, in
whichever way (also through an alias), never reaches the router. -/
theorem C23_never_twice (mode : Node) (uses : List Leaf) (s s' : St) (i : Nat) (c : Node)
    (hc : mode.children[i]? = some c) (hn : c.hasNoResult = false)
    (hsingle : ∀ n ∈ c.nodes, n.isMultiStage = false)
    (hhelp : ∀ l ∈ uses, l.node.kind ≠ .help)
    (htwice : 2 ≤ (usesOf mode.children uses i).length) :
    parseMode mode uses s ≠ (.ok (), s') := by
  intro h
  obtain ⟨args, -, -, h3⟩ := C20_router_arguments mode uses s s' hhelp h
  obtain ⟨v, -, hv⟩ := h3 i c hc hn hsingle
  rcases hv with ⟨hnot, -⟩ | ⟨l, ⟨before, after, rfl, h1, h2, h4⟩, -⟩
  · have : usesOf mode.children uses i = [] := by
      unfold usesOf
      rw [List.filter_eq_nil_iff]
      intro l hl
      simpa using hnot l hl
    rw [this] at htwice
    simp at htwice
  · have hb : usesOf mode.children before i = [] := by
      unfold usesOf
      rw [List.filter_eq_nil_iff]
      intro l hl
      simpa using h2 l hl
    have ha : usesOf mode.children after i = [] := by
      unfold usesOf
      rw [List.filter_eq_nil_iff]
      intro l hl
      simpa using h4 l hl
    unfold usesOf at hb ha htwice
    rw [List.filter_append, List.filter_cons_of_pos (by simpa using h1), hb, ha] at htwice
    simp at htwice

theorem isCounter_mk (cfg : Config) (uid hash width : Nat) (user : List Policy) :
    IsCounter width (mkCountingFlag cfg uid hash width user) :=
  ⟨rfl, rfl, [], .minMaxCount 0 0 :: (expanderIf cfg user ++ user), rfl, by simp⟩

theorem counter_merge {width : Nat} {c : Node} (h : IsCounter width c) (old : Option Value)
    (v : Value) : c.isMultiStage = true ∧ mergeValue c old v = countingMerge width old v := by
  obtain ⟨-, -, before, after, hp, hb⟩ := h
  constructor
  · simp only [Node.isMultiStage, hp, List.any_append, List.any_cons, Bool.true_or, Bool.or_true]
  · unfold mergeValue
    rw [hp]
    clear hp
    induction before with
    | nil => rfl
    | cons p ps ih =>
      have ih := ih fun f hf => hb f (List.mem_cons_of_mem _ hf)
      cases p
      case multiStage f => exact absurd List.mem_cons_self (hb f)
      all_goals exact ih

theorem gather_counter {width : Nat} {c : Node} (h : IsCounter width c) (xs : List (Node × Value))
    (hx : ∀ p ∈ xs, p.1 = c) (k : Nat) :
    gather xs (some (.one (.int ((k : Int) % 2 ^ width)))) =
      some (some (.one (.int (((k + xs.length : Nat) : Int) % 2 ^ width)))) := by
  induction xs generalizing k with
  | nil => rfl
  | cons p xs ih =>
    obtain ⟨n, v⟩ := p
    have : n = c := hx (n, v) List.mem_cons_self
    subst this
    obtain ⟨h1, h2⟩ := counter_merge h (some (.one (.int ((k : Int) % 2 ^ width)))) v
    rw [gather, if_pos h1, h2]
    have hstep : countingMerge width (some (.one (.int ((k : Int) % 2 ^ width)))) v =
        some (.one (.int (((k + 1 : Nat) : Int) % 2 ^ width))) := by
      simp only [countingMerge, Option.some.injEq, Value.one.injEq, Scalar.int.injEq]
      rw [Int.emod_add_emod]
      rfl
    rw [hstep, ih (fun q hq => hx q (List.mem_cons_of_mem _ hq)) (k + 1)]
    simp only [List.length_cons]
    have : k + 1 + xs.length = k + (xs.length + 1) := by omega
    rw [this]

/-- C24 in full: the value routed for a counting flag that is used at all is the number of its
uses, whatever else is between them, modulo the range of its type. -/
theorem C24_count_modulo (mode : Node) (uses : List Leaf) (s s' : St) (i : Nat) (c : Node)
    (width : Nat) (args : List Value) (hhelp : ∀ l ∈ uses, l.node.kind ≠ .help)
    (h : parseMode mode uses s = (.ok (), s')) (hargs : RoutedWith mode s' args)
    (hc : mode.children[i]? = some c) (hn : c.hasNoResult = false) (hcount : IsCounter width c)
    (hused : 1 ≤ (usesOf mode.children uses i).length) :
    args[position mode.children i]? =
      some (.one (.int (((usesOf mode.children uses i).length : Int) % 2 ^ width))) := by
  obtain ⟨hl, args', h1, h2, h3⟩ := parseMode_args h
  have : args' = args := by
    rw [RoutedWith] at hargs h1
    rw [hargs] at h1
    simpa using h1.symm
  subst this
  obtain ⟨g, v, g1, g2, -, g4⟩ := h3 i c hc hn
  have hlen : (own mode.children uses i).length = (usesOf mode.children uses i).length := by
    rw [own_eq_of_uses]
    unfold own
    have : ∀ l ∈ usesOf mode.children uses i, (ownOf mode.children i l).isSome = true := by
      intro l hm
      have hm2 := List.mem_filter.1 hm
      obtain ⟨ov, hv⟩ := hl l hm2.1
      cases ov with
      | none => exact absurd (leafValue_none hv) (hhelp l hm2.1)
      | some w =>
        cases ho : ownOf mode.children i l with
        | none => exact absurd (by simpa using hm2.2) ((ownOf_none_iff hv hc hn).1 ho)
        | some _ => rfl
    generalize usesOf mode.children uses i = us at this
    induction us with
    | nil => rfl
    | cons x xs ih =>
      have hx := this x List.mem_cons_self
      cases ho : ownOf mode.children i x with
      | none => rw [ho] at hx; cases hx
      | some y => simp [ho, ih fun l hl => this l (List.mem_cons_of_mem _ hl)]
  have hall : ∀ p ∈ own mode.children uses i, p.1 = c := by
    rintro ⟨n, w⟩ hp
    obtain ⟨l, -, hl2⟩ := List.mem_filterMap.1 hp
    obtain ⟨-, -, c', hc', hnm, -⟩ := ownOf_some hl2
    rw [hc] at hc'
    cases hc'
    obtain ⟨-, hch, -⟩ := hcount
    obtain ⟨k, u, hh, vt, p, cs⟩ := c
    simp only [Node.children] at hch
    subst hch
    rw [nodes_mk] at hnm
    simpa [nodesList] using hnm
  match ho : own mode.children uses i with
  | [] => rw [ho] at hlen; simp at hlen; omega
  | (n, w) :: xs =>
    rw [ho] at hall hlen g1
    have hn1 : n = c := hall (n, w) List.mem_cons_self
    subst hn1
    obtain ⟨m1, m2⟩ := counter_merge hcount none w
    rw [gather, if_pos m1, m2] at g1
    have := gather_counter hcount xs (fun p hp => hall p (List.mem_cons_of_mem _ hp)) 1
    have h1 : countingMerge width none w = some (.one (.int (((1 : Nat) : Int) % 2 ^ width))) := rfl
    rw [h1, this] at g1
    simp only [Option.some.injEq] at g1
    subst g1
    simp only [fillOf, hn, Bool.false_eq_true, if_false, Out.ok.injEq, Option.some.injEq] at g2
    subst g2
    rw [g4, ← hlen]
    simp only [List.length_cons]
    rw [Nat.add_comm 1]

/-- C24, what holds: as long as the type of the counter can represent the number of uses, the value
is exactly that number. -/
theorem C24_count_partial (mode : Node) (uses : List Leaf) (s s' : St) (i : Nat) (c : Node)
    (width : Nat) (args : List Value) (hhelp : ∀ l ∈ uses, l.node.kind ≠ .help)
    (h : parseMode mode uses s = (.ok (), s')) (hargs : RoutedWith mode s' args)
    (hc : mode.children[i]? = some c) (hn : c.hasNoResult = false) (hcount : IsCounter width c)
    (hused : 1 ≤ (usesOf mode.children uses i).length)
    (hfit : (usesOf mode.children uses i).length < 2 ^ width) :
    args[position mode.children i]? =
      some (.one (.int (usesOf mode.children uses i).length)) := by
  rw [C24_count_modulo mode uses s s' i c width args hhelp h hargs hc hn hcount hused]
  rw [Int.emod_eq_of_lt (by omega)]
  exact_mod_cast hfit

/-- A mode with a counting flag of 8 bits. -/
def byteCounter : Node := mkCountingFlag .default 31 31 8 [.longName (b "verbose"), .shortName (b "v")]
def byteMode : Node := mkMode 32 32 [.router] [byteCounter]
def byteRoot : Node := mkRoot 33 33 [byteMode]

/-- C24 is false if the number of uses does not fit the type: `-v` 256 times with a
`counting_flag<std::uint8_t>` is routed as 0. -/
theorem C24_false :
    parseArgs .default byteRoot (List.replicate 256 (b "-v")) .fresh =
      (.ok (), ⟨[], [⟨32, [.one (.int 0)]⟩]⟩) ∧
    parseArgs .default byteRoot (List.replicate 255 (b "-v")) .fresh =
      (.ok (), ⟨[], [⟨32, [.one (.int 255)]⟩]⟩) := by
  decide +kernel

/-! ## C25: bounds -/

/-- C25, what holds of a child that is an argument (groups: `C25_compiled_partial`, `C25_group_false`):
whatever is routed for an argument with bounds lies within them, whether it was parsed,
counted or is a fallback, and no policy of the user's on the argument objects to it. `hsame`: the type hash identifies the node. -/
theorem C25_within_bounds_partial (mode : Node) (uses : List Leaf) (s s' : St) (i : Nat) (c : Node)
    (args : List Value) (v : Value)
    (h : parseMode mode uses s = (.ok (), s')) (hargs : RoutedWith mode s' args)
    (hc : mode.children[i]? = some c) (hn : c.hasNoResult = false)
    (hleaf : c.children = []) (hk : c.kind ≠ .flag)
    (hcf : c.kind = .countingFlag → c.isMultiStage = true)
    (hsame : ∀ l ∈ uses, l.node.hash = c.hash → l.node = c)
    (hv : args[position mode.children i]? = some v) : InBounds c v ∧ Approved c v := by
  obtain ⟨hl, args', h1, h2, h3⟩ := parseMode_args h
  have : args' = args := by
    rw [RoutedWith] at hargs h1
    rw [hargs] at h1
    simpa using h1.symm
  subst this
  obtain ⟨g, w, g1, g2, g3, g4⟩ := h3 i c hc hn
  rw [hv] at g4
  cases g4
  cases hm : c.isMultiStage with
  | true =>
    simp only [stagesOf, hn, hm, Bool.not_false, Bool.true_or, Bool.and_true, if_true] at g3
    exact (inBounds_iff _ _).1 g3
  | false =>
    have hall : ∀ p ∈ own mode.children uses i, p.1 = c := by
      rintro ⟨n, w⟩ hp
      obtain ⟨l, -, hl2⟩ := List.mem_filterMap.1 hp
      obtain ⟨-, -, c', hc', hnm, -⟩ := ownOf_some hl2
      rw [hc] at hc'
      cases hc'
      obtain ⟨k, u, hh, vt, p, cs⟩ := c
      simp only [Node.children] at hleaf
      subst hleaf
      rw [nodes_mk] at hnm
      simpa [nodesList] using hnm
    have hms : ∀ p ∈ own mode.children uses i, p.1.isMultiStage = false := by
      intro p hp; rw [hall p hp]; exact hm
    rcases gather_single hms g1 with ⟨e1, rfl⟩ | ⟨n, w, e1, rfl⟩
    · simp only [fillOf, hn, Bool.false_eq_true, if_false, Out.bind_eq_ok, Out.pure_eq,
        Out.ok.injEq, Option.some.injEq] at g2
      obtain ⟨w, g2, rfl⟩ := g2
      exact ((fallbackOf_ok _ _).1 g2).2
    · simp only [fillOf, hn, Bool.false_eq_true, if_false, Out.ok.injEq, Option.some.injEq] at g2
      subst g2
      have hmem : (n, w) ∈ own mode.children uses i := by rw [e1]; exact List.mem_cons_self
      obtain ⟨l, hlm, hl2⟩ := List.mem_filterMap.1 hmem
      obtain ⟨-, f2, c', hc', hnm, hh, -⟩ := ownOf_some hl2
      have hnc : n = c := hall _ hmem
      have hlc : l.node = c := hsame l hlm (by rw [← hh, hnc])
      have hb := (leafValue_spec f2).2
      rw [hlc] at hb
      exact hb hk fun h => by rw [hcf h] at hm; cases hm

/-! ## Refusals -/

/-- C25 (the refusal): a use whose value breaks a bound of its argument fails with
`minimum_value_not_reached` or `maximum_value_exceeded`, naming the argument and a bound that is
broken, and calls nothing. (No policy of the user's objects before that; see `C25_objected`.) -/
theorem C25_refused (l : Leaf) (v : Value) (s : St)
    (hk : l.node.kind = .arg ∨ l.node.kind = .multiArg ∨ l.node.kind = .positional ∨
      l.node.kind = .forwarding)
    (hv : parseValue l.node l.tokens = .ok v) (hb : ¬ InBounds l.node v)
    (hap : Approved l.node v) :
    ∃ ec, parseLeaf l s = (.throw ⟨ec, [l.node.tokenType]⟩, s) ∧
      ((ec = .minimum_value_not_reached ∧ ∃ lo hi less, .minMaxValue (some lo) hi less ∈
          l.node.policies ∧ less v lo = true) ∨
       (ec = .maximum_value_exceeded ∧ ∃ lo hi less, .minMaxValue lo (some hi) less ∈
          l.node.policies ∧ less hi v = true)) := by
  have key : ∀ ps : List Policy, (∀ tag f, .validation tag f ∈ ps → f v = .ok ()) →
      validationOf l.node v ps = .ok () ∨
      ∃ ec, validationOf l.node v ps = .throw ⟨ec, [l.node.tokenType]⟩ ∧
      ((ec = .minimum_value_not_reached ∧ ∃ lo hi less, .minMaxValue (some lo) hi less ∈
          ps ∧ less v lo = true) ∨
       (ec = .maximum_value_exceeded ∧ ∃ lo hi less, .minMaxValue lo (some hi) less ∈
          ps ∧ less hi v = true)) := by
    intro ps
    induction ps with
    | nil => intro _; exact .inl rfl
    | cons p ps ih =>
      intro hap
      have ih := ih fun t f h => hap t f (List.mem_cons_of_mem _ h)
      have ih : validationOf l.node v ps = .ok () ∨
        ∃ ec, validationOf l.node v ps = .throw ⟨ec, [l.node.tokenType]⟩ ∧
        ((ec = .minimum_value_not_reached ∧ ∃ lo hi less, .minMaxValue (some lo) hi less ∈
            p :: ps ∧ less v lo = true) ∨
         (ec = .maximum_value_exceeded ∧ ∃ lo hi less, .minMaxValue lo (some hi) less ∈
            p :: ps ∧ less hi v = true)) := by
        rcases ih with h | ⟨ec, h1, h2 | h2⟩
        · exact .inl h
        · obtain ⟨a, lo, hi, less, b, c⟩ := h2
          exact .inr ⟨ec, h1, .inl ⟨a, lo, hi, less, List.mem_cons_of_mem _ b, c⟩⟩
        · obtain ⟨a, lo, hi, less, b, c⟩ := h2
          exact .inr ⟨ec, h1, .inr ⟨a, lo, hi, less, List.mem_cons_of_mem _ b, c⟩⟩
      cases p
      case minMaxValue lo hi less =>
        rw [validationOf]
        split
        · rename_i h
          right
          refine ⟨_, rfl, .inl ⟨rfl, ?_⟩⟩
          cases lo with
          | none => simp at h
          | some x => exact ⟨x, hi, less, List.mem_cons_self, by simpa using h⟩
        · split
          · rename_i h
            right
            refine ⟨_, rfl, .inr ⟨rfl, ?_⟩⟩
            cases hi with
            | none => simp at h
            | some x => exact ⟨lo, x, less, List.mem_cons_self, by simpa using h⟩
          · exact ih
      case validation t f =>
        rw [validationOf, hap t f List.mem_cons_self, Out.ok_bind]
        exact ih
      all_goals exact ih
  rcases key l.node.policies hap with h | ⟨ec, h1, h2⟩
  · exact absurd ((inBounds_iff _ _).1 h).1 hb
  · refine ⟨ec, ?_, h2⟩
    have hl : leafValue l = .throw ⟨ec, [l.node.tokenType]⟩ := by
      unfold leafValue
      rcases hk with h | h | h | h <;> (rw [h, hv]; simp only [Out.ok_bind, h1]; rfl)
    rw [parseLeaf_apply, hl]

/-- C25 (policies of the user's): a use whose value the policy objects to, while the policies before
it have nothing against it, ends with the exception of the policy, and calls nothing. -/
theorem C25_objected (l : Leaf) (v : Value) (s : St) (before after : List Policy) (tag : Nat)
    (f : Value → Out Unit)
    (hk : l.node.kind = .arg ∨ l.node.kind = .multiArg ∨ l.node.kind = .positional ∨
      l.node.kind = .forwarding)
    (hv : parseValue l.node l.tokens = .ok v)
    (hp : l.node.policies = before ++ .validation tag f :: after)
    (hbounds : ∀ lo hi less, .minMaxValue lo hi less ∈ before →
      (∀ x, lo = some x → less v x = false) ∧ (∀ x, hi = some x → less x v = false))
    (hbefore : ∀ tag f, .validation tag f ∈ before → f v = .ok ()) :
    (∀ e, f v = .throw e → parseLeaf l s = (.throw e, s)) ∧
    (f v = .foreign → parseLeaf l s = (.foreign, s)) := by
  have key : ∀ ps : List Policy, validationOf l.node v ps = .ok () → ∀ qs,
      validationOf l.node v (ps ++ qs) = validationOf l.node v qs := by
    intro ps
    induction ps with
    | nil => intro _ _; rfl
    | cons p ps ih =>
      intro h qs
      rw [List.cons_append]
      cases p
      case minMaxValue lo hi less =>
        simp only [validationOf] at h ⊢
        split at h
        · cases h
        · rename_i h1
          split at h
          · cases h
          · rename_i h2
            rw [if_neg h1, if_neg h2]
            exact ih h qs
      case validation t g =>
        simp only [validationOf, Out.bind_eq_ok] at h ⊢
        obtain ⟨u, h1, h2⟩ := h
        rw [h1, Out.ok_bind]
        exact ih h2 qs
      all_goals exact ih h qs
  have hval : validationOf l.node v l.node.policies =
      (do f v; validationOf l.node v after : Out Unit) := by
    rw [hp, key before ((validationOf_ok _ _ _).2 ⟨hbounds, hbefore⟩)]
    rfl
  constructor
  · intro e he
    have hl : leafValue l = .throw e := by
      unfold leafValue
      rcases hk with h | h | h | h <;> (rw [h, hv]; simp only [Out.ok_bind, hval, he]; rfl)
    rw [parseLeaf_apply, hl]
  · intro he
    have hl : leafValue l = .foreign := by
      unfold leafValue
      rcases hk with h | h | h | h <;> (rw [h, hv]; simp only [Out.ok_bind, hval, he]; rfl)
    rw [parseLeaf_apply, hl]

/-- C23 (the error): the first use of a single-use child that already has a value fails with
`argument_has_already_been_set` naming the argument, and no router has been called. -/
theorem C23_error (mode : Node) (before after : List Leaf) (l : Leaf) (s : St) (i : Nat) (c n : Node)
    (hc : mode.children[i]? = some c) (hn : c.hasNoResult = false)
    (hsingle : ∀ n ∈ c.nodes, n.isMultiStage = false)
    (hfor : IsFor mode.children l i) (hsub : matchChild l.node.hash c = some n)
    (hgiven : ¬ NotGiven mode.children before i)
    (honce : ∀ j, (usesOf mode.children before j).length ≤ 1)
    (huses : ∀ x ∈ before ++ [l], x.node.hasRouter = false ∧ x.node.kind ≠ .help ∧
      ∃ v, leafValue x = .ok v) :
    parseMode mode (before ++ l :: after) s =
      (.throw ⟨.argument_has_already_been_set, [n.tokenType]⟩, s) := by
  have hlen1 : ∀ j, (own mode.children before j).length ≤ 1 := by
    intro j
    rw [own_eq_of_uses]
    exact Nat.le_trans (List.length_filterMap_le _ _) (honce j)
  have hg : ∀ j, ∃ g, gather (own mode.children before j) none = some g := by
    intro j
    match ho : own mode.children before j, hlen1 j with
    | [], _ => exact ⟨none, rfl⟩
    | [(n, v)], _ =>
      simp only [gather, Option.isSome_none, Bool.false_eq_true, if_false]
      split
      · exact ⟨_, rfl⟩
      · exact ⟨_, rfl⟩
    | _ :: _ :: _, h => simp at h
  let rs0 := (List.range mode.children.length).map fun i =>
    (gather (own mode.children before i) none).getD none
  have hrs0l : rs0.length = mode.children.length := by simp [rs0]
  have hrs0 : ∀ (j : Nat) (h : j < rs0.length), gather (own mode.children before j) none =
      some rs0[j] := by
    intro j h
    obtain ⟨g, hg⟩ := hg j
    have : rs0[j] = g := by simp [rs0, hg]
    rw [hg, this]
  have hcalls : allLeafCalls before = [] := by
    simp only [allLeafCalls, List.flatMap_eq_nil_iff]
    intro x hx
    obtain ⟨h1, h2, v, hv⟩ := huses x (by simp [hx])
    rw [hv]
    simp only [leafCalls]
    split
    · rfl
    · rename_i hk; exact absurd hk h2
    · rw [h1]; rfl
  have hl : ∀ x ∈ before, ∃ v, leafValue x = .ok v := fun x hx => (huses x (by simp [hx])).2.2
  have hhelp : ∀ x ∈ before, x.node.kind ≠ .help := fun x hx => (huses x (by simp [hx])).2.1
  have hps : processSubs mode.children before (List.replicate mode.children.length none) s =
      (.ok rs0, s) := by
    rw [processSubs_iff _ _ _ _ _ _ (by simp)]
    refine ⟨hl, by rw [hcalls]; simp, by simpa using hrs0l, ?_⟩
    intro j h1 h2
    rw [List.getElem_replicate]
    exact hrs0 j h2
  obtain ⟨hi, hci⟩ := List.getElem?_eq_some_iff.1 hc
  have hset : ∃ w, rs0[i]? = some (some w) := by
    have hgi := hrs0 i (by omega)
    rw [List.getElem?_eq_getElem (by omega)]
    have hms : ∀ p ∈ own mode.children before i, p.1.isMultiStage = false := by
      rintro ⟨n, w⟩ hp
      obtain ⟨l, -, hl2⟩ := List.mem_filterMap.1 hp
      obtain ⟨-, -, c', hc', hnm, -⟩ := ownOf_some hl2
      rw [hc] at hc'
      cases hc'
      exact hsingle n hnm
    rcases gather_single hms hgi with ⟨e1, -⟩ | ⟨_, w, _, e2⟩
    · exact absurd ((own_nil_iff hl hhelp hc hn).1 e1) hgiven
    · exact ⟨w, by rw [e2]⟩
  obtain ⟨w, hset⟩ := hset
  have happ : ∀ (a : List Leaf) (rs rs' : List (Option Value)) (s s' : St) (b : List Leaf),
      processSubs mode.children a rs s = (.ok rs', s') →
      processSubs mode.children (a ++ b) rs s = processSubs mode.children b rs' s' := by
    intro a
    induction a with
    | nil =>
      intro rs rs' s s' b h
      simp only [processSubs, M.pure_apply, Prod.mk.injEq, Out.ok.injEq] at h
      obtain ⟨rfl, rfl⟩ := h
      rfl
    | cons x xs ih =>
      intro rs rs' s s' b h
      rw [processSubs, M.bind_eq_ok] at h
      obtain ⟨o, s1, h1, h2⟩ := h
      rw [List.cons_append, processSubs, M.bind_ok h1]
      cases o with
      | none => exact ih _ _ _ _ _ h2
      | some v =>
        simp only at h2 ⊢
        cases hf : findChild x.node.hash mode.children 0 with
        | none =>
          rw [hf] at h2
          exact ih _ _ _ _ _ h2
        | some y =>
          obtain ⟨i, d, m⟩ := y
          rw [hf] at h2
          simp only [M.bind_eq_ok] at h2
          obtain ⟨rs1, s2, h3, h4⟩ := h2
          simp only
          rw [M.bind_ok h3]
          exact ih _ _ _ _ _ h4
  have hps2 := happ before _ _ _ _ (l :: after) hps
  obtain ⟨hr, hh, ov, hov⟩ := huses l (by simp)
  cases ov with
  | none => exact absurd (leafValue_none hov) hh
  | some v =>
    have hpl : parseLeaf l s = (.ok (some v), s) := by
      rw [parseLeaf_apply, hov]
      simp only [leafCalls]
      split
      · simp
      · rename_i hk; exact absurd hk hh
      · rw [hr]; simp
    obtain ⟨c', n', hf⟩ := (isFor_iff _ _ _).1 hfor
    have hcn : c' = c ∧ n' = n := by
      obtain ⟨k, e1, e2, e3, -⟩ := findChild_spec _ _ _ hf
      have hk : i = k := by omega
      subst hk
      rw [hc] at e2
      cases e2
      rw [hsub] at e3
      cases e3
      exact ⟨rfl, rfl⟩
    obtain ⟨rfl, rfl⟩ := hcn
    have hms : n'.isMultiStage = false := by
      obtain ⟨e1, -⟩ := matchChild_spec hsub
      exact hsingle _ e1
    have : processSubs mode.children (l :: after) rs0 s =
        (.throw ⟨.argument_has_already_been_set, [n'.tokenType]⟩, s) := by
      rw [processSubs, M.bind_ok hpl]
      simp only [hf]
      refine M.bind_throw ?_
      simp [processResult, hn, hms, hset]
    unfold parseMode
    rw [this] at hps2
    exact M.bind_throw hps2

/-! ## Examples -/

/-- A type with a parser for one-digit numbers. -/
def digitType : ValueType := ⟨false, .one (.int 0), fun
  | [c] => if 48 ≤ c.toNat ∧ c.toNat ≤ 57 then .ok (.int (c.toNat - 48)) else
    .throw ⟨.failed_to_parse, [⟨.none, [c]⟩]⟩
  | s => .throw ⟨.failed_to_parse, [⟨.none, s⟩]⟩⟩

def intLess : Value → Value → Bool
  | .one (.int a), .one (.int b) => a < b
  | _, _ => false

/-- A mode with a flag, a counting flag, a required and bounded argument and one with a default. -/
def toolFlag : Node := mkFlag .default 41 41 [.longName (b "all"), .shortName (b "a")]
def toolVerbose : Node :=
  mkCountingFlag .default 42 42 64 [.longName (b "verbose"), .shortName (b "v")]
def toolNum : Node := mkArg 43 43 digitType [.longName (b "num"), .required,
  .minMaxValue (some (.one (.int 2))) (some (.one (.int 7))) intLess]
def toolOut : Node := mkArg 44 44 digitType [.longName (b "out"), .defaultValue (.one (.int 9))]
def toolMode : Node := mkMode 45 45 [.router] [toolFlag, toolVerbose, toolNum, toolOut]
def toolRoot : Node := mkRoot 46 46 [toolMode]

/-- C20-C22, C24: the arguments are in declaration order, whatever the order on the command line. -/
example : parseArgs .default toolRoot [b "-v", b "--num", b "5", b "--verbose", b "-a"] .fresh =
    (.ok (), ⟨[], [⟨45, [.one (.bool true), .one (.int 2), .one (.int 5), .one (.int 9)]⟩]⟩) := by
  decide +kernel

/-- C21 -/
example : parseArgs .default toolRoot [b "-v", b "--out", b "5"] .fresh =
    (.throw ⟨.missing_required_argument, [⟨.long, b "num"⟩]⟩, .fresh) := by decide +kernel

/-- C25 -/
example : parseArgs .default toolRoot [b "--num", b "1"] .fresh =
      (.throw ⟨.minimum_value_not_reached, [⟨.long, b "num"⟩]⟩, .fresh) ∧
    parseArgs .default toolRoot [b "--num", b "8"] .fresh =
      (.throw ⟨.maximum_value_exceeded, [⟨.long, b "num"⟩]⟩, .fresh) := by decide +kernel

/-- The hypotheses of C20-C22 are met: the uses of this command line. -/
def toolUses : List Leaf := [⟨toolVerbose, []⟩, ⟨toolNum, [⟨.none, b "5"⟩]⟩, ⟨toolVerbose, []⟩]

example : parseMode toolMode toolUses .fresh =
    (.ok (), ⟨[], [⟨45, [.one (.bool false), .one (.int 2), .one (.int 5), .one (.int 9)]⟩]⟩) := by
  decide +kernel

example : ∀ l ∈ toolUses, l.node.kind ≠ .help ∧ l.node.hasRouter = false := by
  intro l hl
  simp only [toolUses, List.mem_cons, List.not_mem_nil, or_false] at hl
  rcases hl with rfl | rfl | rfl <;> exact ⟨by decide, by decide⟩

/-- The required argument, C21: it must be given, and it is not in a command line without it. -/
example : MustBeGiven toolNum ∧ NotGiven toolMode.children [⟨toolVerbose, []⟩] 2 := by
  constructor
  · exact .inl (by simp [toolNum, mkArg, Node.policies])
  · intro l hl
    simp only [List.mem_cons, List.not_mem_nil, or_false] at hl
    subst hl
    rw [isFor_iff]
    rintro ⟨c, n, h⟩
    have h2 : findChild toolVerbose.hash toolMode.children 0 = some (1, toolVerbose, toolVerbose) :=
      rfl
    rw [h2] at h
    simp at h

/-- The counting flag, C24: both its uses count. -/
example : IsCounter 64 toolVerbose ∧ usesOf toolMode.children toolUses 1 =
    [⟨toolVerbose, []⟩, ⟨toolVerbose, []⟩] := by
  have h1 : IsFor toolMode.children ⟨toolVerbose, []⟩ 1 :=
    (isFor_iff _ _ _).2 ⟨toolVerbose, toolVerbose, rfl⟩
  have h2 : ¬ IsFor toolMode.children ⟨toolNum, [⟨.none, b "5"⟩]⟩ 1 := by
    rw [isFor_iff]
    rintro ⟨c, n, h⟩
    have h2 : findChild toolNum.hash toolMode.children 0 = some (2, toolNum, toolNum) := rfl
    rw [h2] at h
    simp at h
  refine ⟨isCounter_mk _ _ _ _ _, ?_⟩
  unfold usesOf toolUses
  rw [List.filter_cons_of_pos (by simpa using h1), List.filter_cons_of_neg (by simpa using h2),
    List.filter_cons_of_pos (by simpa using h1)]
  rfl

/-- C23: a second use of the argument. -/
example : parseMode toolMode [⟨toolOut, [⟨.none, b "5"⟩]⟩, ⟨toolOut, [⟨.none, b "5"⟩]⟩] .fresh =
    (.throw ⟨.argument_has_already_been_set, [⟨.long, b "out"⟩]⟩, .fresh) := by decide +kernel

/-- C25: the value 1 breaks the lower bound. -/
example : parseValue toolNum [⟨.none, b "1"⟩] = .ok (.one (.int 1)) ∧
    ¬ InBounds toolNum (.one (.int 1)) := by
  refine ⟨by decide +kernel, fun h => ?_⟩
  have := (h (some (.one (.int 2))) (some (.one (.int 7))) intLess
    (by simp [toolNum, mkArg, Node.policies])).1 _ rfl
  exact absurd this (by decide)

end Props

end ArgRouter
