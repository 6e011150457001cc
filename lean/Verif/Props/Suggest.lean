import Verif.Parse.Suggest
import Verif.Props.Distance
import Verif.Props.Root

/-!
# C30: the suggestion for an unknown argument
-/

namespace ArgRouter

open Utf8

namespace Spec

/-- The node is below `start`; the list is the chain of its ancestors, from its parent to `start`. -/
inductive Below (start : Node) : Node → List Node → Prop
  | child {c : Node} : c ∈ start.children → Below start c [start]
  | deeper {c p : Node} {ps : List Node} : Below start p ps → c ∈ p.children →
      Below start c (p :: ps)

/-- A node is enabled unless it has a runtime switch that is off. -/
def Enabled (n : Node) : Prop := n.runtimeEnabled ≠ some false

/-- The token is one of the names of the node. -/
def HasName (n : Node) (t : Token) : Prop :=
  match t.pre with
  | .long => n.longName = some t.name
  | .short => n.shortName = some t.name
  | .none => n.noneName = some t.name

/-- The node is below `start`, it and all its ancestors are enabled, and `t` is its name. -/
structure Suggestible (start n : Node) (ps : List Node) (t : Token) : Prop where
  below : Below start n ps
  enabled : ∀ m ∈ n :: ps, Enabled m
  name : HasName n t

/-- The distance of two strings in characters. -/
def Distance (s t : Bytes) (d : Nat) : Prop :=
  ∃ a b, graphemes s = .ok a ∧ graphemes t = .ok b ∧ IsEditDistance a b d

end Spec

open Spec

namespace Props

/-! ## The nodes of a tree -/

theorem below_trans {n c m : Node} {rs : List Node} (hc : c ∈ n.children) (h : Below c m rs) :
    Below n m (rs ++ [n]) := by
  induction h with
  | child hm => exact .deeper (.child hc) hm
  | deeper _ hm ih => exact .deeper ih hm

theorem below_cases {n m : Node} {rs : List Node} (h : Below n m rs) :
    (m ∈ n.children ∧ rs = [n]) ∨
    ∃ c rs', c ∈ n.children ∧ Below c m rs' ∧ rs = rs' ++ [n] := by
  induction h with
  | child hm => exact .inl ⟨hm, rfl⟩
  | @deeper c p ps _ hm ih =>
    right
    rcases ih with ⟨hp, rfl⟩ | ⟨d, rs', hd, hb, rfl⟩
    · exact ⟨p, [p], hp, .child hm, rfl⟩
    · exact ⟨d, p :: rs', hd, .deeper hb hm, rfl⟩

mutual
theorem mem_walk (ps : List Node) : ∀ (n m : Node) (qs : List Node), (m, qs) ∈ n.walk ps ↔
    (m = n ∧ qs = ps) ∨ ∃ rs, Below n m rs ∧ qs = rs ++ ps
  | .mk k u h v p cs, m, qs => by
    rw [Node.walk, List.mem_cons, Prod.mk.injEq, mem_walkList _ cs m qs]
    constructor
    · rintro (h | ⟨c, hc, h | ⟨rs, hb, rfl⟩⟩)
      · exact .inl h
      · obtain ⟨rfl, rfl⟩ := h
        exact .inr ⟨[_], .child hc, rfl⟩
      · refine .inr ⟨rs ++ [_], below_trans hc hb, by simp⟩
    · rintro (h | ⟨rs, hb, rfl⟩)
      · exact .inl h
      · right
        rcases below_cases hb with ⟨hc, rfl⟩ | ⟨c, rs', hc, hb', rfl⟩
        · exact ⟨m, hc, .inl ⟨rfl, rfl⟩⟩
        · exact ⟨c, hc, .inr ⟨rs', hb', by simp⟩⟩
theorem mem_walkList (ps : List Node) : ∀ (cs : List Node) (m : Node) (qs : List Node),
    (m, qs) ∈ Node.walkList ps cs ↔
    ∃ c ∈ cs, (m = c ∧ qs = ps) ∨ ∃ rs, Below c m rs ∧ qs = rs ++ ps
  | [], m, qs => by simp [Node.walkList]
  | c :: cs, m, qs => by
    rw [Node.walkList, List.mem_append, mem_walk ps c m qs, mem_walkList ps cs m qs]
    simp
end

theorem below_ne_nil {start n : Node} {ps : List Node} (h : Below start n ps) : ps ≠ [] := by
  cases h <;> simp

theorem mem_nameTokens {n : Node} {t : Token} : t ∈ n.nameTokens ↔ HasName n t := by
  obtain ⟨p, x⟩ := t
  simp only [Node.nameTokens, List.mem_append, Option.mem_toList, Option.mem_def,
    Option.map_eq_some_iff, Token.mk.injEq, HasName]
  cases p <;> simp

theorem disabled_iff {ns : List Node} : isRuntimeDisabled ns = false ↔ ∀ m ∈ ns, Enabled m := by
  simp only [isRuntimeDisabled, List.any_eq_false, Enabled, beq_iff_eq, ne_eq]

/-- What a pair of the walk contributes. -/
def offered (x : Node × List Node) : List (List Token) :=
  if x.2.isEmpty || isRuntimeDisabled (x.1 :: x.2) then []
  else x.1.nameTokens.map fun t => t :: x.2.dropLast.map Node.tokenType

theorem candidates_eq (start : Node) : candidates start = (start.walk []).flatMap offered := rfl

theorem mem_offered {n : Node} {ps : List Node} {c : List Token} :
    c ∈ offered (n, ps) ↔ ps ≠ [] ∧ (∀ m ∈ n :: ps, Enabled m) ∧
      ∃ t, HasName n t ∧ c = t :: ps.dropLast.map Node.tokenType := by
  unfold offered
  split
  · rename_i h
    simp only [List.not_mem_nil, ne_eq, false_iff, not_and, not_exists]
    intro h1 h2
    simp only [Bool.or_eq_true, List.isEmpty_iff, h1, false_or] at h
    rw [disabled_iff.2 h2] at h
    cases h
  · rename_i h
    simp only [Bool.or_eq_true, List.isEmpty_iff, not_or, Bool.not_eq_true] at h
    simp only [List.mem_map, mem_nameTokens]
    constructor
    · rintro ⟨t, ht, rfl⟩
      exact ⟨h.1, disabled_iff.1 h.2, t, ht, rfl⟩
    · rintro ⟨-, -, t, ht, rfl⟩
      exact ⟨t, ht, rfl⟩

theorem mem_candidates {start : Node} {c : List Token} : c ∈ candidates start ↔
    ∃ n ps t, Suggestible start n ps t ∧ c = t :: ps.dropLast.map Node.tokenType := by
  rw [candidates_eq, List.mem_flatMap]
  constructor
  · rintro ⟨⟨n, ps⟩, hw, hc⟩
    obtain ⟨h1, h2, t, h3, rfl⟩ := mem_offered.1 hc
    refine ⟨n, ps, t, ⟨?_, h2, h3⟩, rfl⟩
    rcases (mem_walk [] start n ps).1 hw with ⟨-, rfl⟩ | ⟨rs, hb, rfl⟩
    · exact absurd rfl h1
    · rwa [List.append_nil]
  · rintro ⟨n, ps, t, ⟨h1, h2, h3⟩, rfl⟩
    refine ⟨(n, ps), (mem_walk [] start n ps).2 (.inr ⟨ps, h1, by simp⟩), ?_⟩
    exact mem_offered.2 ⟨below_ne_nil h1, h2, t, h3, rfl⟩

/-! ## The search -/

/-- The name at the head of a candidate. -/
def headName (c : List Token) : Bytes := (c.head?.map Token.name).getD []

theorem closestLoop_spec (name : Bytes) (cs : List (List Token)) :
    ∀ (best : List Token) (score : Nat) (found : List Token),
    closestLoop name cs best score = .ok found →
    (∀ c ∈ cs, ∃ d, levenshtein name (headName c) = .ok d) ∧
    ((found = best ∧ ∀ c ∈ cs, ∀ d, levenshtein name (headName c) = .ok d → score ≤ d) ∨
    ∃ pre post d, cs = pre ++ found :: post ∧ levenshtein name (headName found) = .ok d ∧
      d < score ∧ (∀ c ∈ pre, ∀ e, levenshtein name (headName c) = .ok e → d < e) ∧
      ∀ c ∈ post, ∀ e, levenshtein name (headName c) = .ok e → d ≤ e) := by
  induction cs with
  | nil =>
    intro best score found h
    simp only [closestLoop, Out.ok.injEq] at h
    exact ⟨by simp, .inl ⟨h.symm, by simp⟩⟩
  | cons c cs ih =>
    intro best score found h
    simp only [closestLoop, Out.bind_eq_ok] at h
    obtain ⟨d, hd, h⟩ := h
    have hd' : levenshtein name (headName c) = .ok d := hd
    by_cases hlt : d < score
    · rw [if_pos hlt] at h
      obtain ⟨h1, h2⟩ := ih _ _ _ h
      refine ⟨?_, .inr ?_⟩
      · intro x hx
        rcases List.mem_cons.1 hx with rfl | hx
        · exact ⟨d, hd⟩
        · exact h1 x hx
      · rcases h2 with ⟨rfl, h2⟩ | ⟨pre, post, e, rfl, he, h3, h4, h5⟩
        · exact ⟨[], cs, d, rfl, hd, hlt, by simp, h2⟩
        · refine ⟨c :: pre, post, e, rfl, he, by omega, ?_, h5⟩
          intro x hx e' he'
          rcases List.mem_cons.1 hx with rfl | hx
          · rw [hd'] at he'; cases he'; exact h3
          · exact h4 x hx e' he'
    · rw [if_neg hlt] at h
      obtain ⟨h1, h2⟩ := ih _ _ _ h
      refine ⟨?_, ?_⟩
      · intro x hx
        rcases List.mem_cons.1 hx with rfl | hx
        · exact ⟨d, hd⟩
        · exact h1 x hx
      · rcases h2 with ⟨rfl, h2⟩ | ⟨pre, post, e, rfl, he, h3, h4, h5⟩
        · left
          refine ⟨rfl, ?_⟩
          intro x hx e' he'
          rcases List.mem_cons.1 hx with rfl | hx
          · rw [hd'] at he'; cases he'; omega
          · exact h2 x hx e' he'
        · right
          refine ⟨c :: pre, post, e, rfl, he, h3, ?_, h5⟩
          intro x hx e' he'
          rcases List.mem_cons.1 hx with rfl | hx
          · rw [hd'] at he'; cases he'; omega
          · exact h4 x hx e' he'

theorem lev_distance {s t : Bytes} {d : Nat} (h : levenshtein s t = .ok d) : Distance s t d := by
  have hg : ∃ a b, graphemes s = .ok a ∧ graphemes t = .ok b := by
    unfold levenshtein at h
    have hnil : graphemes [] = .ok [] := rfl
    split at h
    · rename_i he
      have : s = [] := List.isEmpty_iff.1 he
      subst this
      simp only [gCount, Out.bind_eq_ok] at h
      obtain ⟨b, hb, -⟩ := h
      exact ⟨[], b, hnil, hb⟩
    · split at h
      · rename_i he
        have : t = [] := List.isEmpty_iff.1 he
        subst this
        simp only [gCount, Out.bind_eq_ok] at h
        obtain ⟨b, hb, -⟩ := h
        exact ⟨b, [], hb, hnil⟩
      · simp only [Out.bind_eq_ok] at h
        obtain ⟨a, ha, b, hb, -⟩ := h
        exact ⟨a, b, ha, hb⟩
  obtain ⟨a, b, ha, hb⟩ := hg
  obtain ⟨e, he, hd⟩ := C31_edit_distance s t a b ha hb
  rw [h] at he
  cases he
  exact ⟨a, b, ha, hb, hd⟩

theorem distance_unique {s t : Bytes} {d e : Nat} (h : Distance s t d) (h' : Distance s t e) :
    d = e := by
  obtain ⟨a, b, ha, hb, hd⟩ := h
  obtain ⟨a', b', ha', hb', he⟩ := h'
  rw [ha] at ha'
  rw [hb] at hb'
  cases ha'
  cases hb'
  exact C31_unique a b d e hd he

theorem align_total {α : Type} (a b : List α) : Align (a.length + b.length) a b := by
  induction a with
  | nil =>
    induction b with
    | nil => exact .nil
    | cons y b ih =>
      have : ([] : List α).length + (y :: b).length = ([] : List α).length + b.length + 1 := by
        simp
      rw [this]; exact .ins y ih
  | cons x a ih =>
    have : (x :: a).length + b.length = a.length + b.length + 1 := by
      simp only [List.length_cons]; omega
    rw [this]; exact .del x ih

theorem length_flatten_ge (l : List Bytes) (h : ∀ p ∈ l, p ≠ []) : l.length ≤ l.flatten.length := by
  induction l with
  | nil => simp
  | cons p l ih =>
    have := List.length_pos_iff.2 (h p List.mem_cons_self)
    have := ih fun q hq => h q (List.mem_cons_of_mem _ hq)
    simp only [List.length_cons, List.flatten_cons, List.length_append]
    omega

theorem distance_le {s t : Bytes} {d : Nat} (h : Distance s t d) : d ≤ s.length + t.length := by
  obtain ⟨a, b, ha, hb, hd⟩ := h
  have h1 := hd.2 _ (align_total a b).edits
  obtain ⟨ha1, ha2⟩ := (C41_any_bytes s).2 a ha
  obtain ⟨hb1, hb2⟩ := (C41_any_bytes t).2 b hb
  have := length_flatten_ge a ha2
  have := length_flatten_ge b hb2
  rw [ha1] at *
  rw [hb1] at *
  omega

end Props

namespace Spec

/-- What the user typed, without the prefix. -/
def BareName (cfg : Config) (t : Token) (x : Bytes) : Prop :=
  if t.pre = .none then
    (cfg.longPrefix <+: t.name ∧ t.name = cfg.longPrefix ++ x) ∨
    (¬ cfg.longPrefix <+: t.name ∧ cfg.shortPrefix <+: t.name ∧ t.name = cfg.shortPrefix ++ x) ∨
    (¬ cfg.longPrefix <+: t.name ∧ ¬ cfg.shortPrefix <+: t.name ∧ x = t.name)
  else x = t.name

end Spec

namespace Props

theorem bareName (cfg : Config) (t : Token) :
    BareName cfg t (if t.pre == .none then getTokenType cfg t.name else t).name := by
  unfold BareName
  by_cases hp : t.pre = .none
  · simp only [hp, beq_self_eq_true, if_true, getTokenType]
    split
    · rename_i h
      rw [startsWith_prefix] at h
      obtain ⟨r, hr⟩ := h
      left
      exact ⟨⟨r, hr⟩, by rw [← hr]; simp⟩
    · rename_i h
      rw [startsWith_prefix] at h
      right
      split
      · rename_i h2
        rw [startsWith_prefix] at h2
        obtain ⟨r, hr⟩ := h2
        left
        exact ⟨h, ⟨r, hr⟩, by rw [← hr]; simp⟩
      · rename_i h2
        rw [startsWith_prefix] at h2
        right
        exact ⟨h, h2, rfl⟩
  · rw [if_neg hp, if_neg (by simpa using hp)]

theorem bind_ne_throw {α β : Type} {o : Out α} {f : α → Out β} (h1 : ∀ e, o ≠ .throw e)
    (h2 : ∀ a e, f a ≠ .throw e) : ∀ e, (o >>= f) ≠ .throw e := by
  intro e
  cases o with
  | ok a => exact h2 a e
  | throw e' => exact absurd rfl (h1 e')
  | _ => intro h; cases h

theorem gUpdate_ne_throw (s : Bytes) (w : GWindow) (e : Exc) : gUpdate s w ≠ .throw e := by
  unfold gUpdate
  exact bind_ne_throw (gLoop_facts _ s 0 w (Nat.le_refl _)).2.1 (fun a e => by simp) e

theorem toList_ne_throw : ∀ (fuel : Nat) (it : GIter) (e : Exc), it.toList fuel ≠ .throw e := by
  intro fuel
  induction fuel with
  | zero => intro it e; rw [GIter.toList]; split <;> simp
  | succ n ih =>
    intro it
    rw [GIter.toList]
    split
    · simp
    · refine bind_ne_throw ?_ fun it' => bind_ne_throw (ih it') fun ps e => by simp
      intro e
      unfold GIter.next
      split
      · exact gUpdate_ne_throw _ _ e
      · simp

theorem graphemes_ne_throw (s : Bytes) : ∀ e, graphemes s ≠ .throw e := by
  unfold graphemes
  refine bind_ne_throw ?_ fun it => toList_ne_throw _ it
  exact gUpdate_ne_throw _ _

theorem closest_ne_throw (cfg : Config) (start : Node) (t : Token) :
    ∀ e, closest cfg start t ≠ .throw e := by
  unfold closest
  generalize candidates start = cs
  generalize ([] : List Token) = best
  generalize sizeMax = score
  simp only
  generalize (if (t.pre == Prefix.none) = true then getTokenType cfg t.name else t).name = x
  induction cs generalizing best score with
  | nil => intro e; simp [closestLoop]
  | cons c cs ih =>
    rw [closestLoop]
    refine bind_ne_throw ?_ fun d => ?_
    · unfold levenshtein gCount
      split
      · exact bind_ne_throw (graphemes_ne_throw _) fun a e => by simp
      · split
        · exact bind_ne_throw (graphemes_ne_throw _) fun a e => by simp
        · exact bind_ne_throw (graphemes_ne_throw _) fun a =>
            bind_ne_throw (graphemes_ne_throw _) fun b e => by simp
    · split
      · exact ih _ _
      · exact ih _ _

/-- C30: a suggestion is the name of an enabled node whose ancestors are enabled too, after the
names of its ancestors below the reporting node; and no such name is closer to what the user typed.
-/
theorem C30_closest (cfg : Config) (start : Node) (t : Token) (xs : List Token)
    (h : (unknownArgument cfg start t : Out Unit) =
      .throw ⟨.unknown_argument_with_suggestion, t :: xs⟩) :
    ∃ n ps name x d, Suggestible start n ps name ∧
      xs = (ps.dropLast.map Node.tokenType).reverse ++ [name] ∧
      BareName cfg t x ∧ Distance x name.name d ∧
      ∀ n' ps' name', Suggestible start n' ps' name' → ∃ d', Distance x name'.name d' ∧ d ≤ d' := by
  unfold unknownArgument at h
  cases hc : closest cfg start t with
  | ok found =>
    rw [hc] at h
    simp only [Out.ok_bind] at h
    cases hf : found with
    | nil => rw [hf] at h; simp at h
    | cons y ys =>
      rw [hf] at h hc
      simp only [List.isEmpty_cons, Bool.false_eq_true, if_false, Out.throw.injEq, Exc.mk.injEq,
        true_and, List.cons.injEq] at h
      obtain ⟨h1, h2⟩ := closestLoop_spec _ _ _ _ _ hc
      rcases h2 with ⟨h2, -⟩ | ⟨pre, post, d, hs, hd, -, h3, h4⟩
      · cases h2
      obtain ⟨n, ps, name, hsug, he⟩ := mem_candidates.1
        (by rw [hs]; simp : y :: ys ∈ candidates start)
      refine ⟨n, ps, name, _, d, hsug, ?_, bareName cfg t, ?_, ?_⟩
      · rw [← h, he, List.reverse_cons]
      · rw [he] at hd; exact lev_distance hd
      · intro n' ps' name' hs'
        have hm := mem_candidates.2 ⟨n', ps', name', hs', rfl⟩
        obtain ⟨e, he'⟩ := h1 _ hm
        refine ⟨e, lev_distance he', ?_⟩
        rw [hs] at hm
        rcases List.mem_append.1 hm with hm | hm
        · exact Nat.le_of_lt (h3 _ hm e he')
        · rcases List.mem_cons.1 hm with hm | hm
          · rw [hm] at he'; rw [hd] at he'; cases he'; exact Nat.le_refl _
          · exact h4 _ hm e he'
  | throw e => exact absurd hc (closest_ne_throw _ _ _ e)
  | _ => rw [hc] at h; simp at h

/-- C30 (ties): in the order of the tree (parents first, siblings in declaration order) the
suggested node is the first with this distance: every enabled name before it is further away. -/
theorem C30_first (cfg : Config) (start : Node) (t : Token) (xs : List Token)
    (h : (unknownArgument cfg start t : Out Unit) =
      .throw ⟨.unknown_argument_with_suggestion, t :: xs⟩) :
    ∃ before n ps after name x d, start.walk [] = before ++ (n, ps) :: after ∧
      Suggestible start n ps name ∧ xs.getLast? = some name ∧
      BareName cfg t x ∧ Distance x name.name d ∧
      ∀ n' ps' name', (n', ps') ∈ before → Suggestible start n' ps' name' →
        ∃ d', Distance x name'.name d' ∧ d < d' := by
  unfold unknownArgument at h
  cases hc : closest cfg start t with
  | ok found =>
    rw [hc] at h
    simp only [Out.ok_bind] at h
    cases hf : found with
    | nil => rw [hf] at h; simp at h
    | cons y ys =>
      rw [hf] at h hc
      simp only [List.isEmpty_cons, Bool.false_eq_true, if_false, Out.throw.injEq, Exc.mk.injEq,
        true_and, List.cons.injEq] at h
      obtain ⟨h1, h2⟩ := closestLoop_spec _ _ _ _ _ hc
      rcases h2 with ⟨h2, -⟩ | ⟨pre, post, d, hs, hd, -, h3, h4⟩
      · cases h2
      rw [candidates_eq] at hs
      obtain ⟨before, w, after, hw, p1, p2, hp, hw2⟩ : ∃ before w after, start.walk [] =
          before ++ w :: after ∧ ∃ p1 p2, pre = before.flatMap offered ++ p1 ∧
            offered w = p1 ++ (y :: ys) :: p2 := by
        clear hc h1 h3 h4 h hd
        generalize start.walk [] = W at hs
        induction W generalizing pre with
        | nil => simp at hs
        | cons w W ih =>
          rw [List.flatMap_cons, List.append_eq_append_iff] at hs
          rcases hs with ⟨q, h5, h6⟩ | ⟨q, h5, h6⟩
          · obtain ⟨before, w', after, rfl, p1, p2, rfl, hw⟩ := ih q h6
            exact ⟨w :: before, w', after, rfl, p1, p2, by rw [h5]; simp, hw⟩
          · cases q with
            | nil =>
              rw [List.append_nil] at h5
              rw [List.nil_append] at h6
              obtain ⟨before, w', after, rfl, p1, p2, hp, hw⟩ := ih [] (by simpa using h6.symm)
              exact ⟨w :: before, w', after, rfl, p1, p2, by
                rw [← h5, List.flatMap_cons, List.append_assoc, ← hp, List.append_nil], hw⟩
            | cons z q =>
              rw [List.cons_append, List.cons.injEq] at h6
              obtain ⟨rfl, h6⟩ := h6
              exact ⟨[], w, W, rfl, pre, q, by simp, h5⟩
      obtain ⟨n, ps⟩ := w
      have hmem : y :: ys ∈ offered (n, ps) := by rw [hw2]; simp
      obtain ⟨g1, g2, name, g3, g4⟩ := mem_offered.1 hmem
      have hbelow : Below start n ps := by
        rcases (mem_walk [] start n ps).1 (by rw [hw]; simp) with ⟨-, rfl⟩ | ⟨rs, hb, rfl⟩
        · exact absurd rfl g1
        · rwa [List.append_nil]
      refine ⟨before, n, ps, after, name, _, d, hw, ⟨hbelow, g2, g3⟩, ?_, bareName cfg t, ?_, ?_⟩
      · rw [← h, g4]; simp
      · rw [g4] at hd; exact lev_distance hd
      · intro n' ps' name' hm hs'
        have hm2 : name' :: ps'.dropLast.map Node.tokenType ∈ pre := by
          rw [hp, List.mem_append, List.mem_flatMap]
          exact .inl ⟨(n', ps'), hm,
            mem_offered.2 ⟨below_ne_nil hs'.below, hs'.enabled, name', hs'.name, rfl⟩⟩
        obtain ⟨e, he'⟩ := h1 (name' :: ps'.dropLast.map Node.tokenType) (by
          rw [candidates_eq, hs]; exact List.mem_append_left _ hm2)
        exact ⟨e, lev_distance he', h3 _ hm2 e he'⟩
  | throw e => exact absurd hc (closest_ne_throw _ _ _ e)
  | _ => rw [hc] at h; simp at h

/-- C30: there is no suggestion exactly when there is no enabled name to suggest. -/
theorem C30_none (cfg : Config) (start : Node) (t : Token)
    (hsmall : ∀ n ps name, Suggestible start n ps name →
      t.name.length + name.name.length < 2 ^ 63)
    (hdef : ∃ found, closest cfg start t = .ok found) :
    (unknownArgument cfg start t : Out Unit) = .throw ⟨.unknown_argument, [t]⟩ ↔
      ∀ n ps name, ¬ Suggestible start n ps name := by
  obtain ⟨found, hc⟩ := hdef
  unfold unknownArgument
  rw [hc]
  simp only [Out.ok_bind]
  obtain ⟨h1, h2⟩ := closestLoop_spec _ _ _ _ _ hc
  have hlen : (if t.pre == .none then getTokenType cfg t.name else t).name.length ≤ t.name.length := by
    have := bareName cfg t
    unfold BareName at this
    split at this
    · rcases this with ⟨-, h⟩ | ⟨-, -, h⟩ | ⟨-, -, h⟩
      · rw [congrArg List.length h]; simp
      · rw [congrArg List.length h]; simp
      · rw [h]; exact Nat.le_refl _
    · rw [this]; exact Nat.le_refl _
  constructor
  · intro h n ps name hs
    have hf : found = [] := by
      cases found with
      | nil => rfl
      | cons y ys => simp at h
    subst hf
    have hm := mem_candidates.2 ⟨n, ps, name, hs, rfl⟩
    obtain ⟨e, he⟩ := h1 _ hm
    have hle := distance_le (lev_distance he)
    rcases h2 with ⟨-, h2⟩ | ⟨pre, post, d, hs2, -⟩
    · have h3 := h2 _ hm e he
      have h4 := hsmall n ps name hs
      simp only [headName, List.head?_cons, Option.map_some, Option.getD_some] at hle
      unfold sizeMax at h3
      omega
    · have : [] ∈ candidates start := by rw [hs2]; simp
      obtain ⟨_, _, _, _, he⟩ := mem_candidates.1 this
      cases he
  · intro h
    have hnil : candidates start = [] := by
      rw [List.eq_nil_iff_forall_not_mem]
      intro c hc'
      obtain ⟨n, ps, name, hs, -⟩ := mem_candidates.1 hc'
      exact h n ps name hs
    rw [closest, hnil] at hc
    simp only [closestLoop, Out.ok.injEq] at hc
    subst hc
    rfl

/-- C30: what is suggested for a misspelled argument of a nested mode; disabled nodes are not. -/
example :
    let off : Node := mkMode 81 81 [.router, .noneName (b "fist"), .runtimeEnable false] [toolFlag]
    (unknownArgument .default (mkRoot 82 82 [off, listMode, remoteMode]) ⟨.none, b "fist"⟩ : Out Unit)
        = .throw ⟨.unknown_argument_with_suggestion, [⟨.none, b "fist"⟩, ⟨.none, b "list"⟩]⟩ ∧
    (unknownArgument .default gitRoot ⟨.none, b "--ou"⟩ : Out Unit) =
      .throw ⟨.unknown_argument_with_suggestion,
        [⟨.none, b "--ou"⟩, ⟨.none, b "remote"⟩, ⟨.none, b "add"⟩, ⟨.long, b "out"⟩]⟩ := by
  decide +kernel

/-- C30: a mode all of whose nodes are disabled has nothing to suggest. -/
example :
    let off : Node := mkFlag .default 83 83 [.longName (b "all"), .runtimeEnable false]
    (unknownArgument .default (mkMode 84 84 [.router] [off]) ⟨.none, b "--al"⟩ : Out Unit) =
      .throw ⟨.unknown_argument, [⟨.none, b "--al"⟩]⟩ := by decide +kernel

/-- C30: a node that can be suggested. -/
example : Suggestible gitRoot toolOut [addMode, remoteMode, gitRoot] ⟨.long, b "out"⟩ := by
  refine ⟨.deeper (.deeper (.child ?_) ?_) ?_, ?_, rfl⟩
  · simp [gitRoot, mkRoot, Node.children]
  · simp [remoteMode, mkMode, Node.children]
  · simp [addMode, mkMode, Node.children]
  · intro m hm
    simp only [List.mem_cons, List.not_mem_nil, or_false] at hm
    rcases hm with rfl | rfl | rfl | rfl <;> exact fun h => by cases h

end Props

end ArgRouter
