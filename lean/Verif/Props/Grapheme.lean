import Verif.Lemmas.Grapheme

/-!
# C41-C44: grapheme clusters
-/

namespace ArgRouter.Props

open ArgRouter.Utf8 ArgRouter.Spec

/-! ## C41 – clusters partition the text -/

/-- C41: on well-formed text without lead bytes DF/EF, iterating grapheme clusters yields non-empty
groups of whole characters whose concatenation is the text. (For text with lead bytes DF/EF see
`C41_false`.) -/
theorem C41_partition_partial (cs : List Char) (h : Plain cs) :
    ∃ parts : List (List Char), graphemes (enc cs) = .ok (parts.map enc) ∧
      parts.flatten = cs ∧ ∀ p ∈ parts, p ≠ [] :=
  ⟨_, graphemes_enc h, by simpa using clustersFrom_flatten gWindowInit [] cs,
    clustersFrom_ne_nil _ _ _⟩

example : Plain "áb\r\n🇬🇧".toList := by decide +kernel

/-- C41 is false for text ending in a character with lead byte EF: undefined behaviour. -/
theorem C41_false : graphemes (enc ['a', '！']) = .ub := by decide +kernel

theorem gLoop_facts : ∀ fuel (s : Bytes) cur w, s.length ≤ fuel →
    gLoop fuel s cur w ≠ .diverge ∧ (∀ e, gLoop fuel s cur w ≠ .throw e) ∧
    ∀ cur' w', gLoop fuel s cur w = .ok (cur', w') →
      cur ≤ cur' ∧ cur' ≤ cur + s.length ∧ (s ≠ [] → cur < cur') := by
  intro fuel
  induction fuel with
  | zero =>
    intro s cur w hs
    have : s = [] := List.length_eq_zero_iff.1 (by omega)
    subst this
    simp [gLoop]
  | succ n ih =>
    intro s cur w hs
    cases s with
    | nil => simp [gLoop]
    | cons x r =>
      have hp := cpSize_pos x r
      have hd : cpSize (cpDeref (x :: r)) = cpSize (x :: r) := by
        unfold cpDeref
        obtain ⟨k, hk⟩ : ∃ k, cpSize (x :: r) = k + 1 := ⟨cpSize (x :: r) - 1, by omega⟩
        rw [hk, List.take_succ_cons, ← hk, cpSize_cons, cpSize_cons]
      simp only [gLoop, cpNext, hd]
      by_cases hle : cpSize (x :: r) ≤ (x :: r).length
      · rw [if_pos hle]
        have hl : ((x :: r).drop (cpSize (x :: r))).length = (x :: r).length - cpSize (x :: r) :=
          List.length_drop
        have hl' : ((x :: r).drop (cpSize (x :: r))).length ≤ n := by
          rw [hl]; simp only [List.length_cons] at hs ⊢; omega
        simp only [Out.ok_bind]
        split
        · obtain ⟨h1, h2, h3⟩ := ih _ (cur + cpSize (x :: r)) w hl'
          refine ⟨h1, h2, ?_⟩
          intro cur' w' e
          obtain ⟨a, c, -⟩ := h3 _ _ e
          rw [hl] at c
          exact ⟨by omega, by omega, fun _ => by omega⟩
        · split
          · simp only [Out.pure_eq]
            refine ⟨by simp, by simp, ?_⟩
            intro cur' w' e
            simp only [Out.ok.injEq, Prod.mk.injEq] at e
            obtain ⟨rfl, -⟩ := e
            exact ⟨by omega, by omega, fun _ => by omega⟩
          · obtain ⟨h1, h2, h3⟩ := ih _ (cur + cpSize (x :: r)) _ hl'
            refine ⟨h1, h2, ?_⟩
            intro cur' w' e
            obtain ⟨a, c, -⟩ := h3 _ _ e
            rw [hl] at c
            exact ⟨by omega, by omega, fun _ => by omega⟩
      · rw [if_neg hle]
        split <;> simp

theorem toList_facts : ∀ fuel (it : GIter), it.str.length ≤ fuel → it.current ≤ it.str.length →
    (it.str ≠ [] → 0 < it.current) →
    it.toList fuel ≠ .diverge ∧ ∀ ps, it.toList fuel = .ok ps →
      ps.flatten = it.str ∧ ∀ p ∈ ps, p ≠ [] := by
  intro fuel
  induction fuel with
  | zero =>
    rintro ⟨s, k, w⟩ hs h1 h2
    have : s = [] := List.length_eq_zero_iff.1 (by simpa using hs)
    subst this
    simp only [GIter.toList]
    simp
  | succ n ih =>
    rintro ⟨s, k, w⟩ hs h1 h2
    simp only [GIter.toList]
    cases s with
    | nil => simp
    | cons x r =>
      have hk := h2 (by simp)
      simp only at h1 hs hk
      simp only [List.isEmpty_cons, Bool.false_eq_true, if_false, GIter.next, if_pos h1, gUpdate]
      have hl : ((x :: r).drop k).length = (x :: r).length - k := List.length_drop
      obtain ⟨g1, g2, g3⟩ := gLoop_facts _ ((x :: r).drop k) 0 w (Nat.le_refl _)
      match hg : gLoop ((x :: r).drop k).length ((x :: r).drop k) 0 w with
      | .diverge => exact absurd hg g1
      | .throw e => exact absurd hg (g2 e)
      | .foreign => simp
      | .ub => simp
      | .ok (c', w') =>
        obtain ⟨a1, a2, a3⟩ := g3 _ _ hg
        simp only [Out.ok_bind, Out.pure_eq]
        obtain ⟨i1, i2⟩ := ih ⟨(x :: r).drop k, c', w'⟩ (by
            simp only [hl]; simp only [List.length_cons] at hs ⊢; omega) (by simpa using a2)
          (fun hne => a3 hne)
        match hr : GIter.toList n ⟨(x :: r).drop k, c', w'⟩ with
        | .diverge => exact absurd hr i1
        | .throw e => simp
        | .foreign => simp
        | .ub => simp
        | .ok ps =>
          obtain ⟨j1, j2⟩ := i2 ps hr
          simp only [Out.ok_bind, Out.ok.injEq]
          refine ⟨by simp, ?_⟩
          rintro qs rfl
          refine ⟨by simp [j1, GIter.deref], ?_⟩
          intro p hp
          rcases List.mem_cons.1 hp with rfl | hp
          · simp only [GIter.deref, ne_eq, List.take_eq_nil_iff]
            simp; omega
          · exact j2 p hp

/-- C41 over arbitrary bytes: the iteration always ends; when it ends normally the pieces are
non-empty and their concatenation is the input. -/
theorem C41_any_bytes (s : Bytes) : graphemes s ≠ .diverge ∧
    ∀ ps, graphemes s = .ok ps → ps.flatten = s ∧ ∀ p ∈ ps, p ≠ [] := by
  obtain ⟨g1, g2, g3⟩ := gLoop_facts _ s 0 gWindowInit (Nat.le_refl _)
  simp only [graphemes, GIter.init, gUpdate]
  match hg : gLoop s.length s 0 gWindowInit with
  | .diverge => exact absurd hg g1
  | .throw e => exact absurd hg (g2 e)
  | .foreign => simp
  | .ub => simp
  | .ok (c', w') =>
    obtain ⟨a1, a2, a3⟩ := g3 _ _ hg
    simp only [Out.ok_bind, Out.pure_eq]
    exact toList_facts _ ⟨s, c', w'⟩ (Nat.le_refl _) (by simpa using a2) a3

example : graphemes [0xFF, 0x61, 0x80, 0x80, 0x62] =
    .ok [[0xFF, 0x61, 0x80, 0x80], [0x62]] := by decide +kernel

/-! ## C42 – ASCII text -/

/-- One cluster per character, CR LF together. -/
def asciiClusters : List Char → List (List Char)
  | [] => []
  | [c] => [[c]]
  | c :: d :: r =>
    if c = '\r' ∧ d = '\n' then [c, d] :: asciiClusters r else [c] :: asciiClusters (d :: r)

theorem ascii_class (n : Nat) (h : n < 128) :
    gClass n = if n = 13 then .CR else if n = 10 then .LF
      else if n < 32 ∨ n = 127 then .control else .any := by
  have : ∀ n : Fin 128, gClass n = if n.val = 13 then .CR else if n.val = 10 then .LF
      else if n.val < 32 ∨ n.val = 127 then .control else .any := by decide +kernel
  exact this ⟨n, h⟩

theorem ascii_break (w : GWindow) (c : Char) (hc : c.toNat < 128) (n : GClass)
    (hn : n = .any ∨ n = .CR ∨ n = .LF ∨ n = .control) :
    gShouldBreak (gPush (gClass c.toNat) w) n = !(decide (c.toNat = 13) && decide (n = .LF)) := by
  rw [ascii_class _ hc]
  by_cases h1 : c.toNat = 13
  · rw [if_pos h1]
    rcases hn with rfl | rfl | rfl | rfl <;>
      simp [gShouldBreak, GB3, GB6, GB7, GB8, GB9, GB9a, GB9b, GB11, GB12_13, gPush, gHead, h1]
  · rw [if_neg h1]
    by_cases h2 : c.toNat = 10
    · rw [if_pos h2]
      rcases hn with rfl | rfl | rfl | rfl <;>
        simp [gShouldBreak, GB3, GB6, GB7, GB8, GB9, GB9a, GB9b, GB11, GB12_13, gPush, gHead, h1]
    · rw [if_neg h2]
      split <;> rcases hn with rfl | rfl | rfl | rfl <;>
        simp [gShouldBreak, GB3, GB6, GB7, GB8, GB9, GB9a, GB9b, GB11, GB12_13, gPush, gHead, h1]

theorem ascii_nextC (cs : List Char) (h : ∀ c ∈ cs, c.toNat < 128) :
    nextC cs = .any ∨ nextC cs = .CR ∨ nextC cs = .LF ∨ nextC cs = .control := by
  cases cs with
  | nil => simp [nextC]
  | cons c cs =>
    simp only [nextC]
    rw [ascii_class _ (h c (by simp))]
    repeat' split
    all_goals simp

theorem char_eq_of_toNat {c : Char} {d : Char} : c = d ↔ c.toNat = d.toNat :=
  ⟨fun h => h ▸ rfl, fun h => Char.ext (UInt32.toNat_inj.1 h)⟩

theorem ascii_lf (c : Char) (hc : c.toNat < 128) : gClass c.toNat = .LF ↔ c = '\n' := by
  rw [ascii_class _ hc, char_eq_of_toNat]
  show _ ↔ c.toNat = 10
  repeat' split
  all_goals simp
  all_goals omega

theorem ascii_clusters (w : GWindow) (cs : List Char) (h : ∀ c ∈ cs, c.toNat < 128) :
    clustersFrom w [] cs = asciiClusters cs := by
  fun_induction asciiClusters cs generalizing w with
  | case1 => rfl
  | case2 c =>
    have hc := h c (by simp)
    simp only [clustersFrom, nextC, ascii_break w c hc .any (by simp)]
    simp
  | case3 c d r hcd ih =>
    obtain ⟨rfl, rfl⟩ := hcd
    have h1 := ascii_break w '\r' (by decide) (nextC ('\n' :: r))
      (ascii_nextC _ fun x hx => h x (by simp at hx ⊢; right; exact hx))
    have h2 := ascii_break (gPush (gClass '\r'.toNat) w) '\n' (by decide) (nextC r)
      (ascii_nextC _ fun x hx => h x (by simp [hx]))
    have h3 : nextC ('\n' :: r) = .LF := (ascii_lf '\n' (by decide)).2 rfl
    rw [h3, show (decide ('\r'.toNat = 13) && decide (GClass.LF = GClass.LF)) = true by decide,
      Bool.not_true] at h1
    rw [show (decide ('\n'.toNat = 13)) = false by decide, Bool.false_and, Bool.not_false] at h2
    rw [clustersFrom, h3, h1, if_neg (by decide), clustersFrom, h2, if_pos rfl, ih _ fun x hx => h x (by simp [hx])]
    rfl
  | case4 c d r hcd ih =>
    have hc := h c (by simp)
    have hd := h d (by simp)
    have h1 := ascii_break w c hc (nextC (d :: r))
      (ascii_nextC _ fun x hx => h x (by simp at hx ⊢; right; exact hx))
    have h2 : (decide (c.toNat = 13) && decide (nextC (d :: r) = GClass.LF)) = false := by
      simp only [nextC, ascii_lf d hd, Bool.and_eq_false_iff, decide_eq_false_iff_not]
      rw [char_eq_of_toNat] at hcd
      by_cases e : c.toNat = 13
      · right; intro e'; exact hcd ⟨e, e'⟩
      · left; exact e
    rw [h2] at h1
    rw [clustersFrom]
    simp only [h1, Bool.not_false, if_true, List.nil_append]
    rw [ih _ fun x hx => h x (by simp at hx ⊢; right; exact hx)]

/-- C42: in ASCII text every character is its own cluster, except CR LF. -/
theorem C42_ascii (cs : List Char) (h : ∀ c ∈ cs, c.toNat < 0x80) :
    graphemes (enc cs) = .ok ((asciiClusters cs).map enc) := by
  have hp : Plain cs := by
    intro c hc
    have := h c hc
    simp only [leadDForEF, Bool.or_eq_false_iff, Bool.and_eq_false_iff, decide_eq_false_iff_not]
    omega
  rw [graphemes_enc hp, ascii_clusters _ _ h]

example : graphemes (b "a\r\nb\n") = .ok [b "a", b "\r\n", b "b", b "\n"] := by decide +kernel
example : ∀ c ∈ "xyz\r\n".toList, c.toNat < 0x80 := by decide

/-! ## C43 – combining marks and controls -/

/-- Characters that UAX #29 attaches to the preceding character (GB9, GB9a). -/
def attaches (c : Char) : Prop :=
  gClass c.toNat = .extend ∨ gClass c.toNat = .ZWJ ∨ gClass c.toNat = .spacing_mark

/-- C43 is false: the iterator has no GB4/GB5, so a control character does not stand alone. A line
feed followed by a combining acute accent is reported as one cluster. -/
theorem C43_false : graphemes (enc ['\n', '́']) = .ok [enc ['\n', '́']] ∧
    gClass '\n'.toNat = .LF ∧ gClass '́'.toNat = .extend := by decide +kernel

/-- C43, the true part: no cluster but the first begins with a combining mark, joiner or spacing
mark. Missing from the full statement: control characters standing alone. -/
theorem C43_no_break_before_mark_partial (cs : List Char) (h : Plain cs) :
    ∃ parts : List (List Char), graphemes (enc cs) = .ok (parts.map enc) ∧ parts.flatten = cs ∧
      ∀ p ∈ parts.tail, ∀ c ∈ p.head?, ¬ attaches c := by
  refine ⟨_, graphemes_enc h, by simpa using clustersFrom_flatten gWindowInit [] cs, ?_⟩
  intro p hp c hc hat
  obtain ⟨w', hw⟩ := clustersFrom_tail _ _ _ p hp c hc
  simp only [gShouldBreak, List.any_cons, List.any_nil, GB9, GB9a, Bool.not_eq_true',
    Bool.or_eq_false_iff, beq_eq_false_iff_ne] at hw
  rcases hat with e | e | e <;> simp [e] at hw

example : graphemes (enc ['e', '́', 'x', '‍']) =
    .ok [enc ['e', '́'], enc ['x', '‍']] := by decide +kernel

/-! ## C44 – regional indicators -/

/-- Two by two, a single one at the end if the number is odd. -/
def pairUp : List Char → List (List Char)
  | [] => []
  | [c] => [[c]]
  | c :: d :: r => [c, d] :: pairUp r

def isRI (c : Char) : Prop := 0x1F1E6 ≤ c.toNat ∧ c.toNat ≤ 0x1F1FF

instance (c : Char) : Decidable (isRI c) := by unfold isRI; infer_instance

theorem ri_class (c : Char) (h : isRI c) : gClass c.toNat = .regional_indicator := by
  have : ∀ n : Fin 26, gClass (0x1F1E6 + n.val) = .regional_indicator := by decide +kernel
  have h1 := this ⟨c.toNat - 0x1F1E6, by have := h.2; have := h.1; omega⟩
  simpa [Nat.add_sub_cancel' h.1] using h1

theorem riRun_take (w : GWindow) (n : Nat) : riRun (w.take n) = min n (riRun w) := by
  induction n generalizing w with
  | zero => simp [riRun]
  | succ n ih =>
    cases w with
    | nil => simp [riRun]
    | cons c w =>
      cases c <;> simp [riRun, ih]

theorem riRun_push (w : GWindow) (h : riRun w ≤ 15) :
    riRun (gPush .regional_indicator w) = riRun w + 1 := by
  simp only [gPush, riRun, riRun_take, windowSize]; omega

theorem ri_break (w : GWindow) (n : GClass) (hn : n = .any ∨ n = .regional_indicator) :
    gShouldBreak (gPush .regional_indicator w) n =
      !(decide (riRun (gPush .regional_indicator w) % 2 ≠ 0) && decide (n = .regional_indicator)) := by
  rcases hn with rfl | rfl <;>
    simp [gShouldBreak, GB3, GB6, GB7, GB8, GB9, GB9a, GB9b, GB11, GB12_13, gHead, gPush]
  exact Bool.eq_iff_iff.2 (by simp)

theorem ri_clusters (w : GWindow) (cs : List Char) (h : ∀ c ∈ cs, isRI c)
    (hk : riRun w % 2 = 0) (hl : riRun w + cs.length ≤ 17) :
    clustersFrom w [] cs = pairUp cs := by
  fun_induction pairUp cs generalizing w with
  | case1 => rfl
  | case2 c =>
    simp only [clustersFrom, nextC, ri_class c (h c (by simp)), ri_break w .any (by simp)]
    simp
  | case3 c d r ih =>
    have hc := ri_class c (h c (by simp))
    have hd := ri_class d (h d (by simp))
    simp only [List.length_cons] at hl
    have e1 : riRun (gPush .regional_indicator w) = riRun w + 1 := riRun_push w (by omega)
    rw [clustersFrom]
    simp only [hc, show nextC (d :: r) = .regional_indicator from hd, ri_break w _ (Or.inr rfl)]
    rw [e1, show (riRun w + 1) % 2 = 1 by omega]
    simp only [ne_eq, Nat.one_ne_zero, not_false_eq_true, decide_true, Bool.and_self, Bool.not_true,
      Bool.false_eq_true, if_false, List.nil_append]
    have hn : nextC r = .any ∨ nextC r = .regional_indicator := by
      cases r with
      | nil => simp [nextC]
      | cons x r => right; exact ri_class x (h x (by simp))
    rw [clustersFrom]
    simp only [hd, ri_break _ _ hn]
    cases r with
    | nil => simp [nextC, clustersFrom, pairUp]
    | cons x r =>
      simp only [List.length_cons] at hl
      have e2 : riRun (gPush .regional_indicator (gPush .regional_indicator w)) = riRun w + 2 := by
        rw [riRun_push _ (by omega), e1]
      rw [e2, show (riRun w + 2) % 2 = 0 by omega]
      simp only [ne_eq, not_true, decide_false, Bool.false_and, Bool.not_false, if_true,
        List.cons_append, List.nil_append]
      rw [ih _ (fun y hy => h y (by simp at hy ⊢; right; right; exact hy)) (by omega)
        (by simp only [List.length_cons]; omega)]

/-- C44, the true part: a text of up to seventeen regional indicators is divided two by two.
Missing from the full statement: longer runs, for which it is false (`C44_false`). -/
theorem C44_pairs_partial (cs : List Char) (h : ∀ c ∈ cs, isRI c) (hl : cs.length ≤ 17) :
    graphemes (enc cs) = .ok ((pairUp cs).map enc) := by
  have hp : Plain cs := by
    intro c hc
    have := (h c hc).1
    simp only [leadDForEF, Bool.or_eq_false_iff, Bool.and_eq_false_iff, decide_eq_false_iff_not]
    omega
  rw [graphemes_enc hp, ri_clusters _ _ h (by decide) (by
    have : riRun gWindowInit = 0 := by decide
    omega)]

example : ∀ c ∈ "🇬🇧🇫🇷🇩".toList, isRI c := by decide

theorem ri_saturated (w : GWindow) (cs : List Char) (h : ∀ c ∈ cs, isRI c) (hk : riRun w = 16) :
    clustersFrom w [] cs = cs.map ([·]) := by
  induction cs generalizing w with
  | nil => rfl
  | cons c r ih =>
    have hn : nextC r = .any ∨ nextC r = .regional_indicator := by
      cases r with
      | nil => simp [nextC]
      | cons x r => right; exact ri_class x (h x (by simp))
    have e : riRun (gPush .regional_indicator w) = 16 := by
      simp only [gPush, riRun, riRun_take, windowSize]; omega
    rw [clustersFrom]
    simp only [ri_class c (h c (by simp)), ri_break w _ hn, e]
    simp only [ne_eq, Nat.reduceMod, not_true, decide_false, Bool.false_and, Bool.not_false, if_true,
      List.nil_append, List.map_cons]
    rw [ih _ (fun y hy => h y (by simp [hy])) e]

theorem ri_all (w : GWindow) (cs : List Char) (h : ∀ c ∈ cs, isRI c) (k : Nat)
    (hk : riRun w + 2 * k = 16) :
    clustersFrom w [] cs = pairUp (cs.take (2 * k)) ++ (cs.drop (2 * k)).map ([·]) := by
  induction k generalizing w cs with
  | zero => simpa [pairUp] using ri_saturated w cs h (by omega)
  | succ k ih =>
    match cs, h with
    | [], _ => rfl
    | [c], h =>
      simp only [clustersFrom, nextC, ri_class c (h c (by simp)), ri_break w .any (by simp)]
      simp [pairUp, Nat.mul_succ]
    | c :: d :: r, h =>
      have hc := ri_class c (h c (by simp))
      have hd := ri_class d (h d (by simp))
      have e1 : riRun (gPush .regional_indicator w) = riRun w + 1 := riRun_push w (by omega)
      have e2 : riRun (gPush .regional_indicator (gPush .regional_indicator w)) = riRun w + 2 := by
        rw [riRun_push _ (by omega), e1]
      have hn : nextC r = .any ∨ nextC r = .regional_indicator := by
        cases r with
        | nil => simp [nextC]
        | cons x r => right; exact ri_class x (h x (by simp))
      rw [clustersFrom]
      simp only [hc, show nextC (d :: r) = .regional_indicator from hd, ri_break w _ (Or.inr rfl)]
      rw [e1, show (riRun w + 1) % 2 = 1 by omega]
      simp only [ne_eq, Nat.one_ne_zero, not_false_eq_true, decide_true, Bool.and_self, Bool.not_true,
        Bool.false_eq_true, if_false, List.nil_append]
      rw [clustersFrom]
      simp only [hd, ri_break _ _ hn]
      rw [e2, show (riRun w + 2) % 2 = 0 by omega]
      simp only [ne_eq, not_true, decide_false, Bool.false_and, Bool.not_false, if_true,
        List.cons_append, List.nil_append]
      rw [ih _ _ (fun y hy => h y (by simp at hy ⊢; right; right; exact hy)) (by omega)]
      simp [Nat.mul_succ, pairUp]

/-- What becomes of a text of any number of regional indicators: the first sixteen are divided two by two,
all others stand alone. So C44 is false of every text of more than seventeen. -/
theorem C44_exact (cs : List Char) (h : ∀ c ∈ cs, isRI c) :
    graphemes (enc cs) = .ok ((pairUp (cs.take 16) ++ (cs.drop 16).map ([·])).map enc) := by
  have hp : Plain cs := by
    intro c hc
    have := (h c hc).1
    simp only [leadDForEF, Bool.or_eq_false_iff, Bool.and_eq_false_iff, decide_eq_false_iff_not]
    omega
  rw [graphemes_enc hp, ri_all _ _ h 8 (by decide)]

example : graphemes (enc (List.replicate 19 '🇬')) =
      .ok ((List.replicate 8 (enc ['🇬', '🇬'])) ++ [enc ['🇬'], enc ['🇬'], enc ['🇬']]) := by
  decide +kernel

/-- C44 is false for longer runs: the window of sixteen code points loses the parity, and eighteen
regional indicators are divided into eight pairs and two singles. -/
theorem C44_false :
    graphemes (enc (List.replicate 18 '🇬')) =
      .ok ((List.replicate 8 (enc ['🇬', '🇬'])) ++ [enc ['🇬'], enc ['🇬']]) := by
  decide +kernel

end ArgRouter.Props
