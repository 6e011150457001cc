import Verif.Spec.Uax14
import Verif.Props.Line
import Verif.Props.Tables

/-! # C97: lines end where UAX 14 allows it -/

namespace ArgRouter.Props

open ArgRouter.Utf8 ArgRouter.Spec ArgRouter.Spec.Uax14

namespace Lb

theorem lClass_eq (c : Char) : lClass c.toNat = classOf c := by
  have ht := C38_shipped_tables.2.2.2.2
  unfold lClass classOf
  cases hf : findRange lineTable c.toNat with
  | none =>
    have := (C38_lookup_none _ ht _).1 hf
    rw [List.find?_eq_none.2 (fun r hr => by simpa using this r hr)]
  | some r =>
    obtain ⟨h1, h2, h3⟩ := (C38_lookup _ ht _ _).1 hf
    cases hg : lineTable.find? fun r => decide (r.first ≤ c.toNat ∧ c.toNat ≤ r.last) with
    | none =>
      have := List.find?_eq_none.1 hg r h1
      simp only [decide_eq_true_eq] at this
      exact absurd ⟨h2, h3⟩ this
    | some q =>
      have h4 := List.find?_some hg
      have h5 := List.mem_of_find?_eq_some hg
      have := (C38_lookup _ ht c.toNat q).2 ⟨h5, by simpa using h4⟩
      rw [hf] at this
      cases this
      rfl

/-! ## One decision -/

/-- The library's decision, from what it depends on. -/
def codeD (p n : LClass) (f : Option LClass) (s r : Bool) : Bool :=
  !(LB6 [p] n || LB7 [p] n || LB8a_9 [p] n || LB11 [p] n || LB12 [p] n || LB12a [p] n || LB13 [p] n ||
    f == some .OP || (f == some .QU && n == .OP) || ((f == some .CL || f == some .CP) && n == .NS) ||
    (f == some .B2 && n == .B2) || LB19 [p] n || LB21 [p] n || (s && (p == .HY || p == .BA)) ||
    LB21b [p] n || LB22 [p] n || LB23 [p] n || LB23a [p] n || LB24 [p] n || LB25 [p] n || LB26 [p] n ||
    LB27 [p] n || LB28 [p] n || LB29 [p] n || LB30 [p] n || (r && n == .RI) || LB30b [p] n)

theorem code_eq (p : LClass) (w : LWindow) (n : LClass) : lShouldBreak (p :: w) n =
    codeD p n (firstNonSP (p :: w)) (w.headD .any == .HL) (lriRun (p :: w) % 2 != 0) := by
  simp only [lShouldBreak, lineRules, codeD, List.any_cons, List.any_nil, Bool.or_false, Bool.or_assoc]
  rfl

/-- The decision of the rules, from what it depends on, at the places considered. -/
def specD (l n : LClass) (f : Option LClass) (s r : Bool) : Bool :=
  if n = .BK ∨ n = .CR ∨ n = .LF ∨ n = .NL then false
  else if n = .SP ∨ n = .ZW then false
  else if l = .WJ ∨ n = .WJ then false
  else if l = .GL then false
  else if l ≠ .SP ∧ l ≠ .BA ∧ l ≠ .HY ∧ n = .GL then false
  else if n = .CL ∨ n = .CP ∨ n = .EX ∨ n = .IS ∨ n = .SY then false
  else if f = some .OP then false
  else if f = some .QU ∧ n = .OP then false
  else if (f = some .CL ∨ f = some .CP) ∧ n = .NS then false
  else if f = some .B2 ∧ n = .B2 then false
  else if l = .SP then true
  else if l = .QU ∨ n = .QU then false
  else if n = .BA ∨ n = .HY ∨ n = .NS ∨ l = .BB then false
  else if (l = .HY ∨ l = .BA) ∧ s = true then false
  else if n = .IN_ then false
  else if (l = .AL ∨ l = .HL ∨ l = .NU) ∧ n = .OP then false
  else if l = .CP ∧ (n = .AL ∨ n = .HL ∨ n = .NU) then false
  else if n = .RI ∧ r = true then false
  else !(pairs.any fun p => p.1.contains l && p.2.contains n)

def allClasses : List LClass := (List.range 39).map LClass.ofMeta

theorem mem_allClasses (c : LClass) : c ∈ allClasses := by cases c <;> decide

def usualPair (l n : LClass) : Bool :=
  !([.any, .CM, .ZWJ, .CB].contains l) && !([.any, .CM, .ZWJ, .CB].contains n) &&
    !([.BK, .CR, .LF, .NL].contains l) &&
    !(l == .SP && [.QU, .BA, .HY, .NS, .IN_].contains n)

theorem check_plain : (allClasses.all fun l => allClasses.all fun n => [true, false].all fun s =>
    [true, false].all fun r => !usualPair l n || l == .SP || l == .ZW ||
      (codeD l n (some l) s r == specD l n (some l) s r)) = true := by decide +kernel

theorem check_space : (allClasses.all fun n => (none :: allClasses.map some).all fun f =>
    [true, false].all fun s => [true, false].all fun r => !usualPair .SP n ||
      (codeD .SP n f s r == specD .SP n f s r || (n == .RI && r))) = true := by decide +kernel

theorem decide_eq (l n : LClass) (f : Option LClass) (s r : Bool) (hu : usualPair l n = true)
    (hz : l ≠ .ZW) (hf : l ≠ .SP → f = some l) (hr : l = .SP → r = false) :
    codeD l n f s r = specD l n f s r := by
  have hb : ∀ x : Bool, x ∈ [true, false] := by intro x; cases x <;> simp
  by_cases hl : l = .SP
  · have h := check_space
    simp only [List.all_eq_true] at h
    have := h n (mem_allClasses n) f (by
      cases f with
      | none => exact List.mem_cons_self ..
      | some f => exact List.mem_cons_of_mem _ (List.mem_map.2 ⟨f, mem_allClasses f, rfl⟩))
      s (hb s) r (hb r)
    rw [hr hl] at this ⊢
    subst hl
    simpa [hu] using this
  · have h := check_plain
    simp only [List.all_eq_true] at h
    have := h l (mem_allClasses l) n (mem_allClasses n) s (hb s) r (hb r)
    rw [hf hl]
    simpa [hu, hl, hz] using this

theorem resolve_id : ∀ {before : List Item},
    (∀ i ∈ before, i.cls ≠ .any ∧ i.cls ≠ .CM ∧ i.cls ≠ .ZWJ) → resolve before = before
  | [], _ => rfl
  | i :: before, h => by
    obtain ⟨h1, h2, h3⟩ := h i (List.mem_cons_self ..)
    have hm : isMark i = false := by simp [isMark, h2, h3]
    rw [resolve, if_neg (by simp [hm]), resolve_id fun j hj => h j (List.mem_cons_of_mem _ hj), known,
      if_neg h1]

theorem spec_eq {last : Item} {earlier : List Item} {next : Item} (hu : Usual (last :: earlier) next) :
    allowed (last :: earlier) next = specD last.cls next.cls (beforeSpaces (last :: earlier))
      (earlier.head?.map Item.cls == some .HL) (indicators (last :: earlier) % 2 == 1) := by
  obtain ⟨c1, c2, c3⟩ := hu.classes next (List.mem_cons_self ..)
  obtain ⟨d1, d2, d3⟩ := hu.classes last (List.mem_cons_of_mem _ (List.mem_cons_self ..))
  obtain ⟨e1, e2, e3, e4, e5⟩ := hu.last last rfl
  have hm : isMark next = false := by simp [isMark, c2, c3]
  have hn : known next = next := by rw [known, if_neg c1]
  rw [allowed, resolve_id fun i hi => hu.classes i (List.mem_cons_of_mem _ hi)]
  rw [if_neg (by simp [e2]), if_neg (by simp [e1, e2, e3, e4])]
  simp only [hu.zero, d3, hm, hn, Bool.false_eq_true, false_and, if_false]
  unfold specD allowedResolved
  simp only [hu.object, e5, false_or, if_false, beq_iff_eq]
  by_cases ho : next.cls = .OP
  · by_cases hc : last.cls = .CP
    · simp [ho, hc, hu.wide ho, hu.wide' last rfl hc]
    · simp [ho, hc, hu.wide ho]
  · by_cases hc : last.cls = .CP
    · simp [ho, hc, hu.wide' last rfl hc]
    · simp [ho, hc]

/-! ## Windows -/

theorem winAfter_eq (cs : List Char) : ∀ (w : LWindow), w.length ≤ 16 →
    winAfter w cs = ((cs.map classOf).reverse ++ w).take 16 := by
  induction cs with
  | nil => intro w hw; simp [winAfter, List.take_of_length_le hw]
  | cons c cs ih =>
    intro w hw
    rw [winAfter, ih _ (by simp [lPush]; omega), lClass_eq, lPush]
    rw [show ((c :: cs).map classOf).reverse ++ w = (cs.map classOf).reverse ++ (classOf c :: w) by simp]
    rw [List.take_append, List.take_append]
    congr 1
    have hk : 16 - (cs.map classOf).reverse.length ≤ 16 := by omega
    generalize 16 - (cs.map classOf).reverse.length = k at hk
    cases k with
    | zero => simp
    | succ k =>
      rw [List.take_succ_cons, List.take_succ_cons, List.take_take, Nat.min_eq_left (by omega)]

/-- The library's search for the class before the spaces. -/
theorem firstNonSP_window : ∀ (h : List Item) (w : LWindow) (k : Nat),
    ¬ ((h.take k).length = k ∧ ∀ i ∈ h.take k, i.cls = .SP) →
    firstNonSP ((h.map Item.cls ++ w).take k) =
      (match beforeSpaces h with
       | some x => some x
       | none => firstNonSP (w.take (k - h.length)))
  | [], w, k, _ => by simp [beforeSpaces]
  | i :: h, w, 0, hk => absurd ⟨rfl, fun _ hi => by cases hi⟩ hk
  | i :: h, w, k + 1, hk => by
    rw [List.map_cons, List.cons_append, List.take_succ_cons]
    by_cases hi : i.cls = .SP
    · rw [hi, firstNonSP, beforeSpaces, if_pos hi, firstNonSP_window h w k, List.length_cons,
        Nat.add_sub_add_right]
      rintro ⟨h1, h2⟩
      exact hk ⟨by simp at h1 ⊢; omega, by simpa [hi] using h2⟩
    · rw [beforeSpaces, if_neg hi]
      generalize i.cls = c at hi
      cases c <;> first | rfl | exact absurd rfl hi

theorem lriRun_window : ∀ (h : List Item) (k m : Nat),
    lriRun ((h.map Item.cls ++ List.replicate m LClass.any).take k) = min (indicators h) k
  | [], k, m => by
    cases k <;> cases m <;> simp [lriRun, indicators, List.replicate]
  | i :: h, 0, m => by simp [lriRun]
  | i :: h, k + 1, m => by
    rw [List.map_cons, List.cons_append, List.take_succ_cons, indicators]
    by_cases hi : i.cls = .RI
    · rw [hi, lriRun, lriRun_window h k m, if_pos rfl]
      omega
    · rw [if_neg hi]
      generalize i.cls = c at hi
      cases c <;> first | exact absurd rfl hi | simp [lriRun]

theorem codeD_congr {p n : LClass} {f f' : Option LClass} {s s' r r' : Bool}
    (hf : ∀ x ∈ [LClass.OP, .QU, .CL, .CP, .B2], f = some x ↔ f' = some x)
    (hs : p = .HY ∨ p = .BA → s = s') (hr : n = .RI → r = r') :
    codeD p n f s r = codeD p n f' s' r' := by
  have hb : ∀ x ∈ [LClass.OP, .QU, .CL, .CP, .B2], (f == some x) = (f' == some x) := by
    intro x hx
    have := hf x hx
    by_cases h : f = some x
    · rw [beq_iff_eq.2 h, beq_iff_eq.2 (this.1 h)]
    · rw [beq_eq_false_iff_ne.2 h, beq_eq_false_iff_ne.2 fun e => h (this.2 e)]
  have h1 : (s && (p == .HY || p == .BA)) = (s' && (p == .HY || p == .BA)) := by
    by_cases h : p = .HY ∨ p = .BA
    · rw [hs h]
    · have : (p == .HY || p == .BA) = false := by simpa using h
      rw [this, Bool.and_false, Bool.and_false]
  have h2 : (r && n == .RI) = (r' && n == .RI) := by
    by_cases h : n = .RI
    · rw [hr h]
    · have : (n == .RI) = false := by simpa using h
      rw [this, Bool.and_false, Bool.and_false]
  unfold codeD
  rw [h1, h2, hb _ (by simp), hb _ (by simp), hb _ (by simp), hb _ (by simp), hb _ (by simp)]

theorem usual_pair {last : Item} {earlier : List Item} {next : Item}
    (hu : Usual (last :: earlier) next) : usualPair last.cls next.cls = true := by
  obtain ⟨c1, c2, c3⟩ := hu.classes next (List.mem_cons_self ..)
  obtain ⟨d1, d2, d3⟩ := hu.classes last (List.mem_cons_of_mem _ (List.mem_cons_self ..))
  obtain ⟨e1, e2, e3, e4, e5⟩ := hu.last last rfl
  have hs := hu.space last rfl
  have ho := hu.object
  unfold usualPair
  by_cases h : last.cls = .SP
  · obtain ⟨s1, s2, s3, s4, s5⟩ := hs h
    simp [c1, c2, c3, d1, d2, d3, e1, e2, e3, e4, e5, ho, h, s1, s2, s3, s4, s5]
  · simp [c1, c2, c3, d1, d2, d3, e1, e2, e3, e4, e5, ho, h]

theorem beforeSpaces_cons {last : Item} (earlier : List Item) (h : last.cls ≠ .SP) :
    beforeSpaces (last :: earlier) = some last.cls := by rw [beforeSpaces, if_neg h]

/-- The library decides as the rules if its window has what the rules look at. -/
theorem window_decides {last : Item} {earlier : List Item} {next : Item} {w : LWindow}
    (hu : Usual (last :: earlier) next)
    (hf : ∀ x ∈ [LClass.OP, .QU, .CL, .CP, .B2], firstNonSP (last.cls :: w) = some x ↔
      beforeSpaces (last :: earlier) = some x)
    (hs : last.cls = .HY ∨ last.cls = .BA → (w.headD .any = .HL ↔
      earlier.head?.map Item.cls = some .HL))
    (hr : next.cls = .RI → lriRun (last.cls :: w) = indicators (last :: earlier)) :
    lShouldBreak (last.cls :: w) next.cls = allowed (last :: earlier) next := by
  rw [code_eq, spec_eq hu, ← decide_eq _ _ _ _ _ (usual_pair hu)]
  · refine codeD_congr hf (fun h => ?_) (fun h => ?_)
    · have := hs h
      by_cases e : w.headD .any = .HL
      · rw [beq_iff_eq.2 e, beq_iff_eq.2 (this.1 e)]
      · rw [beq_eq_false_iff_ne.2 e, beq_eq_false_iff_ne.2 fun h => e (this.2 h)]
    · rw [hr h]
      generalize indicators (last :: earlier) = k
      rcases Nat.mod_two_eq_zero_or_one k with h | h <;> rw [h] <;> rfl
  · intro h
    exact hu.zero (by rw [beforeSpaces_cons _ (by rw [h]; decide), h])
  · intro h
    exact beforeSpaces_cons _ h
  · intro h
    rw [indicators, if_neg (by rw [h]; decide)]
    rfl

/-! ## Where lines end -/

theorem widthC_take_le (t : List Char) {i j : Nat} (h : i ≤ j) : widthC (t.take i) ≤ widthC (t.take j) := by
  have : t.take j = t.take i ++ (t.take j).drop i := by
    conv => lhs; rw [← List.take_append_drop i (t.take j)]
    rw [List.take_take, Nat.min_eq_left h]
  rw [this, widthC_append]
  omega

/-- The number of characters a scan returns. -/
theorem lLoopC_ends (maxCols : Nat) (t : List Char) (w0 : LWindow) :
    ∀ (cs pre : List Char), t = pre ++ cs → ∀ lbn, lbn ≤ pre.length → widthC pre ≤ maxCols →
      (lbn ≠ 0 → Opportunity w0 (t.take lbn) (t.drop lbn)) →
      (∀ i, lbn < i → i ≤ pre.length → ¬ Opportunity w0 (t.take i) (t.drop i)) →
      let k := (lLoopC maxCols t.length cs (widthC pre) pre.length (widthC (t.take lbn)) lbn
        (winAfter w0 pre)).1
      (k = t.length ∧ widthC t ≤ maxCols) ∨ (k < t.length ∧ maxCols < widthC t ∧
        widthC (t.take k) ≤ maxCols ∧
        ((Opportunity w0 (t.take k) (t.drop k) ∧ 0 < widthC (t.take k) ∧
          ∀ i, k < i → Opportunity w0 (t.take i) (t.drop i) → maxCols < widthC (t.take i)) ∨
        ((∀ i, Opportunity w0 (t.take i) (t.drop i) →
            widthC (t.take i) = 0 ∨ maxCols < widthC (t.take i)) ∧
          maxCols < widthC (t.take (k + 1))))) := by
  intro cs
  induction cs with
  | nil =>
    intro pre hpre lbn _ hw _ _
    left
    rw [List.append_nil] at hpre
    subst hpre
    exact ⟨rfl, hw⟩
  | cons c cs ih =>
    intro pre hpre lbn hlb hwp hopp hno
    have htake : t.take pre.length = pre := by rw [hpre, List.take_left]
    have hlt : pre.length < t.length := by rw [hpre]; simp
    have htake' : t.take (pre.length + 1) = pre ++ [c] := by
      rw [hpre, show pre.length + 1 = (pre ++ [c]).length by simp,
        show pre ++ c :: cs = (pre ++ [c]) ++ cs by simp, List.take_left]
    have hdrop' : t.drop (pre.length + 1) = cs := by
      rw [hpre, show pre.length + 1 = (pre ++ [c]).length by simp,
        show pre ++ c :: cs = (pre ++ [c]) ++ cs by simp, List.drop_left]
    have hwc : widthC (pre ++ [c]) = widthC pre + colW c := by
      rw [widthC_append]; simp [widthC]
    rw [lLoopC]
    by_cases hcol : widthC pre + colW c > maxCols
    · simp only [if_pos hcol]
      right
      have hlater : ∀ i, pre.length < i → maxCols < widthC (t.take i) := by
        intro i hi
        have := widthC_take_le t (i := pre.length + 1) (j := i) (by omega)
        rw [htake', hwc] at this
        omega
      have hall : maxCols < widthC t := by
        have := hlater t.length hlt
        rwa [List.take_length] at this
      by_cases hl : widthC (t.take lbn) = 0
      · rw [if_pos hl]
        refine ⟨hlt, hall, by rw [htake]; exact hwp, .inr ⟨?_, hlater _ (by omega)⟩⟩
        intro i hi
        by_cases h1 : i ≤ pre.length
        · by_cases h2 : lbn < i
          · exact absurd hi (hno i h2 h1)
          · have := widthC_take_le t (i := i) (j := lbn) (by omega)
            exact .inl (by omega)
        · exact .inr (hlater i (by omega))
      · rw [if_neg hl]
        refine ⟨by omega, hall, ?_, .inl ⟨?_, by omega, ?_⟩⟩
        · have := widthC_take_le t hlb
          rw [htake] at this
          omega
        · apply hopp
          intro h0; subst h0; simp [widthC] at hl
        · intro i h1 h2
          by_cases h3 : i ≤ pre.length
          · exact absurd h2 (hno i h1 h3)
          · exact hlater i (by omega)
    · simp only [if_neg hcol]
      have hpre' : t = (pre ++ [c]) ++ cs := by rw [hpre]; simp
      have hlen : (pre ++ [c]).length = pre.length + 1 := by simp
      have hwin : lPush (lClass c.toNat) (winAfter w0 pre) = winAfter w0 (pre ++ [c]) := by
        rw [winAfter_append]; rfl
      by_cases hs : lShouldBreak (lPush (lClass c.toNat) (winAfter w0 pre)) (lNextC cs) = true
      · simp only [if_pos hs]
        have := ih (pre ++ [c]) hpre' (pre.length + 1) (by simp) (by rw [hwc]; omega)
          (by
            intro _
            refine ⟨by rw [htake']; simp, ?_⟩
            rw [htake', hdrop', ← hwin]
            exact (shouldBreak_iff _ _).1 hs)
          (by intro i h1 h2; rw [hlen] at h2; omega)
        rw [hlen, htake', hwc, ← hwin] at this
        exact this
      · simp only [if_neg hs]
        have := ih (pre ++ [c]) hpre' lbn (by rw [hlen]; omega) (by rw [hwc]; omega) hopp
          (by
            intro i h1 h2
            rw [hlen] at h2
            rcases Nat.lt_or_ge pre.length i with h3 | h3
            · have : i = pre.length + 1 := by omega
              subst this
              rintro ⟨-, ho⟩
              rw [htake', hdrop', ← hwin] at ho
              exact hs ((shouldBreak_iff _ _).2 ho)
            · exact hno i h1 h3)
        rw [hlen, hwc, ← hwin] at this
        exact this

/-- Where a line ends, with the rules as the library sees them. -/
theorem scanC_ends {maxCols : Nat} {line after : List Char} {w : LWindow}
    (hpl : Plain (line ++ after)) (hlen : line.length = (scanC maxCols (line ++ after) w).1)
    (hne : line ≠ []) {opp : List Char → List Char → Prop}
    (hopp : ∀ l a, l ++ a = line ++ after → a ≠ [] → (Opportunity w l a ↔ opp l a))
    (hend : ∀ l, ¬ opp l []) : EndsAt columns opp maxCols line after := by
  have key := lLoopC_ends maxCols (line ++ after) w (line ++ after) [] rfl 0 (by simp) (by simp [widthC])
    (by simp) (by intro i h1 h2; simp at h2; omega)
  have hlen' : (lLoopC maxCols (line ++ after).length (line ++ after) (widthC []) ([] : List Char).length
      (widthC ((line ++ after).take 0)) 0 (winAfter w [])).1 = line.length := hlen.symm
  simp only [hlen', List.take_left, List.drop_left] at key
  have hsub : ∀ l a, l ++ a = line ++ after → widthC l = (l.map columns).sum := by
    intro l a e
    exact widthC_eq fun c hc => hpl c (by rw [← e]; exact List.mem_append_left _ hc)
  have hsplit : ∀ l a, l ++ a = line ++ after →
      (line ++ after).take l.length = l ∧ (line ++ after).drop l.length = a := by
    intro l a e
    rw [← e]
    exact ⟨List.take_left, List.drop_left⟩
  have hw := hsub line after rfl
  have hw' := hsub (line ++ after) [] (by simp)
  rcases key with ⟨h1, h2⟩ | ⟨h1, h2, h3, h4⟩
  · have : after = [] := by
      rw [List.length_append] at h1
      exact List.length_eq_zero_iff.1 (by omega)
    subst this
    exact .whole rfl hne (by rw [← hw]; simpa using h2)
  · rw [hw'] at h2
    rw [hw] at h3
    have hane : after ≠ [] := by rintro rfl; simp at h1
    rcases h4 with ⟨h4, h5, h6⟩ | ⟨h4, h5⟩
    · rw [hw] at h5
      refine .opportunity h2 ((hopp _ _ rfl hane).1 h4) h5 h3 ?_
      intro more after' hm he ho
      have e : (line ++ more) ++ after' = line ++ after := by rw [← he, List.append_assoc]
      have h7 := h6 (line ++ more).length (by
        rw [List.length_append]
        have := List.length_pos_iff.2 hm
        omega)
      rw [(hsplit _ _ e).1, (hsplit _ _ e).2, hsub _ _ e] at h7
      refine h7 ((hopp _ _ e ?_).2 ho)
      rintro rfl
      exact hend _ ho
    · refine .full h2 hne ?_ h3 ?_
      · intro l a e ho
        have h7 := h4 l.length
        rw [(hsplit _ _ e).1, (hsplit _ _ e).2, hsub _ _ e] at h7
        refine h7 ((hopp _ _ e ?_).2 ho)
        rintro rfl
        exact hend _ ho
      · cases after with
        | nil => exact absurd rfl hane
        | cons c after =>
          refine ⟨c, rfl, ?_⟩
          have e : (line ++ [c]) ++ after = line ++ c :: after := by simp
          have h8 := (hsplit _ _ e).1
          rw [List.length_append, List.length_singleton] at h8
          rw [h8, hsub _ _ e] at h5
          exact h5

/-! ## The window on texts -/

theorem classOf_space {c : Char} (h : classOf c = .SP) : c = ' ' := by
  have table : lineTable.all (fun r => LClass.ofMeta r.md != .SP || (r.first == 32 && r.last == 32))
      = true := by decide +kernel
  unfold classOf at h
  split at h
  · rename_i r hr
    have h1 := List.find?_some hr
    have h2 := List.all_eq_true.1 table r (List.mem_of_find?_eq_some hr)
    simp [h] at h2
    simp [h2] at h1
    have h3 : c.toNat = 32 := by omega
    exact Char.ext (UInt32.toNat_inj.1 h3)
  · cases h

theorem space_class' : classOf ' ' = .SP := by decide +kernel

theorem itemOf_cls (cs : List Char) : (cs.map itemOf).map Item.cls = cs.map classOf := by
  rw [List.map_map]
  rfl

theorem lLoopC_window (maxCols total : Nat) : ∀ (cs : List Char) (a n l m : Nat) (w : LWindow),
    w.length ≤ 16 → (lLoopC maxCols total cs a n l m w).2.length ≤ 16 ∧
      ∀ x ∈ (lLoopC maxCols total cs a n l m w).2, x ∈ w ∨ ∃ c ∈ cs, classOf c = x
  | [], a, n, l, m, w, hw => ⟨hw, fun x hx => .inl hx⟩
  | c :: cs, a, n, l, m, w, hw => by
    rw [lLoopC]
    split
    · exact ⟨hw, fun x hx => .inl hx⟩
    · have hw' : (lPush (lClass c.toNat) w).length ≤ 16 := by simp [lPush]; omega
      have step : ∀ x, (x ∈ lPush (lClass c.toNat) w ∨ ∃ c ∈ cs, classOf c = x) →
          x ∈ w ∨ ∃ d ∈ c :: cs, classOf d = x := by
        rintro x (h | ⟨d, hd, h⟩)
        · rw [lPush, lClass_eq] at h
          rcases List.mem_cons.1 h with h | h
          · exact .inr ⟨c, List.mem_cons_self .., h.symm⟩
          · exact .inl (List.mem_of_mem_take h)
        · exact .inr ⟨d, List.mem_cons_of_mem _ hd, h⟩
      simp only []
      split
      · obtain ⟨h1, h2⟩ := lLoopC_window maxCols total cs (a + colW c) (n + 1) (a + colW c) (n + 1) _ hw'
        exact ⟨h1, fun x hx => step x (h2 x hx)⟩
      · obtain ⟨h1, h2⟩ := lLoopC_window maxCols total cs (a + colW c) (n + 1) l m _ hw'
        exact ⟨h1, fun x hx => step x (h2 x hx)⟩

theorem opportunity_iff {w : LWindow} {l : List Char} {c : Char} {a : List Char} (hl : l ≠ []) :
    Opportunity w l (c :: a) ↔ lShouldBreak (winAfter w l) (itemOf c).cls = true := by
  rw [shouldBreak_iff, Opportunity, lNextC, lClass_eq]
  exact ⟨fun h => h.2, fun h => ⟨hl, h⟩⟩

theorem firstNonSP_init (k : Nat) : ∀ x ∈ [LClass.OP, .QU, .CL, .CP, .B2],
    firstNonSP (lWindowInit.take k) ≠ some x := by
  intro x hx
  rcases firstNonSP_take lWindowInit k with h | h <;> rw [h]
  · simp
  · rw [show firstNonSP lWindowInit = some .any by decide]
    rintro ⟨⟩
    revert hx
    decide

/-- On the first line the window has what the rules look at. -/
theorem first_line_decides {l : List Char} {c : Char} {a : List Char} (hl : l ≠ [])
    (hu : Usual (l.reverse.map itemOf) (itemOf c)) :
    Opportunity lWindowInit l (c :: a) ↔ CanEnd [] l (c :: a) := by
  rw [opportunity_iff hl, winAfter_eq _ _ (by decide)]
  have key : lShouldBreak (((l.map classOf).reverse ++ lWindowInit).take 16) (itemOf c).cls =
      allowed (l.reverse.map itemOf) (itemOf c) := by
    rw [← List.map_reverse, ← itemOf_cls]
    have hne : l.reverse.map itemOf ≠ [] := by simpa using hl
    generalize l.reverse.map itemOf = h at hu hne
    have hf := firstNonSP_window h lWindowInit 16 hu.spaces
    have hr := lriRun_window h 16 16
    rw [Nat.min_eq_left hu.flags] at hr
    change lriRun (List.take 16 (_ ++ lWindowInit)) = _ at hr
    cases h with
    | nil => exact absurd rfl hne
    | cons last earlier =>
      rw [List.map_cons, List.cons_append, List.take_succ_cons] at hf hr ⊢
      refine window_decides hu (fun x hx => ?_) (fun _ => ?_) (fun _ => hr)
      · rw [hf]
        cases beforeSpaces (last :: earlier) with
        | some y => rfl
        | none => exact ⟨fun e => absurd e (firstNonSP_init _ x hx), fun e => by cases e⟩
      · cases earlier with
        | nil => simp [lWindowInit]
        | cons e earlier => simp
  rw [key, CanEnd]
  simp [hl]

theorem beforeSpaces_mem : ∀ {h : List Item} {x : LClass}, beforeSpaces h = some x → ∃ i ∈ h, i.cls = x
  | [], _, e => by cases e
  | i :: h, x, e => by
    rw [beforeSpaces] at e
    split at e
    · obtain ⟨j, hj, h1⟩ := beforeSpaces_mem e
      exact ⟨j, List.mem_cons_of_mem _ hj, h1⟩
    · exact ⟨i, List.mem_cons_self .., Option.some.inj e⟩

theorem beforeSpaces_append : ∀ {h : List Item} {x : LClass} (h' : List Item),
    beforeSpaces h = some x → beforeSpaces (h ++ h') = some x
  | [], _, _, e => by cases e
  | i :: h, x, h', e => by
    rw [beforeSpaces] at e
    rw [List.cons_append, beforeSpaces]
    split at e
    · rw [if_pos (by assumption)]
      exact beforeSpaces_append h' e
    · rw [if_neg (by assumption)]
      exact e

theorem beforeSpaces_none : ∀ {h : List Item}, beforeSpaces h = none → ∀ i ∈ h, i.cls = .SP
  | [], _, i, hi => by cases hi
  | j :: h, e, i, hi => by
    rw [beforeSpaces] at e
    split at e
    · rcases List.mem_cons.1 hi with rfl | hi
      · assumption
      · exact beforeSpaces_none e i hi
    · cases e

theorem usualText_usual {l : List Char} {c : Char} {a : List Char} (hl : l ≠ [])
    (hu : UsualText (l ++ c :: a)) : Usual (l.reverse.map itemOf) (itemOf c) := by
  have hmem : ∀ d ∈ l, classOf d ∉ [LClass.any, .CM, .ZWJ, .BK, .CR, .LF, .NL, .ZW, .CB, .RI, .HL] :=
    fun d hd => hu.classes d (List.mem_append_left _ hd)
  have hc := hu.classes c (by simp)
  have hit : ∀ i ∈ l.reverse.map itemOf, ∃ d ∈ l, itemOf d = i := by
    intro i hi
    obtain ⟨d, hd, e⟩ := List.mem_map.1 hi
    exact ⟨d, List.mem_reverse.1 hd, e⟩
  have hhead : ∀ i ∈ (l.reverse.map itemOf).head?, ∃ d b, l = b ++ [d] ∧ itemOf d = i := by
    intro i hi
    rcases List.eq_nil_or_concat l with rfl | ⟨b, d, rfl⟩
    · exact absurd rfl hl
    · simp at hi
      exact ⟨d, b, by simp, hi⟩
  have hcls : ∀ d, (itemOf d).cls = classOf d := fun _ => rfl
  refine ⟨?_, ?_, ?_, ?_, ?_, ?_, ?_, ?_, ?_⟩
  · intro i hi
    rcases List.mem_cons.1 hi with rfl | hi
    · simp only [hcls]
      simp at hc
      simp [hc]
    · obtain ⟨d, hd, rfl⟩ := hit i hi
      have := hmem d hd
      simp only [hcls]
      simp at this
      simp [this]
  · intro i hi
    obtain ⟨d, b, rfl, rfl⟩ := hhead i hi
    have := hmem d (by simp)
    simp only [hcls]
    simp at this
    simp [this]
  · simp only [hcls]
    simp at hc
    simp [hc]
  · intro e
    obtain ⟨i, hi, h1⟩ := beforeSpaces_mem e
    obtain ⟨d, hd, rfl⟩ := hit i hi
    have := hmem d hd
    rw [hcls] at h1
    rw [h1] at this
    simp at this
  · intro i hi h1
    obtain ⟨d, b, rfl, rfl⟩ := hhead i hi
    have h2 := hu.afterSpace b a c (by rw [← classOf_space h1]; simp)
    simp only [hcls]
    simp at h2
    simp [h2]
  · rintro ⟨h1, h2⟩
    have h3 : l.reverse.take 16 = List.replicate 16 ' ' := by
      refine List.eq_replicate_iff.2 ⟨?_, fun d hd => ?_⟩
      · rw [← List.map_take, List.length_map] at h1
        exact h1
      · refine classOf_space (h2 (itemOf d) ?_)
        rw [← List.map_take]
        exact List.mem_map_of_mem hd
    have h4 : l = (l.reverse.drop 16).reverse ++ List.replicate 16 ' ' := by
      have := congrArg List.reverse (List.take_append_drop 16 l.reverse)
      rw [List.reverse_append, h3, List.reverse_reverse, List.reverse_replicate] at this
      exact this.symm
    exact hu.spaces (l.reverse.drop 16).reverse (c :: a) (by rw [← h4])
  · have : indicators (l.reverse.map itemOf) = 0 := by
      cases hh : l.reverse.map itemOf with
      | nil => rfl
      | cons i h =>
        obtain ⟨d, b, rfl, rfl⟩ := hhead i (by rw [hh]; rfl)
        rw [indicators, if_neg]
        intro h1
        have := hmem d (by simp)
        rw [hcls] at h1
        rw [h1] at this
        simp at this
    omega
  · intro h1
    exact hu.brackets c (by simp) (.inl h1)
  · intro i hi h1
    obtain ⟨d, b, rfl, rfl⟩ := hhead i hi
    exact hu.brackets d (by simp) (.inr h1)

/-- On every line of a usual text the window has what the rules look at. -/
theorem line_decides {before l : List Char} {c : Char} {a : List Char} {w : LWindow} (hl : l ≠ [])
    (hu : UsualText (before ++ (l ++ c :: a))) (hw : w.length ≤ 16) (hHL : .HL ∉ w)
    (hstart : ∀ d ∈ l.head?, d ≠ ' ') :
    Opportunity w l (c :: a) ↔ CanEnd before l (c :: a) := by
  have hu' : UsualText ((before ++ l) ++ c :: a) := by rwa [List.append_assoc]
  have hus := usualText_usual (by simp [hl]) hu'
  rw [opportunity_iff hl, winAfter_eq _ _ hw]
  have hHLl : LClass.HL ∉ l.map classOf := by
    intro h
    obtain ⟨d, hd, e⟩ := List.mem_map.1 h
    have := hu.classes d (by simp [hd])
    rw [e] at this
    simp at this
  have key : lShouldBreak (((l.map classOf).reverse ++ w).take 16) (itemOf c).cls =
      allowed ((before ++ l).reverse.map itemOf) (itemOf c) := by
    have hRI : (itemOf c).cls ≠ .RI := by
      intro h
      have := hu.classes c (by simp)
      rw [show classOf c = .RI from h] at this
      simp at this
    have hno : ∀ i ∈ (before ++ l).reverse.map itemOf, i.cls ≠ .HL := by
      intro i hi h
      obtain ⟨d, hd, rfl⟩ := List.mem_map.1 hi
      have := hu'.classes d (List.mem_append_left _ (List.mem_reverse.1 hd))
      rw [show classOf d = .HL from h] at this
      simp at this
    have hns : beforeSpaces (l.reverse.map itemOf) ≠ none := by
      intro h
      cases l with
      | nil => exact hl rfl
      | cons d l =>
        have := beforeSpaces_none h (itemOf d) (by simp)
        exact hstart d rfl (classOf_space this)
    have hsp : ¬ (((l.reverse.map itemOf).take 16).length = 16 ∧
        ∀ i ∈ (l.reverse.map itemOf).take 16, i.cls = .SP) := by
      rintro ⟨h1, h2⟩
      refine hus.spaces ?_
      rw [List.reverse_append, List.map_append, List.take_append_of_le_length]
      · exact ⟨h1, h2⟩
      · rw [List.length_take] at h1
        omega
    have hHL' : ∀ x ∈ ((l.reverse.map itemOf).map Item.cls ++ w).take 16, x ≠ .HL := by
      rintro x hx rfl
      rcases List.mem_append.1 (List.mem_of_mem_take hx) with h | h
      · rw [itemOf_cls, List.map_reverse] at h
        exact hHLl (List.mem_reverse.1 h)
      · exact hHL h
    have hne : l.reverse.map itemOf ≠ [] := by simpa using hl
    rw [← List.map_reverse, ← itemOf_cls]
    rw [List.reverse_append, List.map_append] at hus hno ⊢
    generalize l.reverse.map itemOf = h at *
    generalize before.reverse.map itemOf = h' at *
    have hf := firstNonSP_window h w 16 hsp
    cases h with
    | nil => exact absurd rfl hne
    | cons last earlier =>
      rw [List.map_cons, List.cons_append, List.take_succ_cons] at hf hHL' ⊢
      rw [List.cons_append] at hus hno ⊢
      refine window_decides hus (fun x hx => ?_) (fun _ => ?_) (fun e => absurd e hRI)
      · rw [hf]
        cases hb : beforeSpaces (last :: earlier) with
        | some y =>
          have := beforeSpaces_append h' hb
          rw [List.cons_append] at this
          rw [this]
        | none => exact absurd hb hns
      · constructor
        · intro e
          cases hh : List.take 15 (List.map Item.cls earlier ++ w) with
          | nil => rw [hh] at e; cases e
          | cons y ys =>
            rw [hh] at e hHL'
            exact absurd e (hHL' y (by simp))
        · intro e
          cases hh : earlier ++ h' with
          | nil => rw [hh] at e; cases e
          | cons y ys =>
            rw [hh] at e hno
            exact absurd (Option.some.inj e) (hno y (by simp))
  rw [key, CanEnd]
  simp [hl]

/-- Wrapping is greedy wrapping by the rules. -/
theorem wraps_greedy {maxCols : Nat} {w : LWindow} {t : List Char} {ls : List (List Char)}
    (h : Wraps maxCols w t ls) : ∀ before, Plain t → UsualText (before ++ t) → w.length ≤ 16 →
    .HL ∉ w → (before = [] ∧ w = lWindowInit ∨ ∀ c ∈ t.head?, c ≠ ' ') →
    Greedy columns isUnicodeWhitespace CanEnd maxCols before t ls := by
  induction h with
  | nil => intro _ _ _ _ _ _; exact .nothing
  | @cons t line gap rest ls w heq hne hlen hgap hrest _ ih =>
    intro before hp hu hw hHL hst
    subst heq
    have h1 := Plain.append_iff.1 hp
    have h2 := Plain.append_iff.1 h1.1
    have hwin := lLoopC_window maxCols (line ++ gap ++ rest).length (line ++ gap ++ rest) 0 0 0 0 w hw
    refine .line ?_ (fun c hc => ?_) (fun c hc => ?_) (ih (before ++ line ++ gap) h1.2 ?_ hwin.1 ?_ ?_)
    · rw [List.append_assoc] at hp hlen hu hst
      refine scanC_ends hp hlen hne (fun l a e ha => ?_) (fun l h => ?_)
      · cases a with
        | nil => exact absurd rfl ha
        | cons c a =>
          by_cases hl : l = []
          · subst hl
            exact ⟨fun h => absurd rfl h.1, fun h => absurd rfl h.1⟩
          · rw [← e] at hu hst
            rcases hst with ⟨rfl, rfl⟩ | hst
            · exact first_line_decides hl (usualText_usual hl hu)
            · refine line_decides hl hu hw hHL (fun d hd => hst d ?_)
              cases l with
              | nil => exact absurd rfl hl
              | cons x l => exact hd
      · obtain ⟨_, c, hc, _⟩ := h
        cases hc
    · rw [← wsC_eq (h2.2 c hc)]; exact hgap c hc
    · rw [← wsC_eq (h1.2 c (List.mem_of_mem_head? hc))]; exact hrest c hc
    · rwa [← List.append_assoc, ← List.append_assoc] at hu
    · intro hh
      rcases hwin.2 _ hh with h | ⟨c, hc, e⟩
      · exact hHL h
      · have := hu.classes c (List.mem_append_right _ hc)
        rw [e] at this
        simp at this
    · right
      rintro c hc rfl
      have := hrest ' ' hc
      revert this
      decide +kernel

end Lb

open Lb

/-! ## C97 – lines end where the rules of UAX 14 say -/

/-- C97: a text of usual characters is wrapped greedily at the break opportunities of UAX 14: each line
is the rest of the text if that fits, or ends at the last opportunity that fits, or else before the
first character that does not fit. Opportunities are those of the whole text, so where a line ends does
not depend on how the lines before it were found. Missing: the texts `UsualText` and `Plain` exclude,
for which it is false (`C97_mark_false` to `C97_flag_false`, and `C45_false`). -/
theorem C97_wrap_partial (cs : List Char) (h : Plain cs) (hu : UsualText cs) (n : Nat) (hn : n ≠ 0)
    (fuel : Nat) (ls : List Bytes) (hl : linesFuel fuel (enc cs) n = .ok ls) :
    ∃ parts : List (List Char), ls = parts.map enc ∧
      Greedy columns isUnicodeWhitespace CanEnd n [] cs parts := by
  obtain ⟨parts, rfl, hw⟩ := linesFuel_wraps fuel cs h n hn ls hl
  exact ⟨parts, rfl, wraps_greedy hw [] h hu (by decide) (by decide) (.inl ⟨rfl, rfl⟩)⟩

/-- C97 for the first line, of texts that may have flags, Hebrew letters, line ends or zero width
spaces, as long as it is not places next to them that the rules treat specially. -/
theorem C97_first_line_partial (cs : List Char) (h : Plain cs)
    (hu : ∀ before c after, cs = before ++ c :: after → before ≠ [] →
      Usual (before.reverse.map itemOf) (itemOf c)) (n : Nat) (hn : n ≠ 0)
    (fuel : Nat) (ls : List Bytes) (hl : linesFuel fuel (enc cs) n = .ok ls) (hc : cs ≠ []) :
    ∃ line after, cs = line ++ after ∧ ls.head? = some (enc line) ∧
      EndsAt columns (CanEnd []) n line after := by
  obtain ⟨parts, rfl, hw⟩ := linesFuel_wraps fuel cs h n hn ls hl
  cases hw with
  | nil => exact absurd rfl hc
  | @cons _ line gap rest ls _ heq hne hlen hgap hrest more =>
    subst heq
    rw [List.append_assoc] at *
    refine ⟨line, gap ++ rest, rfl, rfl, scanC_ends h hlen hne (fun l a e ha => ?_) (fun l h => ?_)⟩
    · cases a with
      | nil => exact absurd rfl ha
      | cons c a =>
        by_cases hl : l = []
        · subst hl
          exact ⟨fun h => absurd rfl h.1, fun h => absurd rfl h.1⟩
        · exact first_line_decides hl (hu l c a e.symm hl)
    · obtain ⟨_, c, hc, _⟩ := h
      cases hc

/-- The conditions of `UsualText` as a check. -/
def Lb.usualText (cs : List Char) : Bool :=
  (cs.all fun c => !([LClass.any, .CM, .ZWJ, .BK, .CR, .LF, .NL, .ZW, .CB, .RI, .HL].contains (classOf c))
      && !((classOf c == .OP || classOf c == .CP) && (itemOf c).wide)) &&
    (List.range (cs.length + 1)).all fun i => !((cs.drop i).take 16 == List.replicate 16 ' ') &&
      match cs.drop i with
      | s :: c :: _ => !(s == ' ' && [LClass.QU, .BA, .HY, .NS, .IN_].contains (classOf c))
      | _ => true

theorem Lb.usualText_of {cs : List Char} (h : usualText cs = true) : UsualText cs := by
  simp only [usualText, Bool.and_eq_true, List.all_eq_true, List.mem_range] at h
  obtain ⟨h1, h2⟩ := h
  refine ⟨fun c hc => ?_, fun c hc ho => ?_, fun a b e => ?_, fun a b c e => ?_⟩
  · have := (h1 c hc).1
    intro hm
    rw [List.contains_iff_mem.2 hm] at this
    cases this
  · have := (h1 c hc).2
    rcases ho with ho | ho <;> simpa [ho] using this
  · have := (h2 a.length (by rw [e]; simp; omega)).1
    rw [e, List.append_assoc, List.drop_left] at this
    simp at this
  · have := (h2 a.length (by rw [e]; simp; omega)).2
    rw [e, List.drop_left] at this
    intro hm
    simp at this
    simp [this] at hm

set_option maxRecDepth 100000 in
/-- Text as in help output. -/
example : UsualText "The quick (brown) fox can't jump 32.3 feet, right? 猫犬 don't!".toList ∧
    Plain "The quick (brown) fox can't jump 32.3 feet, right? 猫犬 don't!".toList ∧
    lines (enc "The quick (brown) fox can't jump 32.3 feet, right? 猫犬 don't!".toList) 12 =
      .ok [b "The quick ", b "(brown) fox ", b "can't jump ", b "32.3 feet, ", enc "right? 猫犬 ".toList,
        b "don't!"] :=
  ⟨Lb.usualText_of (by decide +kernel), by decide +kernel, by decide +kernel⟩

/-- The conditions of `Usual` as a check. -/
def Lb.usual (before : List Item) (next : Item) : Bool :=
  ((next :: before).all fun i => i.cls != .any && i.cls != .CM && i.cls != .ZWJ) &&
  (before.head?.all fun i => i.cls != .BK && i.cls != .CR && i.cls != .LF && i.cls != .NL && i.cls != .CB &&
    (i.cls != .SP || next.cls != .QU && next.cls != .BA && next.cls != .HY && next.cls != .NS &&
      next.cls != .IN_) && (i.cls != .CP || !i.wide)) &&
  next.cls != .CB && beforeSpaces before != some .ZW &&
  !(decide ((before.take 16).length = 16) && (before.take 16).all fun i => i.cls == .SP) &&
  decide (indicators before ≤ 16) && (next.cls != .OP || !next.wide)

theorem Lb.usual_of {before : List Item} {next : Item} (h : usual before next = true) :
    Usual before next := by
  simp only [usual, Bool.and_eq_true] at h
  obtain ⟨⟨⟨⟨⟨⟨h1, h2⟩, h3⟩, h4⟩, h5⟩, h6⟩, h7⟩ := h
  refine ⟨?_, ?_, by simpa using h3, by simpa using h4, ?_, ?_, by simpa using h6, ?_, ?_⟩
  · simpa [and_assoc] using h1
  · intro i hi
    rw [show before.head? = some i from hi] at h2
    simp at h2
    simp [h2]
  · intro i hi hs
    rw [show before.head? = some i from hi] at h2
    simp [hs] at h2
    simp [h2]
  · rintro ⟨e1, e2⟩
    have : (before.take 16).all (fun i => i.cls == .SP) = true := by simpa using e2
    rw [this, decide_eq_true e1] at h5
    cases h5
  · intro e
    simpa [e] using h7
  · intro i hi e
    rw [show before.head? = some i from hi] at h2
    simp [e] at h2
    exact h2

/-- Flags, a Hebrew word with a hyphen, and a price. -/
example : (∀ before c after, "🇫🇷🇩🇪 שא-ב $(12)".toList = before ++ c :: after → before ≠ [] →
      Usual (before.reverse.map itemOf) (itemOf c)) ∧ Plain "🇫🇷🇩🇪 שא-ב $(12)".toList ∧
    lines (enc "🇫🇷🇩🇪 שא-ב $(12)".toList) 11 = .ok [enc "🇫🇷🇩🇪 שא-ב ".toList, b "$(12)"] := by
  refine ⟨fun before c after e _ => ?_, by decide +kernel, by decide +kernel⟩
  have h : (List.range "🇫🇷🇩🇪 שא-ב $(12)".toList.length).all (fun i =>
      match "🇫🇷🇩🇪 שא-ב $(12)".toList.drop i with
      | c :: _ => Lb.usual (("🇫🇷🇩🇪 שא-ב $(12)".toList.take i).reverse.map itemOf) (itemOf c)
      | [] => true) = true := by decide +kernel
  rw [e] at h
  have h1 := List.all_eq_true.1 h before.length (by simp)
  rw [List.drop_left, List.take_left] at h1
  exact Lb.usual_of h1

/-- C97 is false for combining marks (LB9): the line "ae" ends between the "e" and its accent, although
the accent takes no columns. -/
theorem C97_mark_false : lines (enc ['a', 'e', Char.ofNat 0x301, 'e']) 2 =
      .ok [b "ae", enc [Char.ofNat 0x301, 'e']] ∧
    allowed ("ae".toList.reverse.map itemOf) (itemOf (Char.ofNat 0x301)) = false ∧
    columns (Char.ofNat 0x301) = 0 := by decide +kernel

/-- C97 is false for quotation marks after a space (LB18 comes before LB19): the first line ends after
the opening quotation mark, where the rules forbid it, and not after the space, where they allow it. -/
theorem C97_quote_false : lines (b "foo \"bar\"") 5 = .ok [b "foo \"", b "bar\""] ∧
    allowed ("foo \"".toList.reverse.map itemOf) (itemOf 'b') = false ∧
    allowed ("foo ".toList.reverse.map itemOf) (itemOf '"') = true := by decide +kernel

/-- The same for an option after a space: the first line ends after "a", although the rules allow it to
end before the hyphen, where it still fits. -/
theorem C97_hyphen_false : lines (b "a foo -bar") 6 = .ok [b "a ", b "foo -", b "bar"] ∧
    allowed ("a foo ".toList.reverse.map itemOf) (itemOf '-') = true ∧
    ("a foo ".toList.map columns).sum = 6 := by decide +kernel

/-- Line ends do not end lines (LB4). -/
theorem C97_newline_false : lines (b "a\nb") 10 = .ok [b "a\nb"] := by decide +kernel

/-- Sixteen spaces hide what comes before them (LB14): the first line ends after them although an
opening bracket precedes them, and one more character would fit. -/
theorem C97_spaces_false : lines (b "(                ab") 18 = .ok [b "(                ", b "ab"] ∧
    allowed ("(                ".toList.reverse.map itemOf) (itemOf 'a') = false := by decide +kernel

/-- How a line ends can depend on how the one before it was found (LB30a): at three columns the second
of three flags is on a line with half of the third. -/
theorem C97_flag_false : lines (enc "🇫🇷🇩🇪🇬🇧".toList) 3 =
      .ok [enc "🇫🇷".toList, enc "🇩🇪🇬".toList, enc "🇧".toList] ∧
    allowed ("🇫🇷🇩🇪🇬".toList.reverse.map itemOf) (itemOf '🇧') = false ∧
    allowed ("🇫🇷🇩🇪".toList.reverse.map itemOf) (itemOf '🇬') = true := by decide +kernel

end ArgRouter.Props
