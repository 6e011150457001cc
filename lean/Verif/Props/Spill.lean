import Verif.Spec.Spill
import Verif.Props.Grapheme
import Verif.Props.Utf8

/-!
# C35, C40, C41: which texts are read past their end
-/

namespace ArgRouter.Props

open ArgRouter.Utf8 ArgRouter.Spec

/-- Stepping through the bytes by measured characters does not leave them. -/
inductive Stays : Bytes → Prop
  | nil : Stays []
  | step {x : UInt8} {r : Bytes} : cpSize (x :: r) ≤ (x :: r).length →
      Stays ((x :: r).drop (cpSize (x :: r))) → Stays (x :: r)

theorem stays_cons {x : UInt8} {r : Bytes} : Stays (x :: r) ↔
    cpSize (x :: r) ≤ (x :: r).length ∧ Stays ((x :: r).drop (cpSize (x :: r))) := by
  constructor
  · intro h; cases h with | step h1 h2 => exact ⟨h1, h2⟩
  · rintro ⟨h1, h2⟩; exact .step h1 h2

/-- The first byte is there and has been taken. -/
def Over (r : Bytes) : Prop := r ≠ [] ∧ Stays (r.drop 1)

theorem stays_char (c : Char) (r : Bytes) : Stays (encChar c ++ r) ↔
    if leadDForEF c = true then Over r else Stays r := by
  have hs := cpSize_encChar c r
  obtain ⟨x, t, e⟩ := enc_cons_ne_nil c r
  rw [e] at hs
  rw [e, stays_cons, hs, ← e]
  by_cases h : leadDForEF c = true
  · simp only [h, if_true, Over, ne_eq]
    rw [List.drop_append, List.drop_of_length_le (by omega), List.nil_append, Nat.add_sub_cancel_left,
      List.length_append]
    refine and_congr_left fun _ => ?_
    rw [← List.length_eq_zero_iff]
    omega
  · rw [if_neg h, if_neg h, Nat.add_zero, List.drop_left, List.length_append]
    exact and_iff_right (by omega)

theorem stays_cont {x : UInt8} {r : Bytes} (h : 128 ≤ x.toNat) (h' : x.toNat < 192) :
    Stays (x :: r) ↔ Over r := by
  have hs : cpSize (x :: r) = 2 := by
    rw [cpSize_cons]
    rw [if_neg (by omega), if_pos (by omega)]
  rw [stays_cons, hs, Over]
  simp only [List.length_cons, List.drop_succ_cons, ne_eq]
  refine and_congr_left fun _ => ?_
  rw [← List.length_eq_zero_iff]
  omega

theorem over_char (c : Char) (r : Bytes) : Over (encChar c ++ r) ↔
    if (encChar c).length = 2 ∨ (encChar c).length = 4 then Over r else Stays r := by
  rcases encChar_cases c with ⟨h, e⟩ | ⟨h, h', e⟩ | ⟨h, h', e⟩ | ⟨h, h', e⟩
  · rw [e, if_neg (by simp)]
    simp [Over]
  · rw [e, if_pos (by simp)]
    conv => lhs; rw [Over]
    simp only [List.cons_append, List.nil_append, List.drop_succ_cons, List.drop_zero, ne_eq, reduceCtorEq,
      not_false_eq_true, true_and]
    exact stays_cont (by rw [toNat_ofNat (by omega)]; omega) (by rw [toNat_ofNat (by omega)]; omega)
  · rw [e, if_neg (by simp)]
    conv => lhs; rw [Over]
    simp only [List.cons_append, List.nil_append, List.drop_succ_cons, List.drop_zero, ne_eq, reduceCtorEq,
      not_false_eq_true, true_and]
    rw [stays_cont (by rw [toNat_ofNat (by omega)]; omega) (by rw [toNat_ofNat (by omega)]; omega), Over]
    simp
  · rw [e, if_pos (by simp)]
    conv => lhs; rw [Over]
    simp only [List.cons_append, List.nil_append, List.drop_succ_cons, List.drop_zero, ne_eq, reduceCtorEq,
      not_false_eq_true, true_and]
    rw [stays_cont (by rw [toNat_ofNat (by omega)]; omega) (by rw [toNat_ofNat (by omega)]; omega), Over]
    simp only [List.drop_succ_cons, List.drop_zero, ne_eq, reduceCtorEq, not_false_eq_true, true_and]
    exact stays_cont (by rw [toNat_ofNat (by omega)]; omega) (by rw [toNat_ofNat (by omega)]; omega)

theorem stays_enc (cs : List Char) : (Stays (enc cs) ↔ spills false cs = false) ∧
    (Over (enc cs) ↔ spills true cs = false) := by
  induction cs with
  | nil => exact ⟨iff_of_true .nil rfl, iff_of_false (fun h => h.1 rfl) (by decide)⟩
  | cons c cs ih =>
    rw [enc_cons, stays_char, over_char]
    constructor
    · show _ ↔ spills (leadDForEF c) cs = false
      cases hb : leadDForEF c with
      | true => rw [if_pos rfl]; exact ih.2
      | false => rw [if_neg (by decide)]; exact ih.1
    · show _ ↔ spills (decide ((encChar c).length = 2 ∨ (encChar c).length = 4)) cs = false
      by_cases hb : (encChar c).length = 2 ∨ (encChar c).length = 4
      · rw [if_pos hb, decide_eq_true hb]; exact ih.2
      · rw [if_neg hb, decide_eq_false hb]; exact ih.1

theorem cpList_stays (s : Bytes) : (Stays s ∧ ∃ ps, cpList s = .ok ps) ∨ (¬ Stays s ∧ cpList s = .ub) := by
  have aux : ∀ fuel (s : Bytes), s.length ≤ fuel →
      (Stays s ∧ ∃ ps, cpListAux fuel s = .ok ps) ∨ (¬ Stays s ∧ cpListAux fuel s = .ub) := by
    intro fuel
    induction fuel with
    | zero =>
      intro s hs
      cases s with
      | nil => exact .inl ⟨.nil, _, rfl⟩
      | cons x r => simp at hs
    | succ n ih =>
      intro s hs
      cases s with
      | nil => exact .inl ⟨.nil, _, rfl⟩
      | cons x r =>
        rw [stays_cons]
        simp only [cpListAux, cpNext]
        by_cases hle : cpSize (x :: r) ≤ (x :: r).length
        · rw [if_pos hle]
          have hp := cpSize_pos x r
          simp only [Out.ok_bind, hle, true_and]
          rcases ih ((x :: r).drop (cpSize (x :: r))) (by
            simp only [List.length_drop, List.length_cons] at hs ⊢; omega) with ⟨h1, ps, h2⟩ | ⟨h1, h2⟩
          · exact .inl ⟨h1, _, by rw [h2]; rfl⟩
          · exact .inr ⟨h1, by rw [h2]; rfl⟩
        · rw [if_neg hle]
          exact .inr ⟨fun h => hle h.1, rfl⟩
  exact aux _ s (Nat.le_refl _)

theorem width_stays (s : Bytes) :
    (Stays s ∧ ∃ w, terminalWidth s = .ok w) ∨ (¬ Stays s ∧ terminalWidth s = .ub) := by
  have aux : ∀ fuel (s : Bytes) w, s.length ≤ fuel →
      (Stays s ∧ ∃ v, terminalWidthAux fuel w s = .ok v) ∨ (¬ Stays s ∧ terminalWidthAux fuel w s = .ub) := by
    intro fuel
    induction fuel with
    | zero =>
      intro s w hs
      cases s with
      | nil => exact .inl ⟨.nil, _, rfl⟩
      | cons x r => simp at hs
    | succ n ih =>
      intro s w hs
      cases s with
      | nil => exact .inl ⟨.nil, _, rfl⟩
      | cons x r =>
        rw [stays_cons]
        simp only [terminalWidthAux, cpNext]
        by_cases hle : cpSize (x :: r) ≤ (x :: r).length
        · rw [if_pos hle]
          have hp := cpSize_pos x r
          simp only [Out.ok_bind, hle, true_and]
          exact ih ((x :: r).drop (cpSize (x :: r))) _ (by
            simp only [List.length_drop, List.length_cons] at hs ⊢; omega)
        · rw [if_neg hle]
          exact .inr ⟨fun h => hle h.1, rfl⟩
  exact aux _ s 0 (Nat.le_refl _)

theorem gLoop_stays : ∀ fuel (s : Bytes) cur w, s.length ≤ fuel →
    (¬ Stays s ∧ gLoop fuel s cur w = .ub) ∨
    ∃ k w', gLoop fuel s cur w = .ok (cur + k, w') ∧ k ≤ s.length ∧ (s ≠ [] → 0 < k) ∧
      (Stays (s.drop k) ↔ Stays s) := by
  intro fuel
  induction fuel with
  | zero =>
    intro s cur w hs
    cases s with
    | nil => exact .inr ⟨0, w, rfl, by simp, by simp, Iff.rfl⟩
    | cons x r => simp at hs
  | succ n ih =>
    intro s cur w hs
    cases s with
    | nil => exact .inr ⟨0, w, rfl, by simp, by simp, Iff.rfl⟩
    | cons x r =>
      have hp := cpSize_pos x r
      have hsz : cpSize (cpDeref (x :: r)) = cpSize (x :: r) := by
        obtain ⟨m, hm⟩ : ∃ m, cpSize (x :: r) = m + 1 := ⟨cpSize (x :: r) - 1, by omega⟩
        rw [cpDeref, hm, List.take_succ_cons, ← hm, cpSize_cons, cpSize_cons]
      simp only [gLoop, cpNext, hsz]
      by_cases hle : cpSize (x :: r) ≤ (x :: r).length
      · rw [if_pos hle]
        have hrec : ∀ w'', (¬ Stays (x :: r) ∧
              gLoop n ((x :: r).drop (cpSize (x :: r))) (cur + cpSize (x :: r)) w'' = .ub) ∨
            ∃ k w', gLoop n ((x :: r).drop (cpSize (x :: r))) (cur + cpSize (x :: r)) w'' = .ok (cur + k, w') ∧
              k ≤ (x :: r).length ∧ (x :: r ≠ [] → 0 < k) ∧ (Stays ((x :: r).drop k) ↔ Stays (x :: r)) := by
          intro w''
          have hst : Stays (x :: r) ↔ Stays ((x :: r).drop (cpSize (x :: r))) := by
            rw [stays_cons]; exact and_iff_right hle
          rcases ih ((x :: r).drop (cpSize (x :: r))) (cur + cpSize (x :: r)) w'' (by
            simp only [List.length_drop, List.length_cons] at hs ⊢; omega) with
            ⟨h1, h2⟩ | ⟨k, w', h2, hk, _, hi⟩
          · exact .inl ⟨fun h => h1 (hst.1 h), h2⟩
          · refine .inr ⟨cpSize (x :: r) + k, w', ?_, ?_, fun _ => by omega, ?_⟩
            · rw [h2, Nat.add_assoc]
            · rw [List.length_drop] at hk; omega
            · rw [← List.drop_drop, hi, hst]
        have hst : Stays (x :: r) ↔ Stays ((x :: r).drop (cpSize (x :: r))) := by
          rw [stays_cons]; exact and_iff_right hle
        simp only [Out.ok_bind]
        split
        · exact hrec w
        · split
          · exact .inr ⟨cpSize (x :: r), _, rfl, hle, fun _ => hp, hst.symm⟩
          · exact hrec _
      · rw [if_neg hle]
        refine .inl ⟨fun h => hle (stays_cons.1 h).1, ?_⟩
        split <;> rfl

theorem toList_stays : ∀ fuel (it : GIter), it.str.length ≤ fuel → it.current ≤ it.str.length →
    (it.str ≠ [] → 0 < it.current) → (Stays (it.str.drop it.current) ↔ Stays it.str) →
    (Stays it.str ∧ ∃ gs, it.toList fuel = .ok gs) ∨ (¬ Stays it.str ∧ it.toList fuel = .ub) := by
  intro fuel
  induction fuel with
  | zero =>
    intro it hl _ _ _
    have : it.str = [] := List.length_eq_zero_iff.1 (by omega)
    refine .inl ⟨by rw [this]; exact .nil, [], ?_⟩
    rw [GIter.toList, this]; rfl
  | succ n ih =>
    intro it hl hc hpos hst
    cases he : it.str with
    | nil =>
      refine .inl ⟨.nil, [], ?_⟩
      rw [GIter.toList, he]; rfl
    | cons x r =>
      rw [← he]
      have hne : it.str ≠ [] := by rw [he]; simp
      have hp := hpos hne
      rw [GIter.toList, if_neg (by rw [he]; simp), GIter.next, if_pos hc, gUpdate]
      rcases gLoop_stays (it.str.drop it.current).length (it.str.drop it.current) 0 it.window
          (Nat.le_refl _) with ⟨h1, h2⟩ | ⟨k, w', h2, hk, hkp, hi⟩
      · exact .inr ⟨fun h => h1 (hst.2 h), by rw [h2]; rfl⟩
      · rw [h2]
        simp only [Out.ok_bind, Out.pure_eq, Nat.zero_add]
        rcases ih ⟨it.str.drop it.current, k, w'⟩ (by simp only [List.length_drop]; omega) hk hkp hi with
          ⟨h3, gs, h4⟩ | ⟨h3, h4⟩
        · exact .inl ⟨hst.1 h3, _, by rw [h4]; rfl⟩
        · exact .inr ⟨fun h => h3 (hst.2 h), by rw [h4]; rfl⟩

theorem graphemes_stays (s : Bytes) :
    (Stays s ∧ ∃ gs, graphemes s = .ok gs) ∨ (¬ Stays s ∧ graphemes s = .ub) := by
  rw [graphemes, GIter.init, gUpdate]
  rcases gLoop_stays s.length s 0 gWindowInit (Nat.le_refl _) with ⟨h1, h2⟩ | ⟨k, w', h2, hk, hkp, hi⟩
  · exact .inr ⟨h1, by rw [h2]; rfl⟩
  · rw [h2]
    simp only [Out.ok_bind, Out.pure_eq, Nat.zero_add]
    exact toList_stays s.length ⟨s, k, w'⟩ (Nat.le_refl _) hk hkp hi

theorem spills_plain {cs : List Char} (h : Plain cs) : spills false cs = false := by
  induction cs with
  | nil => rfl
  | cons c cs ih =>
    obtain ⟨hc, hcs⟩ := h.cons
    rw [spills, if_neg (by decide), hc]
    exact ih hcs

theorem spills_of_enc {cs : List Char} {α} {o : Out α}
    (h : (Stays (enc cs) ∧ ∃ a, o = .ok a) ∨ (¬ Stays (enc cs) ∧ o = .ub)) :
    (o = .ub ↔ spills false cs = true) ∧ (spills false cs = false → ∃ a, o = .ok a) := by
  rw [(stays_enc cs).1] at h
  rcases h with ⟨h1, a, h2⟩ | ⟨h1, h2⟩
  · rw [h1, h2]; exact ⟨⟨by simp, by simp⟩, fun _ => ⟨a, rfl⟩⟩
  · rw [h2]
    exact ⟨iff_of_true rfl (by simpa using h1), fun h => absurd h h1⟩

/-- C35, exactly: reading the characters of a well-formed text leaves it exactly if the text spills –
its last character, say, has the lead byte DF or EF – and otherwise ends. (What is then read, of any
bytes: `C35_pieces`.) -/
theorem C35_exact (cs : List Char) : (cpList (enc cs) = .ub ↔ spills false cs = true) ∧
    (spills false cs = false → ∃ ps, cpList (enc cs) = .ok ps) :=
  spills_of_enc (cpList_stays (enc cs))

/-- C41, exactly: so does reading its clusters. -/
theorem C41_exact (cs : List Char) : (graphemes (enc cs) = .ub ↔ spills false cs = true) ∧
    (spills false cs = false → ∃ gs, graphemes (enc cs) = .ok gs) :=
  spills_of_enc (graphemes_stays (enc cs))

/-- C40, exactly when a text has a width: if it does not spill. -/
theorem C40_defined (cs : List Char) : (terminalWidth (enc cs) = .ub ↔ spills false cs = true) ∧
    (spills false cs = false → ∃ w, terminalWidth (enc cs) = .ok w) :=
  spills_of_enc (width_stays (enc cs))

/-- The texts that the theorems about plain text are about never spill; nor does one where a character
with a lead byte EF is followed by one of a single byte or of three, while at the end, or before a
character of two bytes at the end, it does. -/
example : (∀ cs, Plain cs → spills false cs = false) ∧ spills false ['！', 'a', 'é'] = false ∧
    spills false ['a', '！', '猫', 'b'] = false ∧ spills false ['a', '！'] = true ∧
    spills false ['！', 'é'] = true ∧ spills false ['！', 'é', 'b'] = false :=
  ⟨fun _ h => spills_plain h, by decide +kernel, by decide +kernel, by decide +kernel, by decide +kernel,
    by decide +kernel⟩

end ArgRouter.Props
