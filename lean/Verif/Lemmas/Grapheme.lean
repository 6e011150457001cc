import Verif.Utf8.Grapheme
import Verif.Lemmas.Text

/-! # Grapheme iteration on well-formed text, at the level of characters -/

namespace ArgRouter.Utf8

open ArgRouter.Spec

/-- Class of the first character of the remaining text. -/
def nextC : List Char → GClass
  | [] => .any
  | c :: _ => gClass c.toNat

/-- First cluster and the window after it. -/
def gSplit : GWindow → List Char → List Char × GWindow
  | w, [] => ([], w)
  | w, c :: cs =>
    let w' := gPush (gClass c.toNat) w
    if gShouldBreak w' (nextC cs) then ([c], w')
    else
      let r := gSplit w' cs
      (c :: r.1, r.2)

/-- All clusters, `acc` is the cluster under construction. -/
def clustersFrom : GWindow → List Char → List Char → List (List Char)
  | _, acc, [] => if acc.isEmpty then [] else [acc]
  | w, acc, c :: cs =>
    let w' := gPush (gClass c.toNat) w
    if gShouldBreak w' (nextC cs) then (acc ++ [c]) :: clustersFrom w' [] cs
    else clustersFrom w' (acc ++ [c]) cs

theorem gNextClass_enc {cs : List Char} (h : Plain cs) : gNextClass (enc cs) = nextC cs := by
  cases cs with
  | nil => rfl
  | cons c cs =>
    obtain ⟨hc, _⟩ := h.cons
    obtain ⟨x, r, e⟩ := enc_cons_ne_nil c (enc cs)
    have h2 := cpDeref_encChar (enc cs) hc
    rw [enc_cons]
    rw [e] at h2 ⊢
    simp only [gNextClass, h2, decode_encChar' hc, nextC]

theorem gLoop_enc {cs : List Char} (h : Plain cs) :
    ∀ fuel cur w, cs.length ≤ fuel → gLoop fuel (enc cs) cur w
      = .ok (cur + (enc (gSplit w cs).1).length, (gSplit w cs).2) := by
  induction cs with
  | nil => intro fuel cur w _; cases fuel <;> simp [gLoop, gSplit]
  | cons c cs ih =>
    intro fuel cur w hf
    obtain ⟨hc, hcs⟩ := h.cons
    cases fuel with
    | zero => simp at hf
    | succ n =>
      obtain ⟨x, r, e⟩ := enc_cons_ne_nil c (enc cs)
      have h1 := cpNext_encChar (enc cs) hc
      have h2 := cpDeref_encChar (enc cs) hc
      have h3 : cpSize (encChar c) = (encChar c).length := by
        simpa using cpSize_encChar_plain [] hc
      rw [enc_cons]
      rw [e] at h1 h2 ⊢
      simp only [gLoop, h1, h2, Out.ok_bind, decode_encChar' hc, gNextClass_enc hcs, gSplit, h3]
      split
      · simp
      · rw [ih hcs n _ _ (by simpa using hf)]
        simp only [enc_cons, List.length_append, Nat.add_assoc]

theorem gSplit_append (w : GWindow) (cs : List Char) : ∃ r, cs = (gSplit w cs).1 ++ r := by
  induction cs generalizing w with
  | nil => exact ⟨[], rfl⟩
  | cons c cs ih =>
    simp only [gSplit]
    split
    · exact ⟨cs, rfl⟩
    · obtain ⟨r, hr⟩ := ih (gPush (gClass c.toNat) w)
      exact ⟨r, by simp [← hr]⟩

theorem gSplit_ne_nil (w : GWindow) (c : Char) (cs : List Char) : (gSplit w (c :: cs)).1 ≠ [] := by
  simp only [gSplit]; split <;> simp

theorem clustersFrom_gSplit (w : GWindow) (c : Char) (cs acc r : List Char)
    (hr : c :: cs = (gSplit w (c :: cs)).1 ++ r) :
    clustersFrom w acc (c :: cs)
      = (acc ++ (gSplit w (c :: cs)).1) :: clustersFrom (gSplit w (c :: cs)).2 [] r := by
  induction cs generalizing w c acc with
  | nil =>
    simp only [gSplit, clustersFrom] at hr ⊢
    split at hr <;> rename_i h
    · simp at hr; subst hr; simp [clustersFrom]
    · simp at hr; subst hr; simp [clustersFrom]
  | cons d cs ih =>
    rw [gSplit] at hr ⊢
    rw [clustersFrom]
    simp only at hr ⊢
    split at hr <;> rename_i h
    · simp only [h, if_true]
      simp at hr; subst hr; rfl
    · simp only [h, if_false, Bool.false_eq_true]
      have hr' : d :: cs = (gSplit (gPush (gClass c.toNat) w) (d :: cs)).1 ++ r := by
        simpa using hr
      rw [ih _ d (acc ++ [c]) hr']
      simp

theorem toList_enc : ∀ fuel (cs : List Char) (w : GWindow), Plain cs → cs.length ≤ fuel →
    GIter.toList fuel ⟨enc cs, (enc (gSplit w cs).1).length, (gSplit w cs).2⟩
      = .ok ((clustersFrom w [] cs).map enc) := by
  intro fuel
  induction fuel with
  | zero =>
    intro cs w _ hf
    have : cs = [] := by cases cs with
      | nil => rfl
      | cons _ _ => simp at hf
    subst this
    simp [GIter.toList, clustersFrom]
  | succ n ih =>
    intro cs w h hf
    cases cs with
    | nil => simp [GIter.toList, clustersFrom]
    | cons c cs =>
      obtain ⟨r, hr⟩ := gSplit_append w (c :: cs)
      have hne : (enc (c :: cs)).isEmpty = false := by
        obtain ⟨x, t, e⟩ := enc_cons_ne_nil c (enc cs)
        rw [enc_cons, e]; rfl
      have hpr : Plain r := by
        rw [hr] at h; exact (Plain.append_iff.1 h).2
      have hlen : r.length ≤ n := by
        have h1 := congrArg List.length hr
        have h2 := List.length_pos_iff.2 (gSplit_ne_nil w c cs)
        simp only [List.length_cons, List.length_append] at h1 hf
        omega
      have hnext : GIter.next ⟨enc (c :: cs), (enc (gSplit w (c :: cs)).1).length,
          (gSplit w (c :: cs)).2⟩ = .ok ⟨enc r, (enc (gSplit (gSplit w (c :: cs)).2 r).1).length,
            (gSplit (gSplit w (c :: cs)).2 r).2⟩ := by
        have he : enc (c :: cs) = enc (gSplit w (c :: cs)).1 ++ enc r := by
          rw [← enc_append, ← hr]
        simp only [GIter.next, gUpdate]
        rw [if_pos (by rw [he, List.length_append]; omega)]
        rw [he, List.drop_left, gLoop_enc hpr _ _ _ (length_enc_le r)]
        simp
      have hderef : GIter.deref ⟨enc (c :: cs), (enc (gSplit w (c :: cs)).1).length,
          (gSplit w (c :: cs)).2⟩ = enc (gSplit w (c :: cs)).1 := by
        have he : enc (c :: cs) = enc (gSplit w (c :: cs)).1 ++ enc r := by
          rw [← enc_append, ← hr]
        simp only [GIter.deref]
        rw [he, List.take_left]
      rw [GIter.toList]
      simp only [hne, hnext, Out.ok_bind, ih r _ hpr hlen, hderef, Bool.false_eq_true, if_false]
      rw [clustersFrom_gSplit w c cs [] r hr]
      simp

theorem graphemes_enc {cs : List Char} (h : Plain cs) :
    graphemes (enc cs) = .ok ((clustersFrom gWindowInit [] cs).map enc) := by
  have hl := gLoop_enc h _ 0 gWindowInit (length_enc_le cs)
  simp only [graphemes, GIter.init, gUpdate, hl, Out.ok_bind, Out.pure_eq]
  simpa using toList_enc _ cs gWindowInit h (length_enc_le cs)

theorem clustersFrom_flatten (w : GWindow) (acc cs : List Char) :
    (clustersFrom w acc cs).flatten = acc ++ cs := by
  induction cs generalizing w acc with
  | nil => simp only [clustersFrom]; split <;> simp_all
  | cons c cs ih =>
    simp only [clustersFrom]
    split <;> simp [ih]

theorem clustersFrom_ne_nil (w : GWindow) (acc cs : List Char) :
    ∀ p ∈ clustersFrom w acc cs, p ≠ [] := by
  induction cs generalizing w acc with
  | nil => simp only [clustersFrom]; split <;> simp_all
  | cons c cs ih =>
    simp only [clustersFrom]
    split
    · intro p hp
      rcases List.mem_cons.1 hp with rfl | hp
      · simp
      · exact ih _ _ p hp
    · exact ih _ _

/-- A cluster under construction is a prefix of the first cluster. -/
theorem clustersFrom_acc (w : GWindow) (acc cs : List Char) (ha : acc ≠ []) :
    ∃ p ps, clustersFrom w acc cs = (acc ++ p) :: ps := by
  induction cs generalizing w acc with
  | nil => exact ⟨[], [], by simp [clustersFrom, ha]⟩
  | cons c cs ih =>
    simp only [clustersFrom]
    split
    · exact ⟨[c], _, rfl⟩
    · obtain ⟨p, ps, e⟩ := ih (gPush (gClass c.toNat) w) (acc ++ [c]) (by simp)
      exact ⟨c :: p, ps, by rw [e]; simp⟩

theorem clustersFrom_head (w : GWindow) (c : Char) (cs : List Char) :
    ∃ p ps, clustersFrom w [] (c :: cs) = (c :: p) :: ps := by
  simp only [clustersFrom]
  split
  · exact ⟨[], _, rfl⟩
  · obtain ⟨p, ps, e⟩ := clustersFrom_acc (gPush (gClass c.toNat) w) ([] ++ [c]) cs (by simp)
    exact ⟨p, ps, by rw [e]; simp⟩

/-- A cluster other than the first begins with a character at which `should_break` allowed a
break for some preceding window. -/
theorem clustersFrom_tail (w : GWindow) (acc cs : List Char) :
    ∀ p ∈ (clustersFrom w acc cs).tail, ∀ c ∈ p.head?,
      ∃ w', gShouldBreak w' (gClass c.toNat) = true := by
  induction cs generalizing w acc with
  | nil => simp only [clustersFrom]; split <;> simp
  | cons d cs ih =>
    simp only [clustersFrom]
    split <;> rename_i hb
    · intro p hp c hc
      simp only [List.tail_cons] at hp
      cases cs with
      | nil => simp [clustersFrom] at hp
      | cons e cs =>
        obtain ⟨q, ps, eq⟩ := clustersFrom_head (gPush (gClass d.toNat) w) e cs
        have h2 := ih (gPush (gClass d.toNat) w) []
        rw [eq] at hp h2
        rcases List.mem_cons.1 hp with rfl | hp
        · simp only [List.head?_cons, Option.mem_def, Option.some.injEq] at hc
          subst hc
          exact ⟨_, hb⟩
        · exact h2 p hp c hc
    · exact ih _ _

end ArgRouter.Utf8
