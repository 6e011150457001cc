import Verif.Util.DynView

/-!
# C62: a dynamic string view always shows the right text
-/

namespace ArgRouter

namespace Spec

/-- What a program with text variables sees: each variable is dead or holds a text. -/
abbrev Texts := Nat → Option Bytes

/-- Set a variable. -/
def Texts.set (s : Texts) (i : Nat) (t : Option Bytes) : Texts := fun j => if j = i then t else s j

/-- The operations on texts that are plain values. A moved-from variable is empty. `none`: the
program uses a dead variable or declares a live one. -/
def textOp (s : Texts) : DsvOp → Option Texts
  | .ofView i t => if s i = none then some (s.set i (some t)) else none
  | .ofString i t => if s i = none then some (s.set i (some t)) else none
  | .copy i j =>
    match s i, s j with
    | none, some t => some (s.set i (some t))
    | _, _ => none
  | .move i j =>
    match s i, s j with
    | none, some t => some ((s.set i (some t)).set j (some []))
    | _, _ => none
  | .assign i j =>
    match s i, s j with
    | some _, some t => some (s.set i (some t))
    | _, _ => none
  | .assignMove i j =>
    match s i, s j with
    | some _, some t => some ((s.set j (some [])).set i (some t))
    | _, _ => none
  | .convert i => if s i = none then none else some s
  | .append i t =>
    match s i with
    | some u => some (s.set i (some (u ++ t)))
    | none => none
  | .appendView i j =>
    match s i, s j with
    | some u, some t => some (s.set i (some (u ++ t)))
    | _, _ => none
  | .plus i j t =>
    match s i, s j with
    | none, some u => some (s.set i (some (u ++ t)))
    | _, _ => none
  | .destroy i => if s i = none then none else some (s.set i none)

/-- Run a program on texts. -/
def textRun (s : Texts) : List DsvOp → Option Texts
  | [] => some s
  | op :: ops => match textOp s op with
    | some s' => textRun s' ops
    | none => none

end Spec

namespace Props
open Spec

/-- An object's view is its own string, or does not need memory of any object. -/
def OkDsv (i : ObjId) (o : Dsv) : Prop :=
  if o.str = [] then (∃ t, o.view = .ext t) ∨ ∃ j v, o.view = .own j v 0
  else o.view = .own i o.version o.str.length

/-- The text of an object for which `OkDsv` holds. -/
def textOf (o : Dsv) : Bytes :=
  match o.str with
  | [] => match o.view with
    | .ext t => t
    | .own _ _ _ => []
  | c :: cs => c :: cs

theorem read_ok {h : DsvHeap} {i : ObjId} {o : Dsv} (hi : h i = some o) (ho : OkDsv i o) :
    o.view.read h = some (textOf o) := by
  obtain ⟨v, s, n⟩ := o
  cases s with
  | nil =>
    simp only [OkDsv, if_true] at ho
    rcases ho with ⟨t, rfl⟩ | ⟨j, w, rfl⟩
    · rfl
    · simp [View.read, textOf]
  | cons c cs =>
    simp [OkDsv] at ho
    subst ho
    simp [View.read, textOf, hi]

theorem ok_ofView (i : ObjId) (t : Bytes) : OkDsv i (dsvOfView t) := by
  simp [OkDsv, dsvOfView]

theorem text_ofView (t : Bytes) : textOf (dsvOfView t) = t := rfl

theorem ok_update (i : ObjId) (o : Dsv) : OkDsv i (o.updateView i) := by
  obtain ⟨v, s, n⟩ := o
  cases s with
  | nil => right; exact ⟨i, n, rfl⟩
  | cons c cs => simp [OkDsv, Dsv.updateView]

theorem text_update (i : ObjId) (o : Dsv) : textOf (o.updateView i) = o.str := by
  obtain ⟨v, s, n⟩ := o
  cases s <;> rfl

theorem ok_ofString (i : ObjId) (s : Bytes) : OkDsv i (dsvOfString i s) := ok_update _ _

theorem text_ofString (i : ObjId) (s : Bytes) : textOf (dsvOfString i s) = s := text_update _ _

/-- the common shape of copies and swaps -/
theorem ok_settle {i j : ObjId} {o : Dsv} (n : Nat) (ho : OkDsv j o) :
    OkDsv i (if !o.str.isEmpty then Dsv.updateView i ⟨o.view, o.str, n⟩ else ⟨o.view, o.str, n⟩) ∧
    textOf (if !o.str.isEmpty then Dsv.updateView i ⟨o.view, o.str, n⟩
      else ⟨o.view, o.str, n⟩) = textOf o := by
  obtain ⟨v, s, m⟩ := o
  cases s with
  | nil =>
    simp only [OkDsv, if_true] at ho
    refine ⟨?_, ?_⟩
    · simp only [List.isEmpty_nil, Bool.not_true, Bool.false_eq_true, if_false, OkDsv, if_true]
      exact ho
    · rfl
  | cons c cs =>
    refine ⟨?_, rfl⟩
    simp only [List.isEmpty_cons, Bool.not_false, if_true]
    exact ok_update _ _

theorem ok_copy {i j : ObjId} {o : Dsv} (ho : OkDsv j o) :
    OkDsv i (dsvCopy i o) ∧ textOf (dsvCopy i o) = textOf o := ok_settle (o := o) 0 ho

theorem ok_swap {i j i' j' : ObjId} {a c : Dsv} (ha : OkDsv i' a) (hc : OkDsv j' c) :
    (OkDsv i (dsvSwap i j a c).1 ∧ textOf (dsvSwap i j a c).1 = textOf c) ∧
    (OkDsv j (dsvSwap i j a c).2 ∧ textOf (dsvSwap i j a c).2 = textOf a) :=
  ⟨ok_settle (o := c) _ hc, ok_settle (o := a) _ ha⟩

theorem ok_convert {h : DsvHeap} {i : ObjId} {o : Dsv} (hi : h i = some o) (ho : OkDsv i o) :
    ∃ o', dsvConvert h i o = .ok o' ∧ OkDsv i o' ∧ o'.str = textOf o := by
  unfold dsvConvert
  cases hs : o.str with
  | nil =>
    simp only [List.isEmpty_nil, if_true, read_ok hi ho]
    exact ⟨_, rfl, ok_update _ _, rfl⟩
  | cons c cs =>
    simp only [List.isEmpty_cons, Bool.false_eq_true, if_false]
    refine ⟨o, rfl, ho, ?_⟩
    rw [textOf, hs]

/-- After conversion the view shows the string. -/
theorem convert_text {h : DsvHeap} {i : ObjId} {o o' : Dsv} (hi : h i = some o) (ho : OkDsv i o)
    (hc : dsvConvert h i o = .ok o') : textOf o' = textOf o := by
  unfold dsvConvert at hc
  cases hs : o.str with
  | nil =>
    simp only [hs, List.isEmpty_nil, if_true, read_ok hi ho, Out.ok.injEq] at hc
    subst hc
    rw [text_update]; rfl
  | cons c cs =>
    simp only [hs, List.isEmpty_cons, Bool.false_eq_true, if_false, Out.ok.injEq] at hc
    subst hc; rfl

theorem ok_append {h : DsvHeap} {i : ObjId} {o : Dsv} (t : Bytes) (hi : h i = some o)
    (ho : OkDsv i o) :
    ∃ o', dsvAppend h i o t = .ok o' ∧ OkDsv i o' ∧ textOf o' = textOf o ++ t := by
  obtain ⟨o₁, h₁, -, h₃⟩ := ok_convert hi ho
  refine ⟨(o₁.setStr (o₁.str ++ t)).updateView i, ?_, ok_update i _, ?_⟩
  · rw [dsvAppend, h₁]; rfl
  · rw [text_update]; simp [Dsv.setStr, h₃]

/-- The objects are in order and show the texts `s`. -/
def Shows (h : DsvHeap) (s : Texts) : Prop :=
  (∀ i o, h i = some o → OkDsv i o) ∧ ∀ i, (h (.var i)).map textOf = s i

theorem shows_put {h : DsvHeap} {s : Texts} (hR : Shows h s) {i : Nat} {o : Dsv}
    (ho : OkDsv (.var i) o) : Shows (h.put (.var i) (some o)) (s.set i (some (textOf o))) := by
  refine ⟨fun j o' hj => ?_, fun j => ?_⟩
  · unfold DsvHeap.put at hj
    split at hj
    · rename_i he; subst he; cases hj; exact ho
    · exact hR.1 _ _ hj
  · unfold DsvHeap.put Texts.set
    by_cases he : j = i
    · subst he; simp
    · simp [he]; exact hR.2 j

theorem shows_drop {h : DsvHeap} {s : Texts} (hR : Shows h s) (i : Nat) :
    Shows (h.put (.var i) none) (s.set i none) := by
  refine ⟨fun j o' hj => ?_, fun j => ?_⟩
  · unfold DsvHeap.put at hj
    split at hj
    · cases hj
    · exact hR.1 _ _ hj
  · unfold DsvHeap.put Texts.set
    by_cases he : j = i
    · subst he; simp
    · simp [he]; exact hR.2 j

theorem shows_some {h : DsvHeap} {s : Texts} (hR : Shows h s) {i : Nat} {o : Dsv}
    (hi : h.get i = some o) : s i = some (textOf o) ∧ OkDsv (.var i) o := by
  unfold DsvHeap.get at hi
  exact ⟨by rw [← hR.2 i, hi]; rfl, hR.1 _ _ hi⟩

theorem shows_none {h : DsvHeap} {s : Texts} (hR : Shows h s) {i : Nat} (hi : h.get i = none) :
    s i = none := by
  unfold DsvHeap.get at hi
  rw [← hR.2 i, hi]; rfl

theorem set_same {s : Texts} {i : Nat} {t : Bytes} (h : s i = some t) : s.set i (some t) = s := by
  funext j
  unfold Texts.set
  split
  · rename_i he; subst he; exact h.symm
  · rfl

/-- One operation does what it does on plain texts. -/
theorem step {h : DsvHeap} {s : Texts} (hR : Shows h s) (op : DsvOp) :
    (textOp s op = none → op.run h = none) ∧
    (∀ s', textOp s op = some s' → ∃ h', op.run h = some (.ok h') ∧ Shows h' s') := by
  cases op with
  | ofView i t =>
    simp only [textOp, DsvOp.run]
    cases hi : h.get i with
    | some o => simp [(shows_some hR hi).1]
    | none =>
      simp only [shows_none hR hi, if_true, reduceCtorEq, false_implies, true_and,
        Option.some.injEq]
      rintro _ rfl
      exact ⟨_, rfl, shows_put hR (ok_ofView _ t)⟩
  | ofString i t =>
    simp only [textOp, DsvOp.run]
    cases hi : h.get i with
    | some o => simp [(shows_some hR hi).1]
    | none =>
      simp only [shows_none hR hi, if_true, reduceCtorEq, false_implies, true_and,
        Option.some.injEq]
      rintro _ rfl
      refine ⟨_, rfl, ?_⟩
      have := shows_put hR (ok_ofString (.var i) t)
      rwa [text_ofString] at this
  | copy i j =>
    simp only [textOp, DsvOp.run]
    cases hi : h.get i with
    | some o => simp [(shows_some hR hi).1]
    | none =>
      cases hj : h.get j with
      | none => simp [shows_none hR hi, shows_none hR hj]
      | some o =>
        obtain ⟨e, ok⟩ := shows_some hR hj
        simp only [shows_none hR hi, e, reduceCtorEq, false_implies, true_and, Option.some.injEq]
        rintro _ rfl
        refine ⟨_, rfl, ?_⟩
        have hc := ok_copy (i := .var i) ok
        rw [← hc.2]
        exact shows_put hR hc.1
  | move i j =>
    simp only [textOp, DsvOp.run]
    cases hi : h.get i with
    | some o => simp [(shows_some hR hi).1]
    | none =>
      cases hj : h.get j with
      | none => simp [shows_none hR hi, shows_none hR hj]
      | some o =>
        obtain ⟨e, ok⟩ := shows_some hR hj
        simp only [shows_none hR hi, e, reduceCtorEq, false_implies, true_and, Option.some.injEq]
        rintro _ rfl
        refine ⟨_, rfl, ?_⟩
        have hs := ok_swap (i := .var i) (j := .var j) (ok_ofView (.var i) []) ok
        rw [← hs.1.2, show ([] : Bytes) = textOf (dsvSwap (.var i) (.var j) (dsvOfView []) o).2 from
          hs.2.2.symm]
        exact shows_put (shows_put hR hs.1.1) hs.2.1
  | assign i j =>
    simp only [textOp, DsvOp.run]
    cases hi : h.get i with
    | none => simp [shows_none hR hi]
    | some o =>
      cases hj : h.get j with
      | none => simp [(shows_some hR hi).1, shows_none hR hj]
      | some src =>
        obtain ⟨e, ok⟩ := shows_some hR hj
        simp only [(shows_some hR hi).1, e, reduceCtorEq, false_implies, true_and,
          Option.some.injEq]
        rintro _ rfl
        refine ⟨_, rfl, ?_⟩
        have hc := ok_copy (i := .param) ok
        have hs := ok_swap (i := .var i) (j := .param) (shows_some hR hi).2 hc.1
        rw [← hc.2, ← hs.1.2]
        exact shows_put hR hs.1.1
  | assignMove i j =>
    simp only [textOp, DsvOp.run]
    cases hi : h.get i with
    | none => simp [shows_none hR hi]
    | some o =>
      cases hj : h.get j with
      | none => simp [(shows_some hR hi).1, shows_none hR hj]
      | some src =>
        obtain ⟨e, ok⟩ := shows_some hR hj
        simp only [(shows_some hR hi).1, e, reduceCtorEq, false_implies, true_and,
          Option.some.injEq]
        rintro _ rfl
        have hs := ok_swap (i := .param) (j := .var j) (ok_ofView .param []) ok
        have hR' := shows_put hR hs.2.1
        rw [show textOf (dsvSwap .param (.var j) (dsvOfView []) src).2 = [] from hs.2.2] at hR'
        cases hi' : DsvHeap.get (h.put (.var j)
            (some (dsvSwap .param (.var j) (dsvOfView []) src).2)) i with
        | none =>
          exfalso
          have := shows_none hR' hi'
          unfold Texts.set at this
          split at this
          · cases this
          · rw [(shows_some hR hi).1] at this; cases this
        | some o' =>
          refine ⟨_, rfl, ?_⟩
          have hs' := ok_swap (i := .var i) (j := .param) (shows_some hR' hi').2 hs.1.1
          rw [← hs.1.2, ← hs'.1.2]
          exact shows_put hR' hs'.1.1
  | convert i =>
    simp only [textOp, DsvOp.run]
    cases hi : h.get i with
    | none => simp [shows_none hR hi]
    | some o =>
      obtain ⟨e, ok⟩ := shows_some hR hi
      simp only [e, reduceCtorEq, if_false, false_implies, true_and, Option.some.injEq]
      rintro _ rfl
      obtain ⟨o', h₁, h₂, -⟩ := ok_convert (h := h) (i := .var i) hi ok
      rw [h₁]
      refine ⟨_, rfl, ?_⟩
      have := shows_put hR h₂
      rwa [convert_text hi ok h₁, set_same e] at this
  | append i t =>
    simp only [textOp, DsvOp.run]
    cases hi : h.get i with
    | none => simp [shows_none hR hi]
    | some o =>
      obtain ⟨e, ok⟩ := shows_some hR hi
      simp only [e, reduceCtorEq, false_implies, true_and, Option.some.injEq]
      rintro _ rfl
      obtain ⟨o', h₁, h₂, h₃⟩ := ok_append (h := h) (i := .var i) t hi ok
      rw [h₁]
      refine ⟨_, rfl, ?_⟩
      rw [← h₃]
      exact shows_put hR h₂
  | appendView i j =>
    simp only [textOp, DsvOp.run]
    cases hi : h.get i with
    | none => simp [shows_none hR hi]
    | some o =>
      cases hj : h.get j with
      | none => simp [(shows_some hR hi).1, shows_none hR hj]
      | some other =>
        obtain ⟨e, ok⟩ := shows_some hR hi
        obtain ⟨e', -⟩ := shows_some hR hj
        simp only [e, e', reduceCtorEq, false_implies, true_and, Option.some.injEq]
        rintro _ rfl
        obtain ⟨o', h₁, h₂, h₃⟩ := ok_convert (h := h) (i := .var i) hi ok
        rw [h₁]
        have hR' := shows_put hR h₂
        rw [convert_text hi ok h₁, set_same e] at hR'
        cases hj' : DsvHeap.get (h.put (.var i) (some o')) j with
        | none => rw [shows_none hR' hj'] at e'; cases e'
        | some other' =>
          obtain ⟨e'', ok''⟩ := shows_some hR' hj'
          have hr : other'.view.read (h.put (.var i) (some o')) = some (textOf other') :=
            read_ok hj' ok''
          refine ⟨(h.put (.var i) (some o')).put (.var i)
            (some ((o'.setStr (o'.str ++ textOf other')).updateView (.var i))), ?_, ?_⟩
          · simp only [bind, Out.bind, hj', hr]
          · have := shows_put hR' (ok_update (.var i) (o'.setStr (o'.str ++ textOf other')))
            rw [text_update] at this
            rw [e', Option.some.injEq] at e''
            rw [← h₃, e'']
            exact this
  | plus i j t =>
    simp only [textOp, DsvOp.run]
    cases hi : h.get i with
    | some o => simp [(shows_some hR hi).1]
    | none =>
      cases hj : h.get j with
      | none => simp [shows_none hR hi, shows_none hR hj]
      | some src =>
        obtain ⟨e, ok⟩ := shows_some hR hj
        simp only [shows_none hR hi, e, reduceCtorEq, false_implies, true_and, Option.some.injEq]
        rintro _ rfl
        have hc := ok_copy (i := .param) ok
        obtain ⟨p, h₁, h₂, h₃⟩ := ok_append (h := h.put .param (some (dsvCopy .param src)))
          (i := .param) t (by simp [DsvHeap.put]) hc.1
        rw [h₁]
        refine ⟨_, rfl, ?_⟩
        have hs := ok_swap (i := .var i) (j := .param) (ok_ofView (.var i) []) h₂
        rw [← hc.2, ← h₃, ← hs.1.2]
        exact shows_put hR hs.1.1
  | destroy i =>
    simp only [textOp, DsvOp.run]
    cases hi : h.get i with
    | none => simp [shows_none hR hi]
    | some o =>
      simp only [(shows_some hR hi).1, reduceCtorEq, if_false, false_implies, true_and,
        Option.some.injEq]
      rintro _ rfl
      exact ⟨_, rfl, shows_drop hR i⟩

theorem run_refines (ops : List DsvOp) : ∀ (h : DsvHeap) (s : Texts), Shows h s →
    (textRun s ops = none → runDsv h ops = none) ∧
    (∀ s', textRun s ops = some s' → ∃ h', runDsv h ops = some (.ok h') ∧ Shows h' s') := by
  induction ops with
  | nil =>
    intro h s hR
    refine ⟨fun hn => (by cases hn), fun s' hs => ?_⟩
    cases hs
    exact ⟨h, rfl, hR⟩
  | cons op ops ih =>
    intro h s hR
    obtain ⟨h₁, h₂⟩ := step hR op
    unfold textRun runDsv
    cases ho : textOp s op with
    | none =>
      rw [h₁ ho]
      exact ⟨fun _ => rfl, fun s' hs => by cases hs⟩
    | some s₁ =>
      obtain ⟨h', e, hR'⟩ := h₂ s₁ ho
      rw [e]
      exact ih h' s₁ hR'

/-- C62. Whatever a program does with `dynamic_string_view`s – construct them from views or
strings, copy, move, assign (also to themselves), append text or each other, destroy them – every
live object shows the text it would hold if it were a plain string value, and no view is ever read
after the string it points into has changed. -/
theorem C62_text (ops : List DsvOp) (s : Texts) (h : textRun (fun _ => none) ops = some s) :
    ∃ heap, runDsv (fun _ => none) ops = some (.ok heap) ∧ ∀ i, dsvText heap i = s i := by
  obtain ⟨heap, e, hR⟩ := (run_refines ops (fun _ => none) (fun _ => none)
    ⟨fun i o ho => (nomatch ho), fun _ => rfl⟩).2 s h
  refine ⟨heap, e, fun i => ?_⟩
  unfold dsvText
  cases hi : heap.get i with
  | none => exact (shows_none hR hi).symm
  | some o =>
    obtain ⟨e', ok⟩ := shows_some hR hi
    rw [e']
    exact read_ok hi ok

/-- The programs excluded are exactly those using a variable that is not alive. -/
theorem C62_programs (ops : List DsvOp) :
    runDsv (fun _ => none) ops = none ↔ textRun (fun _ => none) ops = none := by
  have hR : Shows (fun _ => none) (fun _ => none) := ⟨fun i o ho => (nomatch ho), fun _ => rfl⟩
  have hrr := run_refines ops _ _ hR
  refine ⟨fun hn => ?_, hrr.1⟩
  cases hs : textRun (fun _ => none) ops with
  | none => rfl
  | some s =>
    obtain ⟨heap, e, -⟩ := hrr.2 s hs
    rw [hn] at e; cases e

/-- A program meeting the hypothesis: views, owned strings, self-append, move and reuse. -/
def dsvProgram : List DsvOp :=
  [.ofView 0 (b "abc"), .copy 1 0, .append 1 (b "de"), .appendView 1 1, .assign 0 1, .move 2 1,
    .assignMove 0 0, .plus 3 0 (b "!"), .append 1 (b "new"), .destroy 2, .convert 1]

example : ((textRun (fun _ => none) dsvProgram).map fun s => [s 0, s 1, s 2, s 3]) =
    some [some (b "abcdeabcde"), some (b "new"), none, some (b "abcdeabcde!")] := by
  decide +kernel

end Props
end ArgRouter
