import Verif.Utf8.Levenshtein
import Verif.Basic

/-!
# C31: the similarity score is the edit distance
-/

namespace ArgRouter

namespace Spec

/-- One edit of a sequence of characters. -/
inductive Edit {α : Type} : List α → List α → Prop
  | insert (l r : List α) (x : α) : Edit (l ++ r) (l ++ x :: r)
  | delete (l r : List α) (x : α) : Edit (l ++ x :: r) (l ++ r)
  | replace (l r : List α) (x y : α) : Edit (l ++ x :: r) (l ++ y :: r)

/-- A number of edits, one after the other. -/
inductive Edits {α : Type} : Nat → List α → List α → Prop
  | none (a : List α) : Edits 0 a a
  | step {n : Nat} {a b c : List α} : Edit a b → Edits n b c → Edits (n + 1) a c

/-- The edit distance: the length of a shortest sequence of edits. -/
def IsEditDistance {α : Type} (a b : List α) (d : Nat) : Prop :=
  Edits d a b ∧ ∀ n, Edits n a b → d ≤ n

end Spec

open Spec Utf8

namespace Props

/-- Alignments of two sequences with a number of differences. -/
inductive Align {α : Type} : Nat → List α → List α → Prop
  | nil : Align 0 [] []
  | same {n : Nat} {a b : List α} (x : α) : Align n a b → Align n (x :: a) (x :: b)
  | sub {n : Nat} {a b : List α} (x y : α) : Align n a b → Align (n + 1) (x :: a) (y :: b)
  | del {n : Nat} {a b : List α} (x : α) : Align n a b → Align (n + 1) (x :: a) b
  | ins {n : Nat} {a b : List α} (y : α) : Align n a b → Align (n + 1) a (y :: b)

theorem Align.self {α : Type} : ∀ a : List α, Align 0 a a
  | [] => .nil
  | x :: a => .same x (Align.self a)

theorem _root_.ArgRouter.Spec.Edit.cons {α : Type} {a b : List α} (x : α) (h : Edit a b) : Edit (x :: a) (x :: b) := by
  cases h with
  | insert l r y => exact .insert (x :: l) r y
  | delete l r y => exact .delete (x :: l) r y
  | replace l r y z => exact .replace (x :: l) r y z

theorem _root_.ArgRouter.Spec.Edits.cons {α : Type} {n : Nat} {a b : List α} (x : α) (h : Edits n a b) :
    Edits n (x :: a) (x :: b) := by
  induction h with
  | none a => exact .none _
  | step h _ ih => exact .step (Edit.cons x h) ih

theorem Align.edits {α : Type} {n : Nat} {a b : List α} (h : Align n a b) : Edits n a b := by
  induction h with
  | nil => exact .none _
  | same x _ ih => exact ih.cons x
  | sub x y _ ih => exact .step (.replace [] _ x y) (ih.cons y)
  | del x _ ih => exact .step (.delete [] _ x) ih
  | ins y _ ih => exact .step (.insert [] _ y) (ih.cons y)

/-- Leaving out the first character costs at most one. -/
theorem Align.drop_left {α : Type} {n : Nat} {a b : List α} {x : α} (h : Align n (x :: a) b) :
    ∃ m, m ≤ n + 1 ∧ Align m a b := by
  generalize hc : x :: a = c at h
  induction h generalizing a with
  | nil => cases hc
  | same y h _ => cases hc; exact ⟨_, Nat.le_refl _, .ins _ h⟩
  | sub y z h _ => cases hc; exact ⟨_, by omega, .ins _ h⟩
  | del y h _ => cases hc; exact ⟨_, by omega, h⟩
  | ins y _ ih =>
    obtain ⟨m, hm, h⟩ := ih hc
    exact ⟨m + 1, by omega, .ins _ h⟩

theorem Align.symm {α : Type} {n : Nat} {a b : List α} (h : Align n a b) : Align n b a := by
  induction h with
  | nil => exact .nil
  | same x _ ih => exact .same x ih
  | sub x y _ ih => exact .sub y x ih
  | del x _ ih => exact .ins x ih
  | ins y _ ih => exact .del y ih

theorem Align.drop_right {α : Type} {n : Nat} {a b : List α} {x : α} (h : Align n a (x :: b)) :
    ∃ m, m ≤ n + 1 ∧ Align m a b := by
  obtain ⟨m, hm, h'⟩ := h.symm.drop_left
  exact ⟨m, hm, h'.symm⟩

theorem Align.replace_left {α : Type} {n : Nat} {a b : List α} {x y : α} (h : Align n (y :: a) b) :
    ∃ m, m ≤ n + 1 ∧ Align m (x :: a) b := by
  generalize hc : y :: a = c at h
  induction h generalizing a with
  | nil => cases hc
  | same z h _ => cases hc; exact ⟨_, Nat.le_refl _, .sub _ _ h⟩
  | sub z w h _ => cases hc; exact ⟨_, by omega, .sub _ _ h⟩
  | del z h _ => cases hc; exact ⟨_, by omega, .del _ h⟩
  | ins z _ ih =>
    obtain ⟨m, hm, h⟩ := ih hc
    exact ⟨m + 1, by omega, .ins _ h⟩

/-- A change of the tail of a sequence carries over to the sequence. -/
theorem Align.under {α : Type} {a a' : List α} (z : α)
    (ih : ∀ n b, Align n a b → ∃ m, m ≤ n + 1 ∧ Align m a' b) {n : Nat} {b : List α}
    (h : Align n (z :: a) b) : ∃ m, m ≤ n + 1 ∧ Align m (z :: a') b := by
  generalize hc : z :: a = c at h
  induction h with
  | nil => cases hc
  | same y h _ =>
    cases hc
    obtain ⟨m, hm, h⟩ := ih _ _ h
    exact ⟨m, hm, .same _ h⟩
  | sub y w h _ =>
    cases hc
    obtain ⟨m, hm, h⟩ := ih _ _ h
    exact ⟨m + 1, by omega, .sub _ _ h⟩
  | del y h _ =>
    cases hc
    obtain ⟨m, hm, h⟩ := ih _ _ h
    exact ⟨m + 1, by omega, .del _ h⟩
  | ins y _ ih2 =>
    obtain ⟨m, hm, h⟩ := ih2 hc
    exact ⟨m + 1, by omega, .ins _ h⟩

theorem Align.prepend {α : Type} {a a' : List α} (l : List α)
    (h : ∀ n b, Align n a b → ∃ m, m ≤ n + 1 ∧ Align m a' b) :
    ∀ n b, Align n (l ++ a) b → ∃ m, m ≤ n + 1 ∧ Align m (l ++ a') b := by
  induction l with
  | nil => exact h
  | cons z l ih => exact fun n b hb => Align.under z ih hb

theorem _root_.ArgRouter.Spec.Edits.align {α : Type} {n : Nat} {a b : List α} (h : Edits n a b) :
    ∃ m, m ≤ n ∧ Align m a b := by
  induction h with
  | none a => exact ⟨0, Nat.le_refl _, .self a⟩
  | @step n a b c he _ ih =>
    obtain ⟨m, hm, h⟩ := ih
    have : ∃ k, k ≤ m + 1 ∧ Align k a c := by
      cases he with
      | insert l r x => exact Align.prepend l (fun n b h => h.drop_left) m _ h
      | delete l r x => exact Align.prepend l (fun n b h => ⟨n + 1, by omega, .del x h⟩) m _ h
      | replace l r x y => exact Align.prepend l (fun n b h => h.replace_left) m _ h
    obtain ⟨k, hk, h⟩ := this
    exact ⟨k, by omega, h⟩

/-- The least number of differences of an alignment. -/
def Least {α : Type} (a b : List α) (d : Nat) : Prop := Align d a b ∧ ∀ n, Align n a b → d ≤ n

theorem Least.nil_left {α : Type} (b : List α) : Least [] b b.length := by
  constructor
  · induction b with
    | nil => exact .nil
    | cons y b ih => exact .ins y ih
  · intro n h
    induction b generalizing n with
    | nil => exact Nat.zero_le _
    | cons y b ih => cases h with | ins _ h => have := ih _ h; simp only [List.length_cons]; omega

theorem Least.nil_right {α : Type} (a : List α) : Least a [] a.length :=
  ⟨(Least.nil_left a).1.symm, fun _ h => (Least.nil_left a).2 _ h.symm⟩

theorem Least.same {α : Type} {a b : List α} {d : Nat} (x : α) (h : Least a b d) :
    Least (x :: a) (x :: b) d := by
  refine ⟨.same x h.1, fun n hn => ?_⟩
  cases hn with
  | same _ hn => exact h.2 _ hn
  | sub _ _ hn => have := h.2 _ hn; omega
  | del _ hn =>
    obtain ⟨m, hm, h'⟩ := hn.drop_right
    have := h.2 _ h'; omega
  | ins _ hn =>
    obtain ⟨m, hm, h'⟩ := hn.drop_left
    have := h.2 _ h'; omega

theorem Least.different {α : Type} {a b : List α} {x y : α} {left upper corner : Nat} (hxy : x ≠ y)
    (h1 : Least (x :: a) b left) (h2 : Least a (y :: b) upper) (h3 : Least a b corner) :
    Least (x :: a) (y :: b) (min left (min upper corner) + 1) := by
  constructor
  · rcases Nat.le_total left (min upper corner) with h | h
    · rw [Nat.min_eq_left h]; exact .ins y h1.1
    · rw [Nat.min_eq_right h]
      rcases Nat.le_total upper corner with h | h
      · rw [Nat.min_eq_left h]; exact .del x h2.1
      · rw [Nat.min_eq_right h]; exact .sub x y h3.1
  · intro n hn
    cases hn with
    | same _ _ => exact absurd rfl hxy
    | sub _ _ hn => have := h3.2 _ hn; omega
    | del _ hn => have := h2.2 _ hn; omega
    | ins _ hn => have := h1.2 _ hn; omega

/-- The row holds, for each non-empty prefix of the rest of the second sequence, the distance of
the part `ra` of the first (read backwards); `rb` is the part of the second already passed. -/
def RowOf (ra : List Bytes) : List Bytes → List Bytes → List Nat → Prop
  | _, [], row => row = []
  | rb, c :: cs, row => ∃ v rest, row = v :: rest ∧ Least ra (c :: rb) v ∧ RowOf ra (c :: rb) cs rest

theorem levRow_correct (c1 : Bytes) (ra : List Bytes) (cs : List Bytes) :
    ∀ (rb : List Bytes) (row : List Nat) (left corner : Nat), RowOf ra rb cs row →
      Least (c1 :: ra) rb left → Least ra rb corner →
      RowOf (c1 :: ra) rb cs (levRow c1 cs row left corner) := by
  induction cs with
  | nil => intro rb row left corner h _ _; cases h; rfl
  | cons c2 cs ih =>
    rintro rb row left corner ⟨upper, rest, rfl, hu, hr⟩ hl hc
    rw [levRow]
    have hv : Least (c1 :: ra) (c2 :: rb)
        (if c1 = c2 then corner else min left (min upper corner) + 1) := by
      by_cases he : c1 = c2
      · rw [if_pos he, he]; exact hc.same c2
      · rw [if_neg he]; exact Least.different he hl hu hc
    exact ⟨_, _, rfl, hv, ih _ _ _ _ hr hv hu⟩

theorem levLoop_correct (b a : List Bytes) :
    ∀ (ra : List Bytes) (row : List Nat), RowOf ra [] b row →
      ∃ row', levLoop b a ra.length (ra.length :: row) = (ra.length + a.length) :: row' ∧
        RowOf (a.reverse ++ ra) [] b row' := by
  induction a with
  | nil => intro ra row h; exact ⟨row, rfl, h⟩
  | cons c1 a ih =>
    intro ra row h
    obtain ⟨row', h1, h2⟩ := ih (c1 :: ra) _
      (levRow_correct c1 ra b [] row (ra.length + 1) ra.length h (Least.nil_right (c1 :: ra))
        (Least.nil_right ra))
    refine ⟨row', ?_, ?_⟩
    · rw [levLoop, List.tail_cons]
      rw [show (c1 :: ra).length = ra.length + 1 from rfl] at h1
      rw [h1, List.length_cons]
      congr 1
      omega
    · rw [List.reverse_cons, List.append_assoc]; exact h2

theorem RowOf.last {ra : List Bytes} (cs : List Bytes) :
    ∀ (rb : List Bytes) (row : List Nat) (d : Nat), RowOf ra rb cs row → Least ra rb d →
      Least ra (cs.reverse ++ rb) ((d :: row).getLastD 0) := by
  induction cs with
  | nil => intro rb row d h hd; cases h; exact hd
  | cons c cs ih =>
    rintro rb row d ⟨v, rest, rfl, hv, hr⟩ hd
    rw [List.reverse_cons, List.append_assoc]
    exact ih (c :: rb) rest v hr hv

theorem rowOf_range (b : List Bytes) :
    ∀ (rb : List Bytes), RowOf [] rb b ((List.range' (rb.length + 1) b.length)) := by
  induction b with
  | nil => intro rb; rfl
  | cons c b ih =>
    intro rb
    refine ⟨rb.length + 1, List.range' (rb.length + 2) b.length, ?_, Least.nil_left (c :: rb), ?_⟩
    · rw [List.length_cons, List.range'_succ]
    · exact ih (c :: rb)

theorem levClusters_least (a b : List Bytes) : Least a.reverse b.reverse (levClusters a b) := by
  have h0 : RowOf [] [] b (List.range' 1 b.length) := rowOf_range b []
  obtain ⟨row', h1, h2⟩ := levLoop_correct b a [] _ h0
  have hr : List.range (b.length + 1) = 0 :: List.range' 1 b.length := by
    rw [List.range_eq_range', List.range'_succ]
  unfold levClusters
  rw [hr]
  rw [show ([] : List Bytes).length = 0 from rfl] at h1
  rw [h1]
  rw [List.append_nil] at h2
  have := RowOf.last b [] row' (0 + a.length) h2 (by
    have := Least.nil_right a.reverse
    rw [List.length_reverse] at this
    rwa [Nat.zero_add])
  rwa [List.append_nil] at this

theorem _root_.ArgRouter.Spec.Edit.reverse {α : Type} {a b : List α} (h : Edit a b) : Edit a.reverse b.reverse := by
  cases h with
  | insert l r x =>
    have := Edit.insert r.reverse l.reverse x
    simpa using this
  | delete l r x =>
    have := Edit.delete r.reverse l.reverse x
    simpa using this
  | replace l r x y =>
    have := Edit.replace r.reverse l.reverse x y
    simpa using this

theorem _root_.ArgRouter.Spec.Edits.reverse {α : Type} {n : Nat} {a b : List α} (h : Edits n a b) :
    Edits n a.reverse b.reverse := by
  induction h with
  | none a => exact .none _
  | step h _ ih => exact .step h.reverse ih

theorem Least.distance {α : Type} {a b : List α} {d : Nat} (h : Least a.reverse b.reverse d) :
    IsEditDistance a b d := by
  constructor
  · have := h.1.edits.reverse
    rwa [List.reverse_reverse, List.reverse_reverse] at this
  · intro n hn
    obtain ⟨m, hm, h'⟩ := hn.reverse.align
    have := h.2 m h'
    omega

/-- C31: the score of two strings is their edit distance, in grapheme clusters. -/
theorem C31_edit_distance (s t : Bytes) (a b : List Bytes) (ha : graphemes s = .ok a)
    (hb : graphemes t = .ok b) : ∃ d, levenshtein s t = .ok d ∧ IsEditDistance a b d := by
  unfold levenshtein
  have hnil : graphemes [] = .ok [] := rfl
  split
  · rename_i h
    have : s = [] := List.isEmpty_iff.1 h
    subst this
    rw [hnil] at ha
    cases ha
    refine ⟨b.length, by simp [gCount, hb], Least.distance ?_⟩
    have := Least.nil_left b.reverse
    rwa [List.length_reverse] at this
  · split
    · rename_i h
      have : t = [] := List.isEmpty_iff.1 h
      subst this
      rw [hnil] at hb
      cases hb
      refine ⟨a.length, by simp [gCount, ha], Least.distance ?_⟩
      have := Least.nil_right a.reverse
      rwa [List.length_reverse] at this
    · refine ⟨levClusters a b, by simp [ha, hb], (levClusters_least a b).distance⟩

/-- The distance is unique, so C31 determines the score. -/
theorem C31_unique {α : Type} (a b : List α) (d e : Nat) (h : IsEditDistance a b d)
    (h' : IsEditDistance a b e) : d = e :=
  Nat.le_antisymm (h.2 e h'.1) (h'.2 d h.1)

/-- C31: the strings "kitten" and "sitting" have distance 3; they are split into their letters. -/
example : graphemes (b "kitten") = .ok [b "k", b "i", b "t", b "t", b "e", b "n"] ∧
    levenshtein (b "kitten") (b "sitting") = .ok 3 := by decide +kernel

end Props

end ArgRouter
