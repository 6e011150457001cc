import Verif.Parse.Adapter

/-!
# C03, C04 – the token adapter
-/

namespace ArgRouter.Props

open Adapter

/-- The single list the adapter presents. -/
def tokenSeq (a : Adapter) : List Token := a.processed ++ a.unprocessed

/-- The iterator `begin() + n`. -/
def at_ (n : Nat) : AIter := begin_.add n

theorem size_eq (a : Adapter) : a.size = (tokenSeq a).length := by simp [size, tokenSeq]

theorem isEnd_at (a : Adapter) (n : Nat) : a.isEnd (at_ n) = decide (a.size ≤ n) := by
  simp [isEnd, at_, AIter.add, begin_]

theorem isEnd_end (a : Adapter) : a.isEnd end_ = true := by simp [isEnd, end_]

/-! ## C04 -/

/-- C04: transferring position `n` of the list leaves the list as it is, moves the boundary to just
after `n` (or leaves it where it was, if it is already further on). -/
theorem C04_transfer (a : Adapter) (n : Nat) (h : n < a.size) :
    tokenSeq (a.transfer (at_ n)) = tokenSeq a ∧
    (a.transfer (at_ n)).processed = (tokenSeq a).take (max (n + 1) a.processed.length) ∧
    (a.transfer (at_ n)).unprocessed = (tokenSeq a).drop (max (n + 1) a.processed.length) := by
  have he : a.isEnd (at_ n) = false := by rw [isEnd_at]; simpa using h
  have hi : (at_ n).i = n := by simp [at_, AIter.add, begin_]
  simp only [transfer, he, Bool.false_eq_true, if_false, hi]
  by_cases hc : n < a.processed.length
  · rw [if_pos (by omega)]
    have hm : max (n + 1) a.processed.length = a.processed.length := by omega
    simp [tokenSeq, hm]
  · rw [if_neg (by omega)]
    have hm : max (n + 1) a.processed.length = n + 1 := by omega
    have hk : ((n : Int) + 1 - a.processed.length).toNat = n + 1 - a.processed.length := by omega
    simp only [hk, hm, tokenSeq, List.take_append, List.drop_append]
    rw [List.take_of_length_le (by omega : a.processed.length ≤ n + 1),
      List.drop_eq_nil_of_le (by omega : a.processed.length ≤ n + 1)]
    simp

/-- C04: transferring the end iterator (or a position past the end) takes everything. -/
theorem C04_transfer_end (a : Adapter) (it : AIter) (h : a.isEnd it = true) :
    (a.transfer it).processed = tokenSeq a ∧ (a.transfer it).unprocessed = [] := by
  simp only [transfer, h, if_true, size, tokenSeq]
  by_cases hc : a.unprocessed = []
  · simp only [hc, List.length_nil, Nat.add_zero, List.append_nil]
    rw [if_pos (by omega)]; exact ⟨rfl, hc⟩
  · have : 0 < a.unprocessed.length := List.length_pos_iff.2 hc
    rw [if_neg (by omega)]
    have hk : (((a.processed.length + a.unprocessed.length : Nat) : Int) - 1 + 1 -
      a.processed.length).toNat = a.unprocessed.length := by omega
    rw [hk]; simp

/-- C04: whatever the iterator, no token is lost, duplicated, reordered or changed, and the
processed part only grows. -/
theorem C04_transfer_any (a : Adapter) (it : AIter) :
    tokenSeq (a.transfer it) = tokenSeq a ∧ a.processed <+: (a.transfer it).processed := by
  simp only [transfer, tokenSeq]
  generalize (if a.isEnd it = true then (a.size : Int) - 1 else it.i) = i
  split
  · exact ⟨rfl, List.prefix_refl _⟩
  · refine ⟨?_, List.prefix_append _ _⟩
    simp [List.append_assoc, List.take_append_drop]

example : (Adapter.transfer ⟨[⟨.long, b "a"⟩], [⟨.none, b "b"⟩, ⟨.none, b "c"⟩]⟩ (at_ 1)) =
    ⟨[⟨.long, b "a"⟩, ⟨.none, b "b"⟩], [⟨.none, b "c"⟩]⟩ := by decide +kernel

/-! ## C03 -/

/-- C03, sizing. -/
theorem C03_size (a : Adapter) : a.size = (tokenSeq a).length ∧ (a.isEmpty = true ↔ tokenSeq a = []) := by
  refine ⟨size_eq a, ?_⟩
  simp [isEmpty, tokenSeq]

/-- C03, reading: `*(begin() + n)` is element `n` of the list, and is only defined inside it. -/
theorem C03_read (a : Adapter) (n : Nat) :
    a.deref (at_ n) = match (tokenSeq a)[n]? with | some t => .ok t | none => .ub := by
  simp only [deref, at_, AIter.add, begin_, Int.zero_add, if_true, tokenSeq]
  by_cases h : n < a.processed.length
  · rw [if_neg (by omega), if_neg (by omega)]
    rw [List.getElem?_append_left h]
    simp only [Int.toNat_natCast]
    cases a.processed[n]? <;> rfl
  · rw [if_pos (by omega)]
    rw [List.getElem?_append_right (by omega)]
    have : ((n : Int) - a.processed.length).toNat = n - a.processed.length := by omega
    rw [this]
    cases a.unprocessed[n - a.processed.length]? <;> rfl

/-- C03, iterating: `begin() + n` compares equal to `end()` exactly from the length of the list
on, and positions inside the list are equal exactly if they are the same. -/
theorem C03_iterate (a : Adapter) (n m : Nat) :
    (a.itEq (at_ n) end_ = true ↔ (tokenSeq a).length ≤ n) ∧
    (n < (tokenSeq a).length → (a.itEq (at_ n) (at_ m) = true ↔ n = m)) := by
  rw [← size_eq]
  constructor
  · simp only [itEq, isEnd_at, isEnd_end]
    by_cases h : a.size ≤ n <;> simp [h]
  · intro h
    simp only [itEq, isEnd_at]
    have h1 : ¬ a.size ≤ n := by omega
    by_cases h2 : a.size ≤ m
    · simp [h1, h2]; omega
    · simp only [h1, h2, decide_false, Bool.and_false, Bool.or_false, Bool.false_eq_true,
        if_false, at_, AIter.add, begin_, beq_iff_eq]
      omega

/-- C03, searching: the search used by the policies finds the first matching element at or after a
position, or the end. -/
theorem C03_find (a : Adapter) (p : Token → Bool) (n : Nat) (h : n ≤ (tokenSeq a).length)
    (fuel : Nat) (hf : a.size + 1 - n ≤ fuel) :
    a.findFrom p fuel (at_ n) =
      match ((tokenSeq a).drop n).findIdx? p with
      | some k => .ok (at_ (n + k))
      | none => .ok (at_ (tokenSeq a).length) := by
  induction fuel generalizing n with
  | zero => rw [size_eq] at hf; omega
  | succ fuel ih =>
    by_cases hn : n = (tokenSeq a).length
    · subst hn
      simp only [findFrom, (C03_iterate a (tokenSeq a).length 0).1.2 (Nat.le_refl _), if_true,
        List.drop_length, List.findIdx?_nil]
    · have hlt : n < (tokenSeq a).length := by omega
      have hne : a.itEq (at_ n) end_ = false := by
        rw [← Bool.not_eq_true, (C03_iterate a n 0).1]; omega
      simp only [findFrom, hne, Bool.false_eq_true, if_false, C03_read]
      rw [List.getElem?_eq_getElem hlt, List.drop_eq_getElem_cons hlt, List.findIdx?_cons]
      simp only [Out.ok_bind]
      by_cases hp : p (tokenSeq a)[n] = true
      · simp [hp]
      · have hadd : (at_ n).add 1 = at_ (n + 1) := by
          simp [at_, AIter.add, begin_]
        simp only [hp, Bool.false_eq_true, if_false]
        rw [hadd, ih (n + 1) (by omega) (by omega)]
        cases ((tokenSeq a).drop (n + 1)).findIdx? p with
        | none => rfl
        | some j => simp only [Option.map_some]; rw [show n + 1 + j = n + (j + 1) by omega]

/-- C03, overwriting: `(begin() + n).set(t)` replaces element `n`. -/
theorem C03_set (a : Adapter) (n : Nat) (t : Token) (h : n < (tokenSeq a).length) :
    ∃ a', a.set (at_ n) t = .ok a' ∧ tokenSeq a' = (tokenSeq a).set n t := by
  obtain ⟨h1, h2, h3⟩ := C04_transfer a n (by rw [size_eq]; exact h)
  have hlen : n < (a.transfer (at_ n)).processed.length := by
    rw [h2, List.length_take]; omega
  have hi : (at_ n).i = n := by simp [at_, AIter.add, begin_]
  have ho : (at_ n).owned = true := by simp [at_, AIter.add, begin_]
  refine ⟨_, by
    simp only [Adapter.set, hi, ho, true_and]
    rw [if_pos ⟨by omega, by omega⟩], ?_⟩
  rw [← h1]
  simp only [tokenSeq, Int.toNat_natCast]
  rw [List.set_append_left _ _ hlen]

theorem insertSeq (P U : List Token) (ts : List Token) (n : Nat) (h : n ≤ P.length) :
    (P.take n ++ ts ++ P.drop n) ++ U = (P ++ U).take n ++ ts ++ (P ++ U).drop n := by
  rw [List.take_append_of_le_length h, List.drop_append_of_le_length h]
  simp [List.append_assoc]

/-- The insertion point lies in the processed part once the preceding tokens are transferred. -/
theorem insert_point (a : Adapter) (n : Nat) (h : n ≤ (tokenSeq a).length) :
    let a' := a.transfer ((at_ n).add (-1))
    tokenSeq a' = tokenSeq a ∧ n ≤ a'.processed.length ∧
      (if a'.isEnd (at_ n) then (a'.processed.length : Int) else (at_ n).i) = n := by
  intro a'
  have hseq : tokenSeq a' = tokenSeq a := (C04_transfer_any a _).1
  have hi : (at_ n).i = n := by simp [at_, AIter.add, begin_]
  have hend : a'.isEnd (at_ n) = decide ((tokenSeq a).length ≤ n) := by
    rw [isEnd_at, size_eq, hseq]
  cases n with
  | zero =>
    refine ⟨hseq, Nat.zero_le _, ?_⟩
    rw [hend, hi]
    by_cases h0 : (tokenSeq a).length ≤ 0
    · have : tokenSeq a' = [] := by rw [hseq]; exact List.length_eq_zero_iff.1 (by omega)
      have : a'.processed = [] := by
        simp only [tokenSeq, List.append_eq_nil_iff] at this; exact this.1
      simp [this]
    · simp only [decide_eq_true_eq, if_neg h0]
  | succ m =>
    have hadd : (at_ (m + 1)).add (-1) = at_ m := by
      simp only [at_, AIter.add, begin_, AIter.mk.injEq, true_and]; omega
    obtain ⟨h1, h2, h3⟩ := C04_transfer a m (by rw [size_eq]; omega)
    have hp : a'.processed = (tokenSeq a).take (max (m + 1) a.processed.length) := by
      show (a.transfer _).processed = _
      rw [hadd, h2]
    have hple : a.processed.length ≤ (tokenSeq a).length := by simp [tokenSeq]
    refine ⟨hseq, by rw [hp, List.length_take]; omega, ?_⟩
    rw [hend, hi]
    by_cases h0 : (tokenSeq a).length ≤ m + 1
    · simp only [decide_eq_true_eq, if_pos h0, hp, List.length_take]; omega
    · simp only [decide_eq_true_eq, if_neg h0]

/-- C03, inserting one token at position `n` (up to and including the end): the list gets the token
there and the returned iterator points to it. -/
theorem C03_insert (a : Adapter) (n : Nat) (t : Token) (h : n ≤ (tokenSeq a).length) :
    ∃ a', a.insert (at_ n) t = .ok (a', at_ n) ∧
      tokenSeq a' = (tokenSeq a).take n ++ t :: (tokenSeq a).drop n ∧ a'.deref (at_ n) = .ok t := by
  obtain ⟨h1, h2, h3⟩ := insert_point a n h
  have hit : (⟨true, (at_ n).i⟩ : AIter) = at_ n := by simp [at_, AIter.add, begin_]
  have hs : tokenSeq { (a.transfer ((at_ n).add (-1))) with
        processed := (a.transfer ((at_ n).add (-1))).processed.take n ++
          t :: (a.transfer ((at_ n).add (-1))).processed.drop n } =
      (tokenSeq a).take n ++ t :: (tokenSeq a).drop n := by
    rw [← h1]
    have := insertSeq (a.transfer ((at_ n).add (-1))).processed
      (a.transfer ((at_ n).add (-1))).unprocessed [t] n h2
    simpa [tokenSeq] using this
  refine ⟨{ (a.transfer ((at_ n).add (-1))) with
        processed := (a.transfer ((at_ n).add (-1))).processed.take n ++
          t :: (a.transfer ((at_ n).add (-1))).processed.drop n }, ?_, hs, ?_⟩
  · simp only [Adapter.insert, h3]
    rw [if_pos ⟨by omega, by omega⟩, hit]
    simp only [Int.toNat_natCast]
  · rw [C03_read, hs]
    have hl : ((tokenSeq a).take n).length = n := by rw [List.length_take]; omega
    rw [List.getElem?_append_right (by omega), hl]
    simp

/-- C03, inserting a range. -/
theorem C03_insert_range (a : Adapter) (n : Nat) (ts : List Token) (h : n ≤ (tokenSeq a).length) :
    ∃ a', a.insertRange (at_ n) ts = .ok (a', at_ n) ∧
      tokenSeq a' = (tokenSeq a).take n ++ ts ++ (tokenSeq a).drop n := by
  obtain ⟨h1, h2, h3⟩ := insert_point a n h
  have hit : (⟨true, (at_ n).i⟩ : AIter) = at_ n := by simp [at_, AIter.add, begin_]
  refine ⟨{ (a.transfer ((at_ n).add (-1))) with
        processed := (a.transfer ((at_ n).add (-1))).processed.take n ++ ts ++
          (a.transfer ((at_ n).add (-1))).processed.drop n }, ?_, ?_⟩
  · simp only [insertRange, h3]
    rw [if_pos ⟨by omega, by omega⟩, hit]
    simp only [Int.toNat_natCast]
  · rw [← h1]
    exact insertSeq _ _ ts n h2

/-- C03, inserting at `end()` appends, leaving every token processed. The iterator returned is always
`begin()`: it is at the inserted token only if the list was empty (`C03_insert_end_iterator_false`). -/
theorem C03_insert_end_partial (a : Adapter) (t : Token) :
    ∃ a', a.insert end_ t = .ok (a', begin_) ∧ tokenSeq a' = tokenSeq a ++ [t] ∧ a'.unprocessed = [] ∧
      (tokenSeq a = [] → a'.deref begin_ = .ok t) := by
  have he : a.isEnd (end_.add (-1)) = true := by simp [isEnd, end_, AIter.add]
  obtain ⟨h1, h2⟩ := C04_transfer_end a _ he
  refine ⟨⟨tokenSeq a ++ [t], []⟩, ?_, by simp [tokenSeq], rfl, fun hn => by simp [deref, begin_, hn]⟩
  simp only [Adapter.insert, isEnd_end, if_true]
  rw [if_pos ⟨by omega, by omega⟩]
  simp only [h1, h2, Int.toNat_natCast, List.take_length, List.drop_length, List.append_nil]
  rfl

/-- C03, inserting a range at `end()`: the same. -/
theorem C03_insert_range_end_partial (a : Adapter) (ts : List Token) :
    ∃ a', a.insertRange end_ ts = .ok (a', begin_) ∧ tokenSeq a' = tokenSeq a ++ ts ∧
      a'.unprocessed = [] := by
  have he : a.isEnd (end_.add (-1)) = true := by simp [isEnd, end_, AIter.add]
  obtain ⟨h1, h2⟩ := C04_transfer_end a _ he
  refine ⟨⟨tokenSeq a ++ ts, []⟩, ?_, by simp [tokenSeq], rfl⟩
  simp only [Adapter.insertRange, isEnd_end, if_true]
  rw [if_pos ⟨by omega, by omega⟩]
  simp only [h1, h2, Int.toNat_natCast, List.take_length, List.drop_length, List.append_nil]
  rfl

example : Adapter.insertRange ⟨[⟨.long, b "a"⟩], [⟨.none, b "b"⟩]⟩ end_ [⟨.none, b "c"⟩, ⟨.none, b "d"⟩] =
    .ok (⟨[⟨.long, b "a"⟩, ⟨.none, b "b"⟩, ⟨.none, b "c"⟩, ⟨.none, b "d"⟩], []⟩, begin_) := by decide +kernel

/-- C03 is false for the iterator returned by `insert(end(), t)`: it points at the first token, not
at the inserted one. -/
theorem C03_insert_end_iterator_false :
    ∃ (a a' : Adapter) (t : Token) (it : AIter), a.insert end_ t = .ok (a', it) ∧
      a'.deref it ≠ .ok t :=
  ⟨⟨[⟨.none, b "x"⟩], []⟩, ⟨[⟨.none, b "x"⟩, ⟨.none, b "y"⟩], []⟩, ⟨.none, b "y"⟩, ⟨true, 0⟩,
    by decide +kernel⟩

/-- C03, erasing position `n`: it leaves the list, the returned iterator is at the element after
it; nothing is transferred. -/
theorem C03_erase (a : Adapter) (n : Nat) (h : n < (tokenSeq a).length) :
    ∃ a', a.erase (at_ n) = .ok (a', at_ n) ∧ tokenSeq a' = (tokenSeq a).eraseIdx n ∧
      (a'.processed = a.processed ∨ a'.unprocessed = a.unprocessed) := by
  have he : a.isEnd (at_ n) = false := by rw [isEnd_at, size_eq]; simpa using h
  have hi : (at_ n).i = n := by simp [at_, AIter.add, begin_]
  simp only [erase, he, Bool.false_eq_true, if_false, hi]
  rw [if_neg (by omega)]
  by_cases hc : n < a.processed.length
  · rw [if_pos (by omega)]
    refine ⟨_, rfl, ?_, .inr rfl⟩
    simp only [tokenSeq, Int.toNat_natCast]
    rw [List.eraseIdx_append_of_lt_length hc]
  · rw [if_neg (by omega)]
    refine ⟨_, rfl, ?_, .inl rfl⟩
    have : ((n : Int) - a.processed.length).toNat = n - a.processed.length := by omega
    simp only [tokenSeq, this]
    rw [List.eraseIdx_append_of_length_le (by omega)]

/-- C03, erasing the end does nothing. -/
theorem C03_erase_end (a : Adapter) (it : AIter) (h : a.isEnd it = true) :
    a.erase it = .ok (a, it) := by simp [erase, h]

example : ∃ a', (Adapter.insert ⟨[], [⟨.none, b "a"⟩, ⟨.none, b "b"⟩]⟩ (at_ 1) ⟨.short, b "x"⟩) =
    .ok (a', at_ 1) ∧ tokenSeq a' = [⟨.none, b "a"⟩, ⟨.short, b "x"⟩, ⟨.none, b "b"⟩] :=
  ⟨⟨[⟨.none, b "a"⟩, ⟨.short, b "x"⟩], [⟨.none, b "b"⟩]⟩, by decide +kernel⟩

end ArgRouter.Props
