import Verif.Lemmas.Range
import Verif.Utf8.TableWhitespace
import Verif.Utf8.TableDoubleWidth
import Verif.Utf8.TableZeroWidth
import Verif.Utf8.TableGrapheme
import Verif.Utf8.TableLine

/-! # C37, C38: packed ranges and table lookup -/

namespace ArgRouter.Props

open ArgRouter.Utf8

/-! ## C37 – range entries survive packing -/

/-- C37: packing a range of 21-bit code points with six bits of metadata and reading it back gives
the same numbers. -/
theorem C37_pack_roundtrip (first last : UInt32) (md : UInt8)
    (hf : first.toNat < 2 ^ 21) (hl : last.toNat < 2 ^ 21) (hm : md.toNat < 2 ^ 6) :
    (Packed.mk' first last md).first = first ∧ (Packed.mk' first last md).last = last ∧
    (Packed.mk' first last md).md = md := by
  refine ⟨UInt32.toNat_inj.1 ?_, UInt32.toNat_inj.1 ?_, UInt8.toNat_inj.1 ?_⟩
  · rw [Packed.toNat_first, packed_d0, packed_d1, packed_d2]; omega
  · rw [Packed.toNat_last, packed_d2, packed_d3, packed_d4, packed_d5]; omega
  · rw [Packed.toNat_md, packed_d5]; omega

example : (Packed.mk' 0x1F1E6 0x10FFFF 38).first = 0x1F1E6 ∧
    (Packed.mk' 0x1F1E6 0x10FFFF 38).last = 0x10FFFF ∧
    (Packed.mk' 0x1F1E6 0x10FFFF 38).md = 38 :=
  C37_pack_roundtrip _ _ _ (by decide) (by decide) (by decide)

/-- Larger inputs are truncated to their low bits (the documented behaviour). -/
theorem C37_pack_truncates (first last : UInt32) (md : UInt8) :
    (Packed.mk' first last md).first.toNat = first.toNat % 2 ^ 21 ∧
    (Packed.mk' first last md).last.toNat = last.toNat % 2 ^ 21 ∧
    (Packed.mk' first last md).md.toNat = md.toNat % 2 ^ 6 := by
  refine ⟨?_, ?_, ?_⟩
  · rw [Packed.toNat_first, packed_d0, packed_d1, packed_d2]; omega
  · rw [Packed.toNat_last, packed_d2, packed_d3, packed_d4, packed_d5]; omega
  · rw [Packed.toNat_md, packed_d5]; omega

/-! ## C38 – table lookup is exact -/

/-- A table whose entries are non-empty, in ascending order and disjoint. -/
def SortedDisjoint (t : List Range) : Prop :=
  (∀ r ∈ t, r.first ≤ r.last) ∧ t.Pairwise (fun a b => a.last < b.first)

/-- C38: in a sorted table of disjoint ranges the lookup returns the range containing the code
point, and nothing exactly when there is none. -/
theorem C38_lookup (t : List Range) (ht : SortedDisjoint t) (cp : Nat) (r : Range) :
    findRange t cp = some r ↔ r ∈ t ∧ r.first ≤ cp ∧ cp ≤ r.last := by
  constructor
  · exact findRange_sound
  · rintro ⟨hr, h1, h2⟩
    obtain ⟨r', hr'⟩ := Option.isSome_iff_exists.1
      ((findRange_isSome_iff ht.2 ht.1).2 ⟨r, hr, h1, h2⟩)
    obtain ⟨h3, h4, h5⟩ := findRange_sound hr'
    rw [hr']
    obtain ⟨i, hi, rfl⟩ := List.getElem_of_mem hr
    obtain ⟨j, hj, rfl⟩ := List.getElem_of_mem h3
    have hp := List.pairwise_iff_getElem.1 ht.2
    rcases Nat.lt_trichotomy i j with h | h | h
    · have := hp i j hi hj h; omega
    · subst h; rfl
    · have := hp j i hj hi h; omega

theorem C38_lookup_none (t : List Range) (ht : SortedDisjoint t) (cp : Nat) :
    findRange t cp = none ↔ ∀ r ∈ t, ¬ (r.first ≤ cp ∧ cp ≤ r.last) := by
  rw [← Option.not_isSome_iff_eq_none, findRange_isSome_iff ht.2 ht.1]
  constructor
  · intro h r hr hc; exact h ⟨r, hr, hc⟩
  · rintro h ⟨r, hr, hc⟩; exact h r hr hc

theorem sortedDisjoint_of_check {t : List Range} (h : sortedB t = true) : SortedDisjoint t :=
  ⟨sortedB_wf h, sortedB_pairwise h⟩

/-- C38, second half: the five shipped tables meet the precondition. -/
theorem C38_shipped_tables :
    SortedDisjoint whitespaceTable ∧ SortedDisjoint doubleWidthTable ∧
    SortedDisjoint zeroWidthTable ∧ SortedDisjoint graphemeTable ∧ SortedDisjoint lineTable :=
  ⟨sortedDisjoint_of_check (by decide +kernel), sortedDisjoint_of_check (by decide +kernel),
   sortedDisjoint_of_check (by decide +kernel), sortedDisjoint_of_check (by decide +kernel),
   sortedDisjoint_of_check (by decide +kernel)⟩

/-- All entries of the shipped tables fit the packed representation of C37. -/
theorem C38_shipped_tables_packable :
    ∀ t ∈ [whitespaceTable, doubleWidthTable, zeroWidthTable, graphemeTable, lineTable],
      ∀ r ∈ t, r.first < 2 ^ 21 ∧ r.last < 2 ^ 21 ∧ r.md < 2 ^ 6 := by
  have h : [whitespaceTable, doubleWidthTable, zeroWidthTable, graphemeTable, lineTable].all
      (fun t => t.all fun r => decide (r.first < 2 ^ 21) && decide (r.last < 2 ^ 21)
        && decide (r.md < 2 ^ 6)) = true := by decide +kernel
  intro t ht r hr
  have := List.all_eq_true.1 (List.all_eq_true.1 h t ht) r hr
  simp only [Bool.and_eq_true, decide_eq_true_eq] at this
  exact ⟨this.1.1, this.1.2, this.2⟩

example : findRange graphemeTable 0x301 = some ⟨0x300, 0x36F, 4⟩ := by decide +kernel
example : findRange lineTable 0x61 = some ⟨0x61, 0x7A, 1⟩ := by decide +kernel

end ArgRouter.Props
