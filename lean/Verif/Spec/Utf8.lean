import Verif.Basic

/-!
# Specification vocabulary for UTF-8 text

Well-formed UTF-8 text is the encoding of a list of Unicode scalar values. Both `Char` (a Unicode
scalar value) and `String.utf8EncodeChar` (the encoding of one scalar value) are those of the Lean
core library and are independent of the model of the C++ code.
-/

namespace ArgRouter.Spec

/-- The UTF-8 encoding of one Unicode scalar value. -/
abbrev encChar (c : Char) : Bytes := String.utf8EncodeChar c

/-- The UTF-8 encoding of a sequence of Unicode scalar values. -/
def enc (cs : List Char) : Bytes := cs.flatMap encChar

@[simp] theorem enc_nil : enc [] = [] := rfl
@[simp] theorem enc_cons (c : Char) (cs : List Char) : enc (c :: cs) = encChar c ++ enc cs := rfl
theorem enc_append (cs ds : List Char) : enc (cs ++ ds) = enc cs ++ enc ds := by
  simp [enc]

/-- The scalar values whose UTF-8 lead byte is 0xDF (two byte form) or 0xEF (three byte form). -/
def leadDForEF (c : Char) : Bool :=
  (0x7C0 ≤ c.toNat && c.toNat ≤ 0x7FF) || (0xF000 ≤ c.toNat && c.toNat ≤ 0xFFFF)

end ArgRouter.Spec

namespace ArgRouter.Spec

/-- Unicode's White_Space property (PropList.txt, version 14), by listing its members. -/
def isUnicodeWhitespace (c : Char) : Bool :=
  (0x9 ≤ c.toNat && c.toNat ≤ 0xD) || c.toNat == 0x20 || c.toNat == 0x85 || c.toNat == 0xA0 ||
  c.toNat == 0x1680 || (0x2000 ≤ c.toNat && c.toNat ≤ 0x200A) || c.toNat == 0x2028 ||
  c.toNat == 0x2029 || c.toNat == 0x202F || c.toNat == 0x205F || c.toNat == 0x3000

/-- Text without characters whose lead byte is 0xDF or 0xEF. -/
def Plain (cs : List Char) : Prop := ∀ c ∈ cs, leadDForEF c = false

instance (cs : List Char) : Decidable (Plain cs) := by unfold Plain; infer_instance

theorem Plain.cons {c : Char} {cs : List Char} (h : Plain (c :: cs)) :
    leadDForEF c = false ∧ Plain cs :=
  ⟨h c (by simp), fun d hd => h d (by simp [hd])⟩

theorem Plain.append_iff {cs ds : List Char} : Plain (cs ++ ds) ↔ Plain cs ∧ Plain ds := by
  simp only [Plain, List.mem_append]
  constructor
  · intro h; exact ⟨fun c hc => h c (.inl hc), fun c hc => h c (.inr hc)⟩
  · rintro ⟨h1, h2⟩ c (hc | hc)
    · exact h1 c hc
    · exact h2 c hc

end ArgRouter.Spec
