import Verif.Utf8.Range

/-! # Generated from include/arg_router/utility/utf8/whitespace.hpp:18-30 (do not edit) -/

namespace ArgRouter.Utf8

/-- Part 0 of `whitespaceTable`, whitespace.hpp:18-30. -/
def whitespaceTable0 : List Range := [
  ⟨0x9, 0xD, 0⟩, ⟨0x20, 0x20, 0⟩, ⟨0x85, 0x85, 0⟩, ⟨0xA0, 0xA0, 0⟩,
  ⟨0x1680, 0x1680, 0⟩, ⟨0x2000, 0x200A, 0⟩, ⟨0x2028, 0x2028, 0⟩, ⟨0x2029, 0x2029, 0⟩,
  ⟨0x202F, 0x202F, 0⟩, ⟨0x205F, 0x205F, 0⟩, ⟨0x3000, 0x3000, 0⟩]

/-- The table of whitespace.hpp:18-30, 11 entries. -/
def whitespaceTable : List Range :=
  whitespaceTable0

end ArgRouter.Utf8
