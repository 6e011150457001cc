import Verif.Spec.Utf8

/-!
# Texts that are read past their end

A character with the lead byte DF or EF is read one byte too long. The byte it takes is the first of the
next character. If that was its only byte, nothing else goes wrong; otherwise the bytes left of it are
read two at a time, which may again take one byte of the character after it.
-/

namespace ArgRouter.Spec

/-- Whether a text is read past its end; `short` says that the first byte of the text has been taken by
what precedes it. -/
def spills (short : Bool) : List Char → Bool
  | [] => short
  | c :: cs =>
    if short then spills (decide ((encChar c).length = 2 ∨ (encChar c).length = 4)) cs
    else spills (leadDForEF c) cs

end ArgRouter.Spec
