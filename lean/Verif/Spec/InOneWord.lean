import Verif.Spec.Typed

/-!
# Specification vocabulary: short flags in one word
-/

namespace ArgRouter.Spec

open Utf8

/-- The argument is typed with its short name `g`, as in `-g`; its values, if it has any, are the words
that follow. -/
structure ByShortName (cfg : Config) (f : TypedArg) (g : Bytes) : Prop where
  name : f.argument.2.shortName = some g
  word : f.word = cfg.shortPrefix ++ g
  short : ¬ cfg.longPrefix <+: f.word
  separator : f.shape.separator = none
  values : ∀ rest, f.shape.values f.argument.2 (f.more.map (Token.mk .none) ++ rest) =
    .ok (f.values, rest)

/-- The word is the short names of two or more arguments, as `-xyz` is for `-x -y -z`. All but the last
have no values, the first is one that may be written like this, and nothing declared before the first
has that word as a label or takes words without a label. -/
structure InOneWord (cfg : Config) (mode : Node) (word : Bytes) (fs : List TypedArg) : Prop where
  letters : ∃ x gs, ShortText cfg ⟨.none, word⟩ x ∧ graphemes x = .ok gs ∧
    Zip (ByShortName cfg) fs gs
  several : 2 ≤ fs.length
  flags : ∀ f ∈ fs.dropLast, f.more = []
  expands : ∀ f ∈ fs.head?, f.shape.expands = true
  first : ∀ f ∈ fs.head?, ∃ before after, arguments mode = before ++ f.argument :: after ∧
    ∀ x ∈ before, x.2.isNamed = true ∧ ¬ Mentions cfg x.2 ⟨.none, word⟩

/-- The run `x`, where arguments are given by short names in one word, did the same as the run `y`, where
each is a word of its own; or both failed, without a call, because one of these arguments had been given
before. Then it is named as it was typed. -/
inductive SameAsApart (s : St) (word : Bytes) (fs : List TypedArg) (x y : Out Unit × St) : Prop
  | same : x = y → SameAsApart s word fs x y
  | again {f : TypedArg} {t : Token} {s' : St} : f ∈ fs →
      (fs.head? = some f ∧ t = ⟨.none, word⟩ ∨
        ∃ g, f.argument.2.shortName = some g ∧ t = ⟨.short, g⟩) →
      x = (.throw ⟨.argument_has_already_been_set, [t]⟩, s') →
      y = (.throw ⟨.argument_has_already_been_set, [⟨.none, f.word⟩]⟩, s') → s'.calls = s.calls →
      SameAsApart s word fs x y

end ArgRouter.Spec
