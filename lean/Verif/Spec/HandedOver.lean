import Verif.Spec.Proper
import Verif.Props.Number

/-!
# Specification vocabulary: values that are handed over on a command line

A program that starts another one has values in its hands, and writes them on a command line. The property
is C126.
-/

namespace ArgRouter.Spec

/-- The word is a way to write the value, for an argument of this type: a number that the type can hold in
decimal notation (of a type of more than eight bits, and without a minus if it is unsigned, see C85), a
text as it is, a truth value as `true` or `false`. -/
inductive Writes : ValueType → Scalar → Bytes → Prop
  | number {t : IntType} {n : Int} {w : Bytes} : 8 < t.bits → IntType.Holds t n → Number w n →
      (t.signed = false → ∀ r, w ≠ b "-" ++ r) → Writes (intType t) (.int n) w
  | text {w : Bytes} : Writes textType (.str w) w
  | yes : Writes boolValue (.bool true) (b "true")
  | no : Writes boolValue (.bool false) (b "false")

/-- An argument that has a value of its own and a type of the library, and does not depend on others. -/
structure Standard (c : Node) (sh : Shape) : Prop where
  declared : Declared c sh
  single : c.children = []
  value : c.hasNoResult = false
  parser : ∀ f, .customParser f ∉ c.policies
  alias : sh.aliasOf = none
  needs : sh.needs = none

/-- No argument declared before has the word as a label, or takes words without a label. -/
def Unclaimed (cfg : Config) (before : List Node) (w : Bytes) : Prop :=
  ∀ d ∈ before, d.isNamed = true ∧ ¬ Mentions cfg d ⟨.none, w⟩

/-- The argument takes exactly `n` words after its label. -/
def TakesWords (sh : Shape) (n : Nat) : Prop :=
  sh.separator = none ∧ sh.marker = none ∧ sh.min = n ∧ sh.max = n

/-- The words to write so that the argument has the value. -/
inductive Hands (cfg : Config) (before : List Node) (c : Node) (sh : Shape) :
    Value → List Bytes → Prop
  /-- nothing, if it is the default -/
  | default {v : Value} : Fallback c v → Judged c v (.ok ()) → Hands cfg before c sh v []
  /-- a flag -/
  | flag {l : Bytes} : c.kind = .flag → OnceOnly c → TakesWords sh 0 → Spelled cfg c l →
      Unclaimed cfg before l → Hands cfg before c sh (.one (.bool true)) [l]
  /-- a flag that counts, as often as it takes -/
  | counted {l : Bytes} {width n : Nat} : c.kind = .countingFlag →
      (∀ old v, Merges c old v (countingMerge width old v)) → TakesWords sh 0 →
      Spelled cfg c l → Unclaimed cfg before l → 0 < n → n < 2 ^ width →
      Judged c (.one (.int n)) (.ok ()) →
      Hands cfg before c sh (.one (.int n)) (List.replicate n l)
  /-- a label and the value -/
  | value {l w : Bytes} {x : Scalar} : TakesValues c = true → OnceOnly c → TakesWords sh 1 →
      Spelled cfg c l → Unclaimed cfg before l → Writes c.vt x w → Judged c (.one x) (.ok ()) →
      Hands cfg before c sh (.one x) [l, w]
  /-- a label and the value, with the separator of the argument, in one word; the value may not be the
  empty text -/
  | joined {l w : Bytes} {ch : UInt8} {x : Scalar} : TakesValues c = true → OnceOnly c →
      sh.separator = some ch → sh.marker = none → Spelled cfg c l → ch ∉ l → w ≠ [] →
      Unclaimed cfg before (l ++ ch :: w) → Writes c.vt x w → Judged c (.one x) (.ok ()) →
      Hands cfg before c sh (.one x) [l ++ ch :: w]
  /-- a label and several values, for an argument that takes as many -/
  | several {l : Bytes} {ws : List Bytes} {t : ValueType} {xs : List Scalar} : TakesValues c = true →
      OnceOnly c → TakesWords sh ws.length → Spelled cfg c l → Unclaimed cfg before l → c.vt = listOf t →
      Zip (Writes t) xs ws → Judged c (.many xs) (.ok ()) → Hands cfg before c sh (.many xs) (l :: ws)
  /-- a label, several values that are not the end marker of the argument, and that marker -/
  | marked {l m : Bytes} {ws : List Bytes} {t : ValueType} {xs : List Scalar} : TakesValues c = true →
      OnceOnly c → sh.separator = none → sh.marker = some m → sh.min ≤ ws.length →
      ws.length ≤ sh.max → m ∉ ws → Spelled cfg c l → Unclaimed cfg before l → c.vt = listOf t →
      Zip (Writes t) xs ws → Judged c (.many xs) (.ok ()) →
      Hands cfg before c sh (.many xs) (l :: (ws ++ [m]))

/-- The words to write so that the arguments have these values. The last argument may be a positional one
with any number of values. -/
inductive HandsAll (cfg : Config) : (before arguments : List Node) → List Value → List Bytes → Prop
  | done {before : List Node} : HandsAll cfg before [] [] []
  | next {before cs : List Node} {c : Node} {sh : Shape} {v : Value} {vs : List Value}
      {ws more : List Bytes} : Standard c sh → c.isNamed = true → Hands cfg before c sh v ws →
      HandsAll cfg (before ++ [c]) cs vs more → HandsAll cfg before (c :: cs) (v :: vs) (ws ++ more)
  | last {before : List Node} {c : Node} {sh : Shape} {t : ValueType} {xs : List Scalar} {w : Bytes}
      {ws : List Bytes} : Standard c sh → c.isNamed = false → TakesValues c = true → OnceOnly c →
      sh.marker = none → c.vt = listOf t → sh.min ≤ (w :: ws).length → (w :: ws).length ≤ sh.max →
      Unclaimed cfg before w → Zip (Writes t) xs (w :: ws) → Judged c (.many xs) (.ok ()) →
      HandsAll cfg before [c] [.many xs] (w :: ws)
  | lastDefault {before : List Node} {c : Node} {sh : Shape} {v : Value} : Standard c sh →
      Fallback c v → Judged c v (.ok ()) → HandsAll cfg before [c] [v] []

end ArgRouter.Spec
