import Verif.Tests.Base
import Verif.Utf8.Levenshtein
import Verif.Utf8.Line
import Verif.Parse.Suggest
import Verif.Util.StringPolicy
import Verif.Util.DynView
import Verif.Util.Decimal
import Verif.Util.CtString

/-!
# Tests of the text utilities

/repo/test/utility/utf8/code_point_test.cpp, utf8/levenshtein_distance_test.cpp, utf8_test.cpp,
exception_formatter_test.cpp, string_to_policy_test.cpp, compile_time_string_test.cpp
and math_test.cpp.
-/

namespace ArgRouter.Tests.Text

open Utf8

/-! ## Text -/

/-- code_point_test.cpp:18-46. -/
example :
    cpCount (b "") = 0 ∧
    cpCount (b "hello") = 5 ∧
    cpCount (b "zß水🍌") = 4 ∧
    cpCount (b "Δàrö") = 4 ∧
    cpCount (b "🇦🇬") = 2 ∧
    cpCount (b "m̃") = 2 := by decide +kernel

/-- code_point_test.cpp:48-74. -/
example :
    cpSize (b "") = 0 ∧
    cpSize (b "h") = 1 ∧
    cpSize (b "hello") = 1 ∧
    cpSize (b "Δ") = 2 ∧
    cpSize (b "猫") = 3 ∧
    cpSize (b "🍌") = 4 := by decide +kernel

/-- code_point_test.cpp:76-114. -/
example :
    decode [] = Option.none ∧
    decode (b "g") = some 103 ∧
    decode (b "gh") = some 103 ∧
    decode (b "Δ") = some 916 ∧
    decode (b "Δh") = some 916 ∧
    decode (b "gΔ") = some 103 ∧
    decode (b "🙂") = some 128578 := by decide +kernel

/-- utf8_test.cpp:19-66. -/
example :
    cpList (b "a🙂bΔ猫") = .ok [b "a", b "🙂", b "b", b "Δ", b "猫"] ∧
    cpList [] = .ok [] := by decide +kernel

/-- utf8_test.cpp:68-114. -/
example :
    graphemes (b "क़m̃🙂b🇦🇬Δ猫") =
      .ok [b "क़", b "m̃", b "🙂", b "b", b "🇦🇬", b "Δ", b "猫"] ∧
    graphemes [] = .ok [] := by decide +kernel

/-- utf8_test.cpp:116-134. -/
example :
    gCount (b "") = .ok 0 ∧
    gCount (b "🇦🇬") = .ok 1 ∧
    gCount (b "🇦🇬m̃") = .ok 2 ∧
    gCount (b "hello") = .ok 5 := by decide +kernel

/-- utf8_test.cpp:136-158. -/
example :
    isWhitespace (b "") = false ∧
    isWhitespace (b "a") = false ∧
    isWhitespace (b " ") = true ∧
    isWhitespace (b "🙂") = false ∧
    isWhitespace (b " ") = true := by decide +kernel

/-- utf8_test.cpp:160-204. -/
example :
    containsWhitespace (b "") = .ok false ∧
    containsWhitespace (b "hello") = .ok false ∧
    containsWhitespace (b "zß水🍌") = .ok false ∧
    containsWhitespace (b " ") = .ok true ∧
    containsWhitespace (b " hello") = .ok true ∧
    containsWhitespace (b "hello ") = .ok true ∧
    containsWhitespace (b "hel lo") = .ok true ∧
    containsWhitespace (b " hello") = .ok true ∧
    containsWhitespace (b "hello ") = .ok true ∧
    containsWhitespace (b "hel lo") = .ok true := by decide +kernel

/-- utf8_test.cpp:206-236. -/
example :
    terminalWidth (b "") = .ok 0 ∧
    terminalWidth (b "hello") = .ok 5 ∧
    terminalWidth (b "zß水🍌") = .ok 6 ∧
    terminalWidth (b "🙂") = .ok 2 ∧
    terminalWidth (b "猫") = .ok 2 ∧
    terminalWidth (b "🇦🇬") = .ok 2 ∧
    terminalWidth (b "m̃") = .ok 1 := by decide +kernel

/-- utf8_test.cpp:238-311. -/
example :
    lines (b "hello 🙂 zß水🍌   goodbye") 7 = .ok [b "hello ", b "🙂 zß水", b "🍌   ", b "goodbye"] ∧
    lines (b "hello 🙂 zß水🍌   goodbye") 80 = .ok [b "hello 🙂 zß水🍌   goodbye"] ∧
    lines (b "hello🙂zß水🍌 goodbye") 7 = .ok [b "hello🙂", b "zß水🍌 ", b "goodbye"] ∧
    lines (b "hello 🙂 zß水🍌   goodbye") 0 = .ok [] ∧
    lines [] 11 = .ok [] ∧
    (LIter.deref <$> LIter.init (b "hello 🙂 zß水🍌   goodbye") 21) = .ok (b "hello 🙂 zß水🍌   ") ∧
    (LIter.deref <$> LIter.init (b "hello🙂zß水🍌 goodbye") 11) = .ok (b "hello🙂zß水") := by decide +kernel

/-- levenshtein_distance_test.cpp:44-64. -/
example :
    levenshtein (b "cat") (b "dog") = .ok 3 ∧
    levenshtein (b "hello") (b "world") = .ok 4 ∧
    levenshtein (b "") (b "abc") = .ok 3 ∧
    levenshtein (b "abcd") (b "") = .ok 4 ∧
    levenshtein (b "こんにちは") (b "hello") = .ok 5 ∧
    levenshtein (b "こんにちは") (b "こんにち") = .ok 1 ∧
    levenshtein (b "こんにち") (b "こんにちは") = .ok 1 ∧
    levenshtein (b "🇬🇧🇦🇹🇮🇪") (b "🇬🇧🇮🇹🇮🇪") = .ok 1 ∧
    levenshtein (b "क़m̃🙂b🇦🇬Δ猫") (b "क़m̃🙂b🇦🇬ち") = .ok 2 ∧
    levenshtein (b "क़m̃abcΔ猫") (b "क़m̃🙂b🇦🇬Δ猫") = .ok 2 := by decide +kernel

/-! ## closest_matching_child_node -/

/-- levenshtein_distance_test.cpp:68-82. The nodes of the test are of no class; flags stand in. -/
def animals : Node := root [
  flag [long "cat", short "c", .runtimeEnable true], flag [long "dog"], flag [none "Cam"],
  flag [none "Ella", .runtimeEnable false],
  mode [short "a", .runtimeEnable false] [flag [short "b"]],
  oneOf boolType [.required] [flag [long "hello", short "h"], flag [short "w"]]]

/-- The tokens found. -/
def near (s : String) : Out (List Token) := closest .default animals ⟨.none, b s⟩

/-- levenshtein_distance_test.cpp:84-113. -/
example : near "--cat" = .ok [⟨.long, b "cat"⟩] ∧ near "--bat" = .ok [⟨.long, b "cat"⟩] ∧
    near "--blob" = .ok [⟨.long, b "dog"⟩] ∧
    near "--Ella" = .ok [⟨.long, b "hello"⟩, ⟨.none, b "One of: --hello,-w"⟩] ∧
    near "Spam" = .ok [⟨.none, b "Cam"⟩] ∧
    near "Yellow" = .ok [⟨.long, b "hello"⟩, ⟨.none, b "One of: --hello,-w"⟩] ∧
    near "-f" = .ok [⟨.short, b "c"⟩] ∧ near "-b" = .ok [⟨.short, b "c"⟩] := by decide +kernel

/-! ## exception_formatter -/

/-- `exception_formatter<S>::format(tokens)`. -/
def says (s : String) (tokens : List Token) : Out Bytes := ArgRouter.format .default (b s) tokens
def l (s : String) : Token := ⟨.long, b s⟩
def s (s : String) : Token := ⟨.short, b s⟩
def n (s : String) : Token := ⟨.none, b s⟩

/-- exception_formatter_test.cpp:18-70. -/
example : says "Hello {}" [l "world"] = .ok (b "Hello --world") ∧
    says "Hello {}!" [l "world"] = .ok (b "Hello --world!") ∧
    says "{} world!" [n "Hello"] = .ok (b "Hello world!") ∧
    says "{} {}!" [n "Hello", l "world"] = .ok (b "Hello --world!") ∧
    says "Hello {}, {}, {}" [s "a", l "b", n "c"] = .ok (b "Hello -a, --b, c") ∧
    says "{} Cam!" [n "Hello", l "world"] = .ok (b "Hello Cam!") ∧
    says "{} {}!" [n "Hello"] = .ok (b "Hello !") ∧ says "{} {}!" [] = .ok (b " !") := by
  decide +kernel

/-- exception_formatter_test.cpp:72-123. -/
example : says "Hello {, }" [s "a", l "b", n "c"] = .ok (b "Hello -a, --b, c") ∧
    says "Hello {}, {, }" [s "a", l "b"] = .ok (b "Hello -a, --b") ∧
    says "Hello {}, {, }, d" [s "a", l "b", n "c"] = .ok (b "Hello -a, --b, c, d") ∧
    says "Hello {}, {} - {, }, d" [s "a", l "b", n "c"] = .ok (b "Hello -a, --b - c, d") ∧
    says "Hello {}, {} - {, }, d" [] = .ok (b "Hello ,  - , d") ∧
    says "Hello {}, { -> }" [s "a", l "b", n "c"] = .ok (b "Hello -a, --b -> c") := by
  decide +kernel

/-- exception_formatter_test.cpp:125-147. -/
example : says "Hello" [s "a", l "b", n "c"] = .ok (b "Hello: -a, --b, c") ∧
    says "Hello" [] = .ok (b "Hello") := by decide +kernel

/-- exception_formatter_test.cpp:143-165: what does not compile. -/
example : placeholderCheck (b "{...} {...}") = false ∧ placeholderCheck (b "{...} {}") = false ∧
    placeholderCheck (b "{} {...}") = true := by decide +kernel

/-! ## string_to_policy -/

/-- string_to_policy_test.cpp:42-60. -/
example : Mapper.pick .firstString [] = Option.none ∧
    Mapper.pick .firstString [b "h", b "hello"] = some (b "hello") ∧
    Mapper.pick .firstString [b "hello", b "h"] = some (b "hello") ∧
    Mapper.pick .firstString [b "h", b "h"] = Option.none ∧
    Mapper.pick .firstString [b "hello", b "world"] = some (b "hello") := by decide +kernel

/-- string_to_policy_test.cpp:62-80. -/
example : Mapper.pick .secondString [] = Option.none ∧
    Mapper.pick .secondString [b "h", b "hello"] = Option.none ∧
    Mapper.pick .secondString [b "hello", b "h"] = Option.none ∧
    Mapper.pick .secondString [b "h", b "h"] = Option.none ∧
    Mapper.pick .secondString [b "hello", b "world"] = some (b "world") := by decide +kernel

/-- string_to_policy_test.cpp:82-100. -/
example : Mapper.pick .singleChar [] = Option.none ∧
    Mapper.pick .singleChar [b "h", b "hello"] = some (b "h") ∧
    Mapper.pick .singleChar [b "hello", b "h"] = some (b "h") ∧
    Mapper.pick .singleChar [b "h", b "h"] = some (b "h") ∧
    Mapper.pick .singleChar [b "hello", b "world"] = Option.none := by decide +kernel

/-- string_to_policy_test.cpp:102-143. -/
example : Mapper.pick .firstText [] = Option.none ∧
    Mapper.pick .firstText [b "h", b "hello"] = some (b "h") ∧
    Mapper.pick .firstText [b "hello", b "h"] = some (b "hello") ∧
    Mapper.pick .firstText [b "h", b "h"] = some (b "h") ∧
    Mapper.pick .firstText [b "hello", b "world"] = some (b "hello") ∧
    Mapper.pick .secondText [] = Option.none ∧ Mapper.pick .secondText [b "hello"] = Option.none ∧
    Mapper.pick .secondText [b "h", b "hello"] = some (b "hello") ∧
    Mapper.pick .secondText [b "hello", b "h"] = some (b "h") ∧
    Mapper.pick .secondText [b "h", b "h"] = some (b "h") ∧
    Mapper.pick .secondText [b "hello", b "world"] = some (b "world") := by decide +kernel

/-- The policies of string_to_policy_test.cpp. -/
inductive Pol where
  | long (s : Bytes)
  | short (s : Bytes)
  | display (s : Bytes)
  | desc (s : Bytes)
  | max42
  deriving DecidableEq

/-- The parameters of a factory: bare strings and policies. -/
abbrev str (s : String) : FactoryParam Pol := .str (b s)
abbrev pol (p : Pol) : FactoryParam Pol := .other p

/-- string_to_policy_test.cpp:145-187. -/
example : convertStrings [(.firstString, Pol.long)] [] = some [] ∧
    convertStrings [(.firstString, Pol.long)] [pol (.desc (b "hello"))] = some [.desc (b "hello")] ∧
    convertStrings [(.firstString, Pol.long)] [pol .max42, str "long", pol (.desc (b "hello"))] =
      some [.long (b "long"), .max42, .desc (b "hello")] ∧
    convertStrings [(.firstString, Pol.long)] [str "long", pol .max42, pol (.desc (b "hello"))] =
      some [.long (b "long"), .max42, .desc (b "hello")] ∧
    convertStrings [(.firstString, Pol.long)] [pol .max42, pol (.desc (b "hello")), str "long"] =
      some [.long (b "long"), .max42, .desc (b "hello")] := by decide +kernel

/-- string_to_policy_test.cpp:189-227. -/
example : convertStrings [(.firstString, Pol.long), (.secondString, Pol.desc)]
      [pol (.desc (b "hello"))] = some [.desc (b "hello")] ∧
    convertStrings [(.firstString, Pol.long), (.secondString, Pol.desc)]
      [pol .max42, str "hello", str "desc"] = some [.long (b "hello"), .desc (b "desc"), .max42] ∧
    convertStrings [(.firstString, Pol.long), (.secondString, Pol.desc)]
      [str "hello", pol .max42, str "desc"] = some [.long (b "hello"), .desc (b "desc"), .max42] ∧
    convertStrings [(.firstString, Pol.long), (.secondString, Pol.desc)]
      [pol .max42, str "hello"] = some [.long (b "hello"), .max42] := by decide +kernel

/-- string_to_policy_test.cpp:229-325. -/
example : convertStrings [(.singleChar, Pol.short)] [pol .max42, str "l", pol (.desc (b "hello"))] =
      some [.short (b "l"), .max42, .desc (b "hello")] ∧
    convertStrings [(.singleChar, Pol.short)] [pol .max42, pol (.desc (b "hello")), str "l"] =
      some [.short (b "l"), .max42, .desc (b "hello")] ∧
    convertStrings [(.firstText, Pol.display)] [pol (.display (b "hello"))] =
      some [.display (b "hello")] ∧
    convertStrings [(.firstText, Pol.display)] [str "l", pol .max42, pol (.desc (b "hello"))] =
      some [.display (b "l"), .max42, .desc (b "hello")] ∧
    convertStrings (textMappings Pol.display Pol.desc) [str "l", str "hello", pol .max42] =
      some [.display (b "l"), .desc (b "hello"), .max42] ∧
    convertStrings (textMappings Pol.display Pol.desc) [str "l", pol .max42, str "hello"] =
      some [.display (b "l"), .desc (b "hello"), .max42] ∧
    convertStrings (textMappings Pol.display Pol.desc) [pol .max42, str "l", str "hello"] =
      some [.display (b "l"), .desc (b "hello"), .max42] := by decide +kernel

/-- string_to_policy_test.cpp:327-390. -/
example : convertStrings (labelledMappings Pol.long Pol.desc Pol.short) [pol (.desc (b "hello"))] =
      some [.desc (b "hello")] ∧
    convertStrings (labelledMappings Pol.long Pol.desc Pol.short)
      [pol .max42, str "s", pol (.desc (b "hello"))] =
      some [.short (b "s"), .max42, .desc (b "hello")] ∧
    convertStrings (labelledMappings Pol.long Pol.desc Pol.short)
      [pol .max42, str "long", pol (.desc (b "hello"))] =
      some [.long (b "long"), .max42, .desc (b "hello")] ∧
    convertStrings (labelledMappings Pol.long Pol.desc Pol.short)
      [pol .max42, str "long", pol (.desc (b "hello")), str "s"] =
      some [.long (b "long"), .short (b "s"), .max42, .desc (b "hello")] ∧
    convertStrings (labelledMappings Pol.long Pol.desc Pol.short)
      [pol .max42, str "long", str "hello", str "s"] =
      some [.long (b "long"), .desc (b "hello"), .short (b "s"), .max42] ∧
    convertStrings (labelledMappings Pol.long Pol.desc Pol.short)
      [str "long", str "s", pol .max42, str "hello"] =
      some [.long (b "long"), .desc (b "hello"), .short (b "s"), .max42] := by decide +kernel

/-- string_to_policy_test.cpp:392-417: a string that is left over does not compile. -/
example : convertStrings [(.firstString, Pol.long)] [str "long", str "hello"] = Option.none := by
  decide +kernel

/-! ## compile_time_string and math -/

/-- compile_time_string_test.cpp:22-152. -/
example : Cts17.make 80 (.literal (b "")) = some [] ∧
    Cts17.make 80 (.literal (b "hello")) = some (b "hello") ∧
    Cts17.make 80 (.literal (List.replicate 80 97)) = Option.none ∧
    Cts20.text (Cts20.ofLiteral (b "hello")) = b "hello" ∧
    Cts20.text (Cts20.ofArray (b "hello")) = b "hello" ∧ Cts20.text (Cts20.ofChar 97) = b "a" ∧
    Cts20.text (Cts20.ofLiteral []) = [] ∧
    Cts17.append (b "hello ") (Cts17.append (b "world") []) = b "hello world" ∧
    Cts20.append (Cts20.ofLiteral (b "hello "))
      (Cts20.append (Cts20.ofLiteral (b "world")) (Cts20.ofLiteral [])) =
      Cts20.ofLiteral (b "hello world") ∧
    Cts20.append (Cts20.append (Cts20.ofLiteral (b "hello ")) (Cts20.ofLiteral (b "world")))
      (Cts20.ofLiteral []) = Cts20.ofLiteral (b "hello world") := by decide +kernel

/-- compile_time_string_test.cpp:178-209 and math_test.cpp:23-31. -/
example : ctsOfInt 0 = b "0" ∧ ctsOfInt 42 = b "42" ∧ ctsOfInt 2345324 = b "2345324" ∧
    ctsOfInt (-5) = b "-5" ∧ ctsOfInt (-34534) = b "-34534" ∧
    numDigits 0 = 1 ∧ numDigits 42 = 2 ∧ numDigits 100 = 3 ∧ numDigits 4345432 = 7 ∧
    numDigits (-42) = 2 := by decide +kernel

end ArgRouter.Tests.Text
