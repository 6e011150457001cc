import Verif.Basic

/-!
# The generator of translations

Model of cmake/translation_generator/translation_generator_script.cmake, which turns a file of
translations into a C++ header. CMake itself is modelled where the script relies on it: its lists are
strings with `;` between the elements.
-/

namespace ArgRouter.Tools

open ArgRouter

/-- `file(STRINGS ... ENCODING UTF-8)` as used at translation_generator_script.cmake:38: the lines of
the file. A carriage return is dropped, so are the characters after the last newline if there are
none. Simplified: the file has no other control characters than tabs and newlines, and is
well-formed UTF-8. -/
def fileStrings : Bytes → Bytes → List Bytes
  | acc, [] => if acc.isEmpty then [] else [acc]
  | acc, c :: rest =>
    if c = 0x0D then fileStrings acc rest
    else if c = 0x0A then acc :: fileStrings [] rest
    else fileStrings (acc ++ [c]) rest

/-- How `file(STRINGS)` writes a string into a list: `;` becomes `\;`. Used at
cmake/translation_generator/translation_generator_script.cmake:38. -/
def escapeItem : Bytes → Bytes
  | [] => []
  | c :: rest => if c = 0x3B then 0x5C :: 0x3B :: escapeItem rest else c :: escapeItem rest

/-- The value of a list variable. Used at
cmake/translation_generator/translation_generator_script.cmake:38. -/
def joinItems : List Bytes → Bytes
  | [] => []
  | [x] => escapeItem x
  | x :: y :: xs => escapeItem x ++ 0x3B :: joinItems (y :: xs)

/-- How CMake splits a list (`cmExpandList`, with empty elements kept): at each `;` that is not
behind a backslash and not inside square brackets. `nest` is the number of open brackets, `acc`
the element so far. Used at cmake/translation_generator/translation_generator_script.cmake:39,
43. -/
def splitItems : Int → Bytes → Bytes → List Bytes
  | _, acc, [] => [acc]
  | nest, acc, [c] => if c = 0x3B ∧ nest = 0 then [acc, []] else [acc ++ [c]]
  | nest, acc, c :: d :: rest =>
    if c = 0x5C ∧ d = 0x3B then splitItems nest (acc ++ [d]) rest
    else if c = 0x3B ∧ nest = 0 then acc :: splitItems 0 [] (d :: rest)
    else splitItems (if c = 0x5B then nest + 1 else if c = 0x5D then nest - 1 else nest)
      (acc ++ [c]) (d :: rest)

/-- `list(LENGTH)` and `list(GET)` on a list variable: an empty value has no elements.
cmake/translation_generator/translation_generator_script.cmake:39, 43. -/
def listItems (value : Bytes) : List Bytes :=
  if value.isEmpty then [] else splitItems 0 [] value

/-- `__ar_translation_string`, translation_generator_script.cmake:5-11. -/
def translationString (cpp17 : Bool) (s : Bytes) : Bytes :=
  if cpp17 then b "S_(" ++ s ++ b ")" else b "str<" ++ s ++ b ">"

/-- `string(FIND line " = ")`, translation_generator_script.cmake:59: the text before and after the
first occurrence; `none`: there is none. -/
def splitEntry : Bytes → Option (Bytes × Bytes)
  | [] => none
  | c :: rest =>
    if (b " = ").isPrefixOf (c :: rest) then some ([], rest.drop 2)
    else (splitEntry rest).map fun (k, v) => (c :: k, v)

/-- One round of the loop, translation_generator_script.cmake:42-83. `section_` is
`error_code_section`, `last`: this is the last line. `none`: the script fails. -/
def genLine (cpp17 last : Bool) (line : Bytes) (section_ : Bool) (out : Bytes) :
    Option (Bool × Bytes) :=
  if line.isEmpty || line.head? == some 0x23 then some (section_, out)
  else if line == b "[error_code]" then
    some (true, out ++ b "\n    using error_code_translations = std::tuple<\n")
  else
    match splitEntry line with
    | none => none
    | some (key, value) =>
      let value := translationString cpp17 value
      if section_ then
        some (section_, out ++ b "        std::pair<traits::integral_constant<error_code::" ++ key ++
          b ">, " ++ value ++ b ">" ++ (if last then b "\n" else b ",\n"))
      else some (section_, out ++ b "    using " ++ key ++ b " = " ++ value ++ b ";\n")

/-- The loop, translation_generator_script.cmake:42-83. -/
def genLines (cpp17 : Bool) : List Bytes → Bool → Bytes → Option (Bool × Bytes)
  | [], section_, out => some (section_, out)
  | line :: lines, section_, out =>
    match genLine cpp17 lines.isEmpty line section_ out with
    | none => none
    | some (section_, out) => genLines cpp17 lines section_ out

/-- `__ar_translation_body_generator`, translation_generator_script.cmake:13-97, without the text
before it: the class. For a file without lines the range of the loop is not valid and the script
fails. -/
def genBody (cpp17 : Bool) (language file : Bytes) : Option Bytes :=
  let lines := listItems (joinItems (fileStrings [] file))
  let header := b "template <>\nclass translation<" ++
    translationString cpp17 (b "\"" ++ language ++ b "\"") ++ b ">\n{\npublic:\n"
  if lines.isEmpty then none
  else
    (genLines cpp17 lines false header).map fun (section_, out) =>
      out ++ (if section_ then b "    >;\n" else []) ++ b "};\n"

/-- The header written for a file, translation_generator_script.cmake:97-121. -/
def genHeader (language file : Bytes) : Option Bytes := do
  let cpp20 ← genBody false language file
  let cpp17 ← genBody true language file
  pure (b "// Generated by CMake, do not modify manually\nnamespace arg_router::multi_lang\n{\n#ifdef AR_ENABLE_CPP20_STRINGS\n" ++
    cpp20 ++ b "#else\n" ++ cpp17 ++ b "#endif\n}  // namespace arg_router::multi_lang\n")

end ArgRouter.Tools
