import Verif.Valid.Asserts

/-!
# Compile-time strings

Both versions of include/arg_router/utility/compile_time_string.hpp: the macro `S_` of C++17 and the
class `str` of C++20. A string is a C++ type here, so two strings can be different although they have
the same text. The conversion of integers is in `Util/Decimal`.
-/

namespace ArgRouter

namespace Cts17

/-- What `S_` can be given, compile_time_string.hpp:572: a string literal, a `std::string_view` or a
character. -/
inductive Tok where
  | literal (s : Bytes)
  | view (s : Bytes)
  | char (c : UInt8)

/-- `cts_detail::get`, compile_time_string.hpp:489-504. The array of a literal ends with a null
character. -/
def get : Tok → Nat → UInt8
  | .literal s, i => if i < s.length + 1 then (s ++ [0]).getD i 0 else 0
  | .view s, i => if i < s.length then s.getD i 0 else 0
  | .char c, i => if i < 1 then c else 0

/-- `S_` with `AR_MAX_CTS_SIZE` = `max`, compile_time_string.hpp:508-532, 559-574: the first `max`
characters without the null characters. `none`: the static assertion at 518-519 fails. The type
`compile_time_string<Cs...>` is its list of characters (332-358), which is also its text. -/
def make (max : Nat) (tok : Tok) : Option Bytes :=
  let stripped := ((List.range max).map (get tok)).filter (· != 0)
  if stripped.length < max then some stripped else none

/-- `append_t` and `operator+`, compile_time_string.hpp:364-390. -/
def append (s t : Bytes) : Bytes := s ++ t

/-- `create_sequence_cts`, compile_time_string.hpp:401-417. -/
def sequence (n : Nat) (c : UInt8) : Bytes := List.replicate n c

end Cts17

namespace Cts20

/-- `compile_time_string_storage<N>::value`, compile_time_string.hpp:23-78: the array a type `str<S>`
is made of; two types are the same if the arrays are. -/
abbrev Storage := Bytes

/-- The storage of a string literal, with its null character, 41-44 and literals.hpp:17-21. -/
def ofLiteral (s : Bytes) : Storage := s ++ [0]

/-- The storage of an array or a span, utility/compile_time_string.hpp:32-38 (AR_STRING_SV, 309). -/
def ofArray (s : Bytes) : Storage := s

/-- The storage of a character, 47 and 81 (`short_name<'h'>`, short_name.hpp:58-59). -/
def ofChar (c : UInt8) : Storage := [c]

/-- `calculate_size`, compile_time_string.hpp:175-184. -/
def size : Storage → Nat
  | [] => 0
  | c :: s => if c == 0 then 0 else size s + 1

/-- `get()`, compile_time_string.hpp:116-119. -/
def text (s : Storage) : Bytes := s.take (size s)

/-- `operator+` and `append_t`, compile_time_string.hpp:127-170. -/
def append (s t : Storage) : Storage :=
  (List.range (size s)).map (fun i => s.getD i 0) ++ (List.range (size t)).map (fun i => t.getD i 0) ++
    [0]

/-- `substr<Pos, Count>()`, compile_time_string.hpp:145-151, 186-190. `none`: the static assertion
fails. -/
def substr (pos count : Nat) (s : Storage) : Option Storage :=
  if pos + count < size s then some ((List.range count).map (fun i => s.getD (pos + i) 0) ++ [0])
  else none

/-- `create_sequence_cts`, compile_time_string.hpp:208-226. -/
def sequence (n : Nat) (c : UInt8) : Storage := List.replicate n c

end Cts20

/-- The name policy with another string. Model only: the parameter `S` of policy/long_name.hpp:22,
short_name.hpp:27, none_name.hpp:25 replaced. -/
def Policy.mapName (f : Bytes → Bytes) : Policy → Policy
  | .longName s => .longName (f s)
  | .shortName s => .shortName (f s)
  | .noneName s => .noneName (f s)
  | p => p

mutual
/-- The tree with other strings as names. Model only: the names of a tree of tree_node.hpp:25
replaced. -/
def Node.mapNames (f : Bytes → Bytes) : Node → Node
  | .mk k u h v p cs => .mk k u h v (p.map (Policy.mapName f)) (Node.mapNamesList f cs)
/-- `mapNames` of the children. Model only: the names of trees of tree_node.hpp:25 replaced. -/
def Node.mapNamesList (f : Bytes → Bytes) : List Node → List Node
  | [] => []
  | c :: cs => c.mapNames f :: Node.mapNamesList f cs
end

/-- The program in C++20, for a tree whose names are storages: everything but types uses `get()`.
utility/compile_time_string.hpp:116-119. -/
def Node.run20 (tree : Node) : Node := tree.mapNames Cts20.text

/-- `root.parse(...)` compiles in C++20, for a tree whose names are storages: the rules of the
validator compare types (validator.hpp:206-220), the assertions of policies and nodes compare texts. -/
def compiles20 (cfg : Config) (depth : Nat) (rules : List Rule) (tree : Node) : Bool :=
  (tree.kind == .root) && validate rules tree &&
    ((tree.run20.walk []).all fun (n, parents) => nodeAsserts cfg depth n parents) &&
    helpAsserts tree.run20

end ArgRouter
