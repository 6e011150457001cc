import Verif.Basic

/-!
# Tokens

Model of include/arg_router/parsing/token_type.hpp and of the prefixes in
include/arg_router/config.hpp.
-/

namespace ArgRouter

/-- `config::long_prefix` and `config::short_prefix`, config.hpp:48-63 (build-time settings). -/
structure Config where
  longPrefix : Bytes
  shortPrefix : Bytes
  deriving DecidableEq, Repr

/-- The defaults `--` and `-`. config.hpp:19-25. -/
def Config.default : Config := ⟨b "--", b "-"⟩

/-- `to_string(prefix_type)`, token_type.hpp:25-32. -/
def prefixStr (cfg : Config) : Prefix → Bytes
  | .long => cfg.longPrefix
  | .short => cfg.shortPrefix
  | .none => []

/-- `to_string(const token_type&)`, token_type.hpp:74-78. -/
def Token.str (cfg : Config) (t : Token) : Bytes := prefixStr cfg t.pre ++ t.name

/-- `to_string(const vector<token_type>&)`, token_type.hpp:85-95: joined by `", "`. -/
def tokensStr (cfg : Config) : List Token → Bytes
  | [] => []
  | [t] => t.str cfg
  | t :: ts => t.str cfg ++ b ", " ++ tokensStr cfg ts

/-- `token.substr(0, p.size()) == p`. parsing/token_type.hpp:107, 111, 133, 139. -/
def startsWith (p s : Bytes) : Bool := s.take p.length == p

/-- `get_token_type(std::string_view)`, token_type.hpp:103-116. -/
def getTokenType (cfg : Config) (s : Bytes) : Token :=
  if startsWith cfg.longPrefix s then ⟨.long, s.drop cfg.longPrefix.length⟩
  else if startsWith cfg.shortPrefix s then ⟨.short, s.drop cfg.shortPrefix.length⟩
  else ⟨.none, s⟩

/-- `get_token_type(const Node&, std::string_view)`, token_type.hpp:126-146. `hasLong`/`hasShort`:
the node has a long/short name. -/
def getTokenTypeNode (cfg : Config) (hasLong hasShort : Bool) (s : Bytes) : Token :=
  if hasLong && startsWith cfg.longPrefix s then ⟨.long, s.drop cfg.longPrefix.length⟩
  else if hasShort && (startsWith cfg.shortPrefix s && !startsWith cfg.longPrefix s) then
    ⟨.short, s.drop cfg.shortPrefix.length⟩
  else ⟨.none, s⟩

end ArgRouter
