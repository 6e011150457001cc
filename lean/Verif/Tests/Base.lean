import Verif.Parse.Classes
import Verif.Exc.Root
import Verif.Util.Number
import Verif.Valid.Asserts

/-!
# The project's own tests, run on the model

The modules in this directory repeat tests of /repo/test with the model in place of the library: the
tree of the test, its command lines and what the test expects. They are tests of the model, not
proofs about it: what is proved holds of the code as far as the model is the code, and here is where
that can be seen. Each example cites the test it repeats.
-/

namespace ArgRouter.Tests

mutual
/-- Number the nodes, parents first: nodes of different types must have different hashes. -/
def number (i : Nat) : Node → Node × Nat
  | .mk k _ _ v p cs =>
    let r := numberList (i + 1) cs
    (.mk k i i v p r.1, r.2)
/-- ... of a list of children. -/
def numberList (i : Nat) : List Node → List Node × Nat
  | [] => ([], i)
  | c :: cs =>
    let r := number i c
    let rs := numberList r.2 cs
    (r.1 :: rs.1, rs.2)
end

/-! The creation functions, without the numbers. -/

/-- `root(...)` with the default validator: the root is node 1. -/
def root (children : List Node) : Node := (number 1 (mkRoot 0 0 children)).1
/-- `mode(...)`. -/
def mode (user : List Policy) (children : List Node) : Node := mkMode 0 0 user children
/-- `flag(...)`. -/
def flag (user : List Policy) : Node := mkFlag .default 0 0 user
/-- `counting_flag<T>(...)`. -/
def countingFlag (width : Nat) (user : List Policy) : Node := mkCountingFlag .default 0 0 width user
/-- `arg<T>(...)`. -/
def arg (vt : ValueType) (user : List Policy) : Node := mkArg 0 0 vt user
/-- `multi_arg<T>(...)`. -/
def multiArg (vt : ValueType) (user : List Policy) : Node := mkMultiArg 0 0 vt user
/-- `positional_arg<T>(...)`. -/
def positional (vt : ValueType) (user : List Policy) : Node := mkPositional 0 0 vt user
/-- `forwarding_arg(...)`. -/
def forwarding (user : List Policy) : Node := mkForwarding 0 0 user
/-- `one_of(...)`. -/
def oneOf (vt : ValueType) (user : List Policy) (children : List Node) : Node :=
  mkOneOf .default 0 0 vt user children
/-- `alias_group(...)`. -/
def aliasGroup (vt : ValueType) (user : List Policy) (children : List Node) : Node :=
  mkAliasGroup .default 0 0 vt user children

/-- `int`. -/
def int : ValueType := intType ⟨32, true⟩
/-- `std::string_view`, `std::string`. -/
def text : ValueType := textType
/-- `double`, which is not modelled: texts of digits with a point between them, kept as they are. -/
def double : ValueType :=
  ⟨false, .one (.str (b "0")), fun s =>
    if !s.isEmpty && s.all (fun c => (48 ≤ c && c ≤ 57) || c == 46) then .ok (.str s)
    else .throw ⟨.failed_to_parse, [⟨.none, s⟩]⟩⟩

/-- `long_name`. -/
def long (s : String) : Policy := .longName (b s)
/-- `short_name`. -/
def short (s : String) : Policy := .shortName (b s)
/-- `none_name`. -/
def none (s : String) : Policy := .noneName (b s)
/-- `display_name`. -/
def display (s : String) : Policy := .displayName (b s)
/-- `description`. -/
def desc (s : String) : Policy := .description (b s)
/-- `min_count`. -/
def minCount (n : Nat) : Policy := .minMaxCount n sizeMax
/-- `max_count`. -/
def maxCount (n : Nat) : Policy := .minMaxCount 0 n

/-- `true`. -/
def yes : Value := .one (.bool true)
/-- `false`. -/
def no : Value := .one (.bool false)
/-- A number. -/
def num (n : Int) : Value := .one (.int n)
/-- A text. -/
def txt (s : String) : Value := .one (.str (b s))
/-- A list of numbers. -/
def nums (ns : List Int) : Value := .many (ns.map .int)

/-- The words of a line. -/
def words : Bytes → List Bytes
  | [] => []
  | c :: cs =>
    if c == 32 then [] :: words cs
    else
      match words cs with
      | [] => [[c]]
      | w :: ws => (c :: w) :: ws

/-- A list of texts, the words of the line. -/
def txts (line : String) : Value := .many ((words (b line)).map .str)

/-- What a test sees of a parse. -/
inductive Saw where
  /-- this router was called with these values -/
  | called (router : Nat) (values : List Value)
  /-- a `parse_exception` with this `what()`, and no router was called -/
  | error (what : Bytes)
  | other
  deriving DecidableEq, Repr

/-- What happens to a tree with the default translations. -/
def saw (seen : Seen × St) : Saw :=
  match seen with
  | (.returned, ⟨_, [c]⟩) => .called c.node c.args
  | (.parseException what, ⟨_, []⟩) => .error what
  | _ => .other

/-- `r.parse(argc, argv)`; the arguments are the words of the line. -/
def run (r : Node) (line : String) : Saw :=
  saw (rootSeen .default defaultTranslations [] r (words (b line)) .fresh)

/-- An error message. -/
def error (what : String) : Saw := .error (b what)

/-- The tree compiles with the default validator. -/
def accepted (r : Node) : Bool := compiles .default 100 defaultRules r

end ArgRouter.Tests
