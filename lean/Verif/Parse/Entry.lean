import Verif.Parse.Mode

/-!
# The entry point of a program
-/

namespace ArgRouter

/-- The loop of `root_t::parse(Iter, Iter)`, root.hpp:194-196, run over the cells of an array of
pointers: `i` is the index `begin` points at, `argc` the one `end` points at, the list is the memory
from `begin` on. `none` is a null pointer, from which no `std::string_view` can be made; the end of
the list is the end of the memory that can be read. -/
def argvLoop (argc : Nat) : Nat → List (Option Bytes) → Out (List Bytes)
  | i, [] => if i = argc then .ok [] else .ub
  | i, cell :: cells =>
    if i = argc then .ok []
    else
      match cell with
      | none => .ub
      | some s =>
        match argvLoop argc (i + 1) cells with
        | .ok args => .ok (s :: args)
        | .throw e => .throw e
        | .foreign => .foreign
        | .ub => .ub
        | .diverge => .diverge

/-- `root_t::parse(int, char**)`, root.hpp:228-232: from `&argv[1]` to `&argv[argc]`. `argv` is the
memory from the first pointer on. -/
def parseArgv (cfg : Config) (root : Node) (argc : Nat) (argv : List (Option Bytes)) : M Unit := do
  let args ← M.lift (argvLoop argc 1 (argv.drop 1))
  parseArgs cfg root args

end ArgRouter
