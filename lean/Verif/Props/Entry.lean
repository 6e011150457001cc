import Verif.Parse.Entry
import Verif.Props.Whole
import Verif.Props.WholeExamples

/-!
# C89: from `main` to the parser
-/

namespace ArgRouter

open Spec Utf8

namespace Spec

/-- What the C standard says of the arguments of `main`: `argv` points to `argc` strings followed by
a null pointer. After it comes other memory: on Linux the pointers to the environment's strings and a
null pointer. -/
def mainMemory (argv environment : List Bytes) : List (Option Bytes) :=
  argv.map some ++ none :: (environment.map some ++ [none])

end Spec

namespace Props

theorem argvLoop_reads (args : List Bytes) (rest : List (Option Bytes)) : ∀ i,
    argvLoop (i + args.length) i (args.map some ++ rest) = .ok args := by
  induction args with
  | nil => intro i; cases rest <;> simp [argvLoop]
  | cons a args ih =>
    intro i
    have h := ih (i + 1)
    rw [show i + 1 + args.length = i + (args.length + 1) by omega] at h
    rw [List.map_cons, List.cons_append, List.length_cons, argvLoop]
    rw [if_neg (by omega)]
    simp only [h]

theorem argvLoop_beyond (cells : List (Option Bytes)) : ∀ i, 0 < i →
    argvLoop 0 i (cells ++ [none]) = .ub := by
  induction cells with
  | nil => intro i hi; simp only [List.nil_append, argvLoop]; rw [if_neg (by omega)]
  | cons c cells ih =>
    intro i hi
    cases c with
    | none => rw [List.cons_append, argvLoop, if_neg (by omega)]
    | some s => rw [List.cons_append, argvLoop, if_neg (by omega)]; simp only [ih (i + 1) (by omega)]

/-- C89, what holds: a program that is given `argc` and `argv` does what it does with the list of
arguments after its name, whatever the name is and whatever lies behind `argv`. Missing, because false:
a program started without a name. -/
theorem C89_name_skipped_partial (cfg : Config) (root : Node) (name : Bytes)
    (args environment : List Bytes) :
    parseArgv cfg root (name :: args).length (mainMemory (name :: args) environment) =
      parseArgs cfg root args := by
  unfold parseArgv mainMemory
  rw [List.map_cons, List.cons_append, List.drop_succ_cons, List.drop_zero, List.length_cons,
    Nat.add_comm, argvLoop_reads]
  rfl

/-- Only the `argc` pointers are read: it makes no difference what follows them, a null pointer, other
memory or none at all. -/
theorem C89_reads_argc (cfg : Config) (root : Node) (name : Bytes) (args : List Bytes)
    (rest : List (Option Bytes)) :
    parseArgv cfg root (name :: args).length ((name :: args).map some ++ rest) =
      parseArgs cfg root args := by
  unfold parseArgv
  rw [List.map_cons, List.cons_append, List.drop_succ_cons, List.drop_zero, List.length_cons,
    Nat.add_comm, argvLoop_reads]
  rfl

/-- C89 is false of a program started without a name (`argc` is zero): the loop starts behind the end
of its range, takes the environment for the command line and runs on to the null pointer. -/
theorem C89_no_name_false (cfg : Config) (root : Node) (environment : List Bytes) (s : St) :
    parseArgv cfg root 0 (mainMemory [] environment) s = (.ub, s) := by
  have h : argvLoop 0 1 (environment.map some ++ [none]) = .ub := argvLoop_beyond _ 1 (by omega)
  unfold parseArgv mainMemory
  rw [List.map_nil, List.nil_append, List.drop_succ_cons, List.drop_zero, h]
  rfl

/-- A run of `simple` from `main`. -/
example : parseArgv .default (exProgram Examples.simpleFormat 80 Examples.simple) 4
    (mainMemory [b "simple", b "copy", b "dst", b "src"] [b "HOME=/root"]) .fresh =
    (.ok (), ⟨[], [⟨10, [.one (.bool false), .one (.str (b "dst")), .many [.str (b "src")]]⟩]⟩) := by
  decide +kernel

end Props

end ArgRouter
