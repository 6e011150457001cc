/-!
# Basic vocabulary of the model

Bytes, tokens, error codes and outcomes shared by every part of the model.
-/

namespace ArgRouter

/-- A `std::string_view` / `string`: the sequence of its bytes.
Simplification: object identity and lifetime of the viewed storage are not modelled here. -/
abbrev Bytes := List UInt8

/-- The UTF-8 bytes of a Lean string literal (only used to write readable examples and
constants; Lean strings are stored as UTF-8). -/
def b (s : String) : Bytes := s.toUTF8.data.toList

/-- `parsing::prefix_type`, include/arg_router/parsing/token_type.hpp:13-17. -/
inductive Prefix where
  | long
  | short
  | none
  deriving DecidableEq, Repr

/-- `parsing::token_type`, include/arg_router/parsing/token_type.hpp:36-66. -/
structure Token where
  pre : Prefix
  name : Bytes
  deriving DecidableEq, Repr

/-- `error_code`, include/arg_router/exception.hpp:33-63. -/
inductive ErrorCode where
  | unknown_argument
  | unhandled_arguments
  | argument_has_already_been_set
  | failed_to_parse
  | no_arguments_passed
  | minimum_value_not_reached
  | maximum_value_exceeded
  | minimum_count_not_reached
  | maximum_count_exceeded
  | unknown_argument_with_suggestion
  | mode_requires_arguments
  | missing_required_argument
  | too_few_values_for_alias
  | dependent_argument_missing
  | one_of_selected_type_mismatch
  | missing_value_separator
  deriving DecidableEq, Repr

/-- `multi_lang_exception`, include/arg_router/exception.hpp:104-149: an error code with the
offending tokens. -/
structure Exc where
  ec : ErrorCode
  tokens : List Token
  deriving DecidableEq, Repr

/-- Outcome of running a piece of library code.
* `ok a` – returned `a`;
* `throw e` – threw a `multi_lang_exception`;
* `foreign` – threw something else (`std::length_error`, an exception of user code), which `root`
  does not translate;
* `ub` – the C++ has undefined behaviour on this input;
* `diverge` – a fuel-bounded loop of the model ran out of fuel (the C++ loop has not terminated
  after that many iterations). -/
inductive Out (α : Type) where
  | ok (a : α)
  | throw (e : Exc)
  | foreign
  | ub
  | diverge
  deriving DecidableEq, Repr

namespace Out

/-- Sequencing: anything but `ok` ends the computation. -/
def bind {α β : Type} : Out α → (α → Out β) → Out β
  | ok a, f => f a
  | throw e, _ => throw e
  | foreign, _ => foreign
  | ub, _ => ub
  | diverge, _ => diverge

instance : Monad Out where
  pure := ok
  bind := bind

@[simp] theorem pure_eq {α : Type} (a : α) : (pure a : Out α) = ok a := rfl
@[simp] theorem ok_bind {α β : Type} (a : α) (f : α → Out β) : (ok a >>= f) = f a := rfl
@[simp] theorem throw_bind {α β : Type} (e : Exc) (f : α → Out β) :
    ((throw e : Out α) >>= f) = throw e := rfl
@[simp] theorem foreign_bind {α β : Type} (f : α → Out β) :
    ((foreign : Out α) >>= f) = foreign := rfl
@[simp] theorem ub_bind {α β : Type} (f : α → Out β) : ((ub : Out α) >>= f) = ub := rfl
@[simp] theorem diverge_bind {α β : Type} (f : α → Out β) :
    ((diverge : Out α) >>= f) = diverge := rfl
@[simp] theorem map_ok {α β : Type} (f : α → β) (a : α) : f <$> (ok a) = ok (f a) := rfl

theorem bind_eq_ok {α β : Type} {o : Out α} {f : α → Out β} {v : β} :
    (o >>= f) = ok v ↔ ∃ a, o = ok a ∧ f a = ok v := by
  cases o <;> simp

end Out

end ArgRouter
