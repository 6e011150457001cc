import Verif.Parse.Mode

/-!
# Reasoning about the state monad of the model
-/

namespace ArgRouter

namespace M

@[simp] theorem pure_apply {α : Type} (a : α) (s : St) : (Pure.pure a : M α) s = (.ok a, s) := rfl
@[simp] theorem lift_apply {α : Type} (o : Out α) (s : St) : (M.lift o) s = (o, s) := rfl
@[simp] theorem throw_apply {α : Type} (e : Exc) (s : St) :
    (M.throw e : M α) s = (.throw e, s) := rfl

theorem bind_apply {α β : Type} (m : M α) (f : α → M β) (s : St) :
    (m >>= f) s = match m s with
      | (.ok a, s') => f a s'
      | (.throw e, s') => (.throw e, s')
      | (.foreign, s') => (.foreign, s')
      | (.ub, s') => (.ub, s')
      | (.diverge, s') => (.diverge, s') := rfl

theorem bind_ok {α β : Type} {m : M α} {f : α → M β} {s s' : St} {a : α} (h : m s = (.ok a, s')) :
    (m >>= f) s = f a s' := by rw [bind_apply, h]

theorem bind_throw {α β : Type} {m : M α} {f : α → M β} {s s' : St} {e : Exc}
    (h : m s = (.throw e, s')) : (m >>= f) s = (.throw e, s') := by rw [bind_apply, h]

@[simp] theorem pure_bind {α β : Type} (a : α) (f : α → M β) : ((Pure.pure a : M α) >>= f) = f a :=
  rfl

theorem lift_ok_bind {α β : Type} (a : α) (f : α → M β) : (M.lift (.ok a) >>= f) = f a := rfl

theorem bind_eq_ok {α β : Type} {m : M α} {f : α → M β} {s s' : St} {v : β} :
    (m >>= f) s = (.ok v, s') ↔ ∃ a s1, m s = (.ok a, s1) ∧ f a s1 = (.ok v, s') := by
  rw [bind_apply]
  match m s with
  | (.ok a, s1) =>
    exact ⟨fun h => ⟨a, s1, rfl, h⟩, by rintro ⟨_, _, h, h'⟩; cases h; exact h'⟩
  | (.throw e, s1) => simp
  | (.foreign, s1) => simp
  | (.ub, s1) => simp
  | (.diverge, s1) => simp

theorem bind_eq_throw {α β : Type} {m : M α} {f : α → M β} {s s' : St} {e : Exc} :
    (m >>= f) s = (.throw e, s') ↔ m s = (.throw e, s') ∨
      ∃ a s1, m s = (.ok a, s1) ∧ f a s1 = (.throw e, s') := by
  rw [bind_apply]
  match m s with
  | (.ok a, s1) =>
    exact ⟨fun h => .inr ⟨a, s1, rfl, h⟩, by
      rintro (h | ⟨_, _, h, h'⟩)
      · cases h
      · cases h; exact h'⟩
  | (.throw e, s1) => simp
  | (.foreign, s1) => simp
  | (.ub, s1) => simp
  | (.diverge, s1) => simp

/-- A postcondition on every outcome and final state. -/
def Post {α : Type} (m : M α) (s : St) (P : Out α → St → Prop) : Prop := P (m s).1 (m s).2

theorem bind_assoc {α β γ : Type} (m : M α) (f : α → M β) (g : β → M γ) :
    (m >>= f) >>= g = m >>= fun a => f a >>= g := by
  funext s
  simp only [bind_apply]
  match m s with
  | (.ok a, s1) => rfl
  | (.throw e, s1) => rfl
  | (.foreign, s1) => rfl
  | (.ub, s1) => rfl
  | (.diverge, s1) => rfl

@[simp] theorem bind_pure {α : Type} (m : M α) : (m >>= fun a => Pure.pure a) = m := by
  funext s
  simp only [bind_apply]
  match h : m s with
  | (.ok a, s1) => rfl
  | (.throw e, s1) => rfl
  | (.foreign, s1) => rfl
  | (.ub, s1) => rfl
  | (.diverge, s1) => rfl

end M

end ArgRouter
