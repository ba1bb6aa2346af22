import Verif.Model.Prelude

/-! Rewriting rules for the outcome monad. -/

namespace Jargon

@[simp] theorem Go.pure_eq {α : Type} (a : α) : (pure a : Go α) = Go.ret a := rfl

@[simp] theorem Go.ret_bind {α β : Type} (a : α) (f : α → Go β) : (Go.ret a >>= f) = f a := rfl

@[simp] theorem Go.panic_bind {α β : Type} (p : Panic) (f : α → Go β) :
    (Go.panic p >>= f) = Go.panic p := rfl

@[simp] theorem Go.diverge_bind {α β : Type} (f : α → Go β) :
    ((Go.diverge : Go α) >>= f) = Go.diverge := rfl

@[simp] theorem Go.ret_inj {α : Type} {a b : α} : (Go.ret a = Go.ret b) ↔ a = b := by
  constructor
  · intro h; exact Except.ok.inj (Option.some.inj h)
  · rintro rfl; rfl

@[simp] theorem Go.ret_ne_panic {α : Type} {a : α} {p : Panic} : Go.ret a ≠ (Go.panic p : Go α) := by
  intro h; exact nomatch (Option.some.inj h)

@[simp] theorem Go.panic_ne_ret {α : Type} {a : α} {p : Panic} : (Go.panic p : Go α) ≠ Go.ret a := by
  intro h; exact nomatch (Option.some.inj h)

@[simp] theorem Go.ret_ne_diverge {α : Type} {a : α} : Go.ret a ≠ (Go.diverge : Go α) := by
  intro h; exact nomatch (show (_ : Option _) = _ from h)

@[simp] theorem Go.diverge_ne_ret {α : Type} {a : α} : (Go.diverge : Go α) ≠ Go.ret a := by
  intro h; exact nomatch (show (_ : Option _) = _ from h)

/-- The three outcomes are exhaustive. -/
theorem Go.cases {α : Type} (x : Go α) :
    (∃ a, x = Go.ret a) ∨ (∃ p, x = Go.panic p) ∨ x = Go.diverge := by
  match x with
  | some (Except.ok a) => exact .inl ⟨a, rfl⟩
  | some (Except.error p) => exact .inr (.inl ⟨p, rfl⟩)
  | none => exact .inr (.inr rfl)

/-- A sequence returns exactly if both parts do. -/
theorem Go.bind_eq_ret {α β : Type} {x : Go α} {f : α → Go β} {b : β} :
    (x >>= f) = Go.ret b ↔ ∃ a, x = Go.ret a ∧ f a = Go.ret b := by
  rcases Go.cases x with ⟨a, rfl⟩ | ⟨p, rfl⟩ | rfl <;> simp

end Jargon
