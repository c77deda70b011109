/-
Infinite executions of a machine and fairness.
-/

namespace Verif.Spec

variable {σ Λ : Type}

/-- An infinite execution: at every moment a step is made, or nothing happens. -/
structure Exec (step : σ → Λ → Option σ) where
  st : Nat → σ
  lab : Nat → Option Λ
  next : ∀ n, match lab n with
    | some l => step (st n) l = some (st (n + 1))
    | none => st (n + 1) = st n

/-- Some step of the set `A` is possible. -/
def Enabled (step : σ → Λ → Option σ) (A : Λ → Prop) (s : σ) : Prop := ∃ l s', A l ∧ step s l = some s'

/-- A goroutine whose steps are the set `A` is treated fairly: if it can move again and again, it moves again
and again. -/
def Fairly {step : σ → Λ → Option σ} (e : Exec step) (A : Λ → Prop) : Prop :=
  (∀ n, ∃ m, n ≤ m ∧ Enabled step A (e.st m)) → ∀ n, ∃ m l, n ≤ m ∧ e.lab m = some l ∧ A l

end Verif.Spec
