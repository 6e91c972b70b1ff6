import Verif.Model.Client

/-!
# Programs that decide what to do next by what they have observed

A program in Model/Client is a list of calls that is fixed in advance. Here a program is anything that, given all it has observed so far,
makes the next call or stops. The environment of a call (the answers of the allocator, the destructors that panic) may also depend on
what has happened so far.
-/

namespace Verif
variable {V : Type} {T : UTy} {β : Type}

/-- What is done next after the observations, if anything. -/
abbrev Strategy (T : UTy) (β : Type) := List (Out T β) → Option (Env (Val T β) × Op T β)

/-- Let the program run for up to `n` more calls, after the observations `h`. The result is all that has been observed. As in `runOps`
(Model/Client), panics are caught after each call. -/
def interact (c : Cfg) (M : Machine V T β) (σ : Strategy T β) : Nat → List (Out T β) → Exec V (List (Out T β))
  | 0, h => pure h
  | n + 1, h =>
    match σ h with
    | none => pure h
    | some (env, op) => do
      let o ← caught (op.exec c M env)
      interact c M σ n (h ++ [o])

end Verif
