import Verif.Model.Meter

/-!
# What a call costs

A metered machine (Model/Meter) does what the machine does, and counts the bytes that are copied and the records that are visited in loops.
-/

namespace Verif
variable {V : Type} {T : UTy} {β : Type}

/-- Whatever the meter shows before, it has advanced by at most `B` when the call returns or panics. (Aborting leaves no state. That the
calls have no undefined behaviour is the subject of C30.) -/
def CostsAtMost (c : Cfg) (M : Machine (V × Nat) T β) (env : Env (Val T β)) (op : Op T β) (v : V) (B : Nat) : Prop :=
  ∀ n, match op.exec c M env (v, n) with
    | .ok _ s => s.2 ≤ n + B
    | .panic s => s.2 ≤ n + B
    | .abort => True
    | .ub => True

/-- When the call returns, the meter has advanced by at least `B`. -/
def CostsAtLeast (c : Cfg) (M : Machine (V × Nat) T β) (env : Env (Val T β)) (op : Op T β) (v : V) (B : Nat) : Prop :=
  ∀ n, match op.exec c M env (v, n) with
    | .ok _ s => n + B ≤ s.2
    | .panic _ => True
    | .abort => True
    | .ub => True

/-- The result without the meter. -/
def Res.unmetered {α : Type} : Res (V × Nat) α → Res V α
  | .ok a s => .ok a s.1
  | .panic s => .panic s.1
  | .abort => .abort
  | .ub => .ub

/-- What the meter shows at the end. -/
def Res.meter {α : Type} : Res (V × Nat) α → Option Nat
  | .ok _ s => some s.2
  | _ => none

end Verif
