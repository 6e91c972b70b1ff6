import Verif.Model.Client

/-!
# Debug and release builds

The model has one switch for `cfg!(debug_assertions)`: `Cfg.debug`. The two builds of a program differ in nothing else.
-/

namespace Verif

/-- A build with debug assertions. -/
def Cfg.checked (c : Cfg) : Cfg := { c with debug := true }

/-- A build without debug assertions. -/
def Cfg.release (c : Cfg) : Cfg := { c with debug := false }

section
variable {V : Type} {T : UTy} {β : Type}

/-- The call owns a value whose destructor panics. -/
def Op.Explosive (panics : Val T β → Bool) : Op T β → Prop
  | .push x | .insert _ x => panics x = true
  | _ => False

/-- The calls that evaluate assertions which may fail. -/
def Op.Checks : Op T β → Prop
  | .push _ | .insert _ _ | .shrink _ => True
  | .reserve q | .tryReserve q => q.Asserts
  | _ => False

/-- What the debug build may do (`d`) where the release build does `r`: the same; or it panics, if the call evaluates assertions;
and if it panics while it owns a value whose destructor panics as well, the process ends. -/
def Op.StopsEarly (op : Op T β) (env : Env (Val T β)) (d r : Res V (Out T β)) : Prop :=
  d = r ∨ (op.Checks ∧ ((∃ v, d = .panic v) ∨ (d = .abort ∧ op.Explosive env.dropPanics)))

/-- The debug build panics where the release build reports that a reservation has failed: a `try_` method of the release build
returns the error, and the other methods end the process (`handle_alloc_error`). -/
def Op.PanicsOnFailure (op : Op T β) (d r : Res V (Out T β)) : Prop :=
  match op with
  | .push _ | .insert _ _ => r = .abort ∧ ∃ v, d = .panic v
  | .reserve q => q.Asserts ∧ r = .abort ∧ ∃ v, d = .panic v
  | .tryReserve q => q.Asserts ∧ ∃ e v, r = .ok (.failed e) v ∧ d = .panic v
  | _ => False

/-- A reservation of bytes does not ask for more of them than the elements it asks for have (`sz` each). -/
def Op.Fitting (sz : Nat) : Op T β → Prop
  | .reserve q | .tryReserve q => q.Asserts → q.bytes ≤ q.slots * sz
  | _ => True

end
end Verif
