/-!
# Outcomes and the execution monad

Every operation of the model is a total function `Exec σ α`: given the state it yields one of four outcomes.
Rust semantics used: a panic unwinds and leaves the state as it is at that point (`panic s`);
`handle_alloc_error` ends the process (`abort`); a violated safety precondition is `ub`.
-/

namespace Verif

/-- Outcome of running an operation on a state of type `σ` with result type `α`. -/
inductive Res (σ α : Type) where
  /-- normal return -/
  | ok (a : α) (s : σ)
  /-- unwinding, with the state left behind -/
  | panic (s : σ)
  /-- process abort (`handle_alloc_error`) -/
  | abort
  /-- undefined behaviour: a safety precondition was violated -/
  | ub
  deriving DecidableEq, Repr

/-- A computation on state `σ`. -/
def Exec (σ α : Type) : Type := σ → Res σ α

namespace Exec

variable {σ α β : Type}

protected def pure (a : α) : Exec σ α := fun s => .ok a s

protected def bind (m : Exec σ α) (f : α → Exec σ β) : Exec σ β := fun s =>
  match m s with
  | .ok a s' => f a s'
  | .panic s' => .panic s'
  | .abort => .abort
  | .ub => .ub

instance : Monad (Exec σ) where
  pure := Exec.pure
  bind := Exec.bind

/-- read the state -/
def get : Exec σ σ := fun s => .ok s s
/-- replace the state -/
def set (s : σ) : Exec σ Unit := fun _ => .ok () s
/-- modify the state -/
def modify (f : σ → σ) : Exec σ Unit := fun s => .ok () (f s)
/-- `panic!` -/
def panic : Exec σ α := fun s => .panic s
/-- `handle_alloc_error` -/
def abort : Exec σ α := fun _ => .abort
/-- undefined behaviour -/
def ub : Exec σ α := fun _ => .ub

/-- A computed value whose absence means a violated safety precondition. -/
def orUb (o : Option α) : Exec σ α := fun s =>
  match o with
  | some a => .ok a s
  | none => .ub

/-- The precondition `p` of an unsafe operation. -/
def require (p : Prop) [Decidable p] : Exec σ Unit := fun s =>
  if p then .ok () s else .ub

/-- `assert!(p)` -/
def assert (p : Prop) [Decidable p] : Exec σ Unit := fun s =>
  if p then .ok () s else .panic s

/-- `debug_assert!(p)`: checked only in debug builds (`dbg = true`). -/
def debugAssert (dbg : Bool) (p : Prop) [Decidable p] : Exec σ Unit := fun s =>
  if dbg = true ∧ ¬ p then .panic s else .ok () s

/-- Run `m`; if it unwinds, run `cleanup` (a drop guard) on the state left behind, then keep unwinding.
A guard that itself unwinds while unwinding aborts the process. -/
def onUnwind (m : Exec σ α) (cleanup : Exec σ Unit) : Exec σ α := fun s =>
  match m s with
  | .panic s' =>
    match cleanup s' with
    | .ok _ s'' => .panic s''
    | .panic _ => .abort
    | .abort => .abort
    | .ub => .ub
  | r => r

@[simp] theorem pure_apply (a : α) (s : σ) : (pure a : Exec σ α) s = .ok a s := rfl

theorem bind_apply (m : Exec σ α) (f : α → Exec σ β) (s : σ) :
    (m >>= f) s = match m s with
      | .ok a s' => f a s'
      | .panic s' => .panic s'
      | .abort => .abort
      | .ub => .ub := rfl

@[simp] theorem get_bind (f : σ → Exec σ β) (s : σ) : (get >>= f) s = f s s := rfl
@[simp] theorem get_apply (s : σ) : (get : Exec σ σ) s = .ok s s := rfl
@[simp] theorem set_apply (s t : σ) : (set t : Exec σ Unit) s = .ok () t := rfl
@[simp] theorem modify_apply (f : σ → σ) (s : σ) : (modify f : Exec σ Unit) s = .ok () (f s) := rfl
@[simp] theorem panic_apply (s : σ) : (panic : Exec σ α) s = .panic s := rfl
@[simp] theorem abort_apply (s : σ) : (abort : Exec σ α) s = .abort := rfl
@[simp] theorem ub_apply (s : σ) : (ub : Exec σ α) s = .ub := rfl
@[simp] theorem orUb_some (a : α) (s : σ) : (orUb (some a) : Exec σ α) s = .ok a s := rfl
@[simp] theorem orUb_none (s : σ) : (orUb none : Exec σ α) s = .ub := rfl

theorem bind_ok {m : Exec σ α} {f : α → Exec σ β} {s s' : σ} {a : α} (h : m s = .ok a s') :
    (m >>= f) s = f a s' := by simp [bind_apply, h]

theorem bind_panic {m : Exec σ α} {f : α → Exec σ β} {s s' : σ} (h : m s = .panic s') :
    (m >>= f) s = .panic s' := by simp [bind_apply, h]

theorem bind_abort {m : Exec σ α} {f : α → Exec σ β} {s : σ} (h : m s = .abort) :
    (m >>= f) s = .abort := by simp [bind_apply, h]

theorem bind_ub {m : Exec σ α} {f : α → Exec σ β} {s : σ} (h : m s = .ub) :
    (m >>= f) s = .ub := by simp [bind_apply, h]

@[simp] theorem pure_bind_apply (a : α) (f : α → Exec σ β) (s : σ) :
    ((pure a : Exec σ α) >>= f) s = f a s := rfl
@[simp] theorem modify_bind (g : σ → σ) (f : Unit → Exec σ β) (s : σ) :
    (modify g >>= f) s = f () (g s) := rfl
@[simp] theorem set_bind (t : σ) (f : Unit → Exec σ β) (s : σ) :
    (set t >>= f) s = f () t := rfl

theorem require_pos {p : Prop} [Decidable p] (h : p) (s : σ) : (require p : Exec σ Unit) s = .ok () s := by
  simp [require, h]
theorem require_neg {p : Prop} [Decidable p] (h : ¬ p) (s : σ) : (require p : Exec σ Unit) s = .ub := by
  simp [require, h]
theorem assert_pos {p : Prop} [Decidable p] (h : p) (s : σ) : (assert p : Exec σ Unit) s = .ok () s := by
  simp [assert, h]
theorem assert_neg {p : Prop} [Decidable p] (h : ¬ p) (s : σ) : (assert p : Exec σ Unit) s = .panic s := by
  simp [assert, h]
theorem debugAssert_pos {dbg : Bool} {p : Prop} [Decidable p] (h : p) (s : σ) :
    (debugAssert dbg p : Exec σ Unit) s = .ok () s := by
  simp [debugAssert, h]

end Exec
end Verif
