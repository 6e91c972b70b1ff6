import Verif.Model.Client

/-!
# Programs that use several vectors

`Verif/Model/Client.lean` has programs that use one vector. Here there are any number of vectors of the same type, numbered, and
elements can be moved from one to another, in place: the emplacable that `pop_into` or `remove_into` returns is given to
`push_with` or `insert_with` of the other vector (src/lib.rs 845–859, 889–908, 991–993, 1043–1057).
-/

namespace Verif
section
variable {V : Type} {T : UTy} {β : Type}

/-- Where an element is taken from: `pop_into().unwrap()` or `remove_into(i)`. -/
inductive Take where
  | last
  | at (i : Nat)

/-- Where it is put: `push_with(…)` or `insert_with(i, …)`. -/
inductive Put where
  | push
  | insert (i : Nat)

/-- The evaluation of the argument. `pop_into` (src/lib.rs 1043–1057) returns `None` for an empty vector, and `unwrap` panics.
`remove_into` (889–908) checks the index when it is called. (`Api.removeInto` checks it again; the vector is borrowed meanwhile, so
the outcome is the same.) -/
def Take.open (P : Provider V T β) (env : Env (Val T β)) : Take → Exec V (Emplacable V T β)
  | .last => do
    let v ← Exec.get
    match Api.popInto P env v with
    | none => Exec.panic
    | some e => pure e
  | .at i => do
    let v ← Exec.get
    Exec.assert (i < P.len v)
    pure (Api.removeInto P env i)

/-- The call that uses it (src/lib.rs 991–993, 845–859). -/
def Put.run (P : Provider V T β) (env : Env (Val T β)) (e : Emplacable V T β) : Put → Exec (V × V) Unit
  | .push => Api.pushWithRun P env e
  | .insert i => Api.insertWithRun P env i e

/-- `a.push_with(b.pop_into().unwrap())`, `a.insert_with(i', b.remove_into(i))` and so on; the state is `(b, a)`. -/
def moving (P : Provider V T β) (env : Env (Val T β)) (t : Take) (p : Put) : Exec (V × V) Unit := do
  let e ← liftL (t.open P env)
  p.run P env e

/-- A command: a call on the vector `k`, or moving an element of the vector `j` to the vector `k`. -/
inductive Cmd (T : UTy) (β : Type) where
  | call (k : Nat) (op : Op T β)
  | move (t : Take) (j : Nat) (p : Put) (k : Nat)

/-- The vector `k` is replaced. -/
def put {X : Type} (f : Nat → X) (k : Nat) (a : X) : Nat → X := fun n => if n = k then a else f n

/-- Use the vector `k`. -/
def onOne {α : Type} (k : Nat) (m : Exec V α) : Exec (Nat → V) α := fun f =>
  match m (f k) with
  | .ok a v => .ok a (put f k v)
  | .panic v => .panic (put f k v)
  | .abort => .abort
  | .ub => .ub

/-- Use the vectors `j` and `k`. (Safe Rust only permits this if `j ≠ k`: both are borrowed mutably.) -/
def onTwo {α : Type} (j k : Nat) (m : Exec (V × V) α) : Exec (Nat → V) α := fun f =>
  match m (f j, f k) with
  | .ok a (b, v) => .ok a (put (put f j b) k v)
  | .panic (b, v) => .panic (put (put f j b) k v)
  | .abort => .abort
  | .ub => .ub

/-- The code of a command. -/
def Cmd.exec (c : Cfg) (M : Machine V T β) (env : Env (Val T β)) : Cmd T β → Exec (Nat → V) (Out T β)
  | call k op => onOne k (op.exec c M env)
  | move t j p k => do
    onTwo j k (moving M.P env t p)
    pure .done

/-- A program: commands in order, each with the environment it meets; panics are caught. -/
def runCmds (c : Cfg) (M : Machine V T β) : List (Env (Val T β) × Cmd T β) → Exec (Nat → V) (List (Out T β))
  | [] => pure []
  | (env, cmd) :: rest => do
    let o ← caught (cmd.exec c M env)
    let os ← runCmds c M rest
    pure (o :: os)

end
end Verif
