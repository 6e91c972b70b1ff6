import Verif.Model.Client

/-!
# Many elements at once

Transcription of `Extend`, `FromIterator` and the macro `unsized_vec!` (src/lib.rs:1399–1438 and 1544–1603).
-/

namespace Verif
variable {σ V : Type} {T : UTy} {β : Type}

/-- What can be put into a vector: an argument of `unsized_vec!`, or an item of the iterator given to `extend`. Evaluating
the argument (or calling `next` of the iterator) may have effects on the state `σ`, and may panic. -/
inductive Item (σ : Type) (T : UTy) (β : Type) where
  /-- a value -/
  | value (x : Exec σ (Val T β))
  /-- an `Emplacable` -/
  | emplacable (e : Emplacable σ T β)

/-- `PushToUnsizedVec::push_to_unsized_vec` (1546–1562): a value is pushed with `push`, which drops it if it panics; an emplacable is
pushed with `push_with`. -/
def Item.push (c : Cfg) (M : Machine V T β) (env : Env (Val T β)) : Item σ T β → Exec (σ × V) Unit
  | value x => do
    let a ← liftL x
    liftR (M.giving env a (Api.push c M.P env a))
  | emplacable e => Api.pushWithRun M.P env e

/-- One item after the other, each with the environment that it meets: the loop of `extend_inner` (1430–1432) and the
repetition in `unsized_vec!` (1596). -/
def pushItems (c : Cfg) (M : Machine V T β) : List (Env (Val T β) × Item σ T β) → Exec (σ × V) Unit
  | [] => pure ()
  | (env, it) :: rest => do
    it.push c M env
    pushItems c M rest

/-- `Extend::extend` (1420–1437). `hint` is the lower bound of `size_hint`, and `dropIter` is the code that drops the iterator;
it runs when the loop has ended and also when something unwinds. The iterator lives in the state `σ`. -/
def extend (c : Cfg) (M : Machine V T β) (env : Env (Val T β)) (hint : Nat)
    (items : List (Env (Val T β) × Emplacable σ T β)) (dropIter : Exec σ Unit) : Exec (σ × V) Unit := do
  Exec.onUnwind (do
    liftR (Api.reserveExact M.P env hint)
    pushItems c M (items.map fun p => (p.1, .emplacable p.2))) (liftL dropIter)
  liftL dropIter

/-- `FromIterator::from_iter` (1404–1412). If something unwinds, the vector is dropped (with environment `envD`). Started
on the vector that `UnsizedVec::new` returns. -/
def fromIter (c : Cfg) (M : Machine V T β) (env envD : Env (Val T β)) (hint : Nat)
    (items : List (Env (Val T β) × Emplacable σ T β)) (dropIter : Exec σ Unit) (s : σ) : Res (σ × V) Unit :=
  Exec.onUnwind (extend c M env hint items dropIter) (liftR (M.drop envD)) (s, Api.new M.P)

/-- `unsized_vec!` (1589–1600). If something unwinds, the vector is dropped (with environment `envD`). -/
def unsizedVec (c : Cfg) (M : Machine V T β) (envD : Env (Val T β)) (items : List (Env (Val T β) × Item σ T β)) (s : σ) :
    Res (σ × V) Unit :=
  Exec.onUnwind (pushItems c M items) (liftR (M.drop envD)) (s, Api.new M.P)

end Verif
