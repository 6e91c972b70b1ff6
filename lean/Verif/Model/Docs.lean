import Verif.Model.Several

/-!
# The examples in the documentation

The programs in the documentation of the crate, call by call, with arbitrary values in place of the literals. `unsize_vec![a, b]` is
a new vector and one `push_unsize` for each argument (src/lib.rs 1618–1630; see C51), and `push_unsize` is `push` of
the coerced value (C41). `dbg!(&v[0])` reads the element. `box_new_with(e)` moves the value out (C38). `for x in &v` and `dbg!(&v)` call `next`
until it returns `None` (C45).
-/

namespace Verif.Docs
variable {T : UTy} {β : Type}

/-- The documentation examples that use one vector, which is new at the start. -/
inductive Ex (T : UTy) (β : Type) where
  /-- `push` (src/lib.rs 921–935), `push_unsize` (952–961) -/
  | push (x : Val T β)
  /-- `insert` (757–771), `insert_unsize` (799–809) -/
  | insert (x y : Val T β)
  /-- `remove_into` (871–884) -/
  | remove (x y : Val T β)
  /-- `pop_into` (1005–1038) -/
  | pop (x y z : Val T β)
  /-- the example of `UnsizedVec` (212–233) and of README.md (34–48); the introduction (41–49) is a part of it -/
  | main (xs : List (Val T β)) (x : Val T β)
  /-- examples/rust-book-17-02.rs, `Screen::run` (28–32) and `main` (64–85) -/
  | screen (xs : List (Val T β))

/-- The calls. -/
def Ex.ops : Ex T β → List (Op T β)
  | push x => [.push x, .index 0]
  | insert x y => [.push x, .insert 0 y, .index 0]
  | remove x y => [.push x, .push y, .remove 0 .take]
  | pop x y z => [.len, .pop .take, .push x, .pop .take, .push y, .iter [.next, .next], .pop .drop, .len, .push z]
  | main xs x => (xs ++ [x]).map .push ++ [.iter (List.replicate (xs.length + 2) .next), .len, .pop .take, .len]
  | screen xs => xs.map .push ++ [.iter (List.replicate (xs.length + 1) .next)]

/-- The documentation examples that use two vectors: number 0 and number 1, both new at the start. -/
inductive Ex2 (T : UTy) (β : Type) where
  /-- `insert_with` (src/lib.rs 827–843) -/
  | insertWith (a b d : Val T β)
  /-- `push_with` (974–989) -/
  | pushWith (a b : Val T β)

/-- The commands. -/
def Ex2.cmds : Ex2 T β → List (Cmd T β)
  | insertWith a b d => [.call 0 (.push a), .call 0 (.push b), .call 1 (.push d), .move .last 0 (.insert 0) 1, .call 0 .len, .call 1 .len,
      .call 1 (.index 0)]
  | pushWith a b => [.call 0 (.push a), .call 0 (.push b), .move .last 0 .push 1, .call 0 .len, .call 1 (.index 0)]

/-- Each call meets its own environment. -/
def inTurn {X Y : Type} (envs : Nat → X) : List Y → List (X × Y)
  | [] => []
  | y :: ys => (envs 0, y) :: inTurn (fun i => envs (i + 1)) ys

end Verif.Docs
