import Verif.Model.Docs

/-!
# The tests of the repository

The tests in tests/test.rs that use a vector, call by call, with arbitrary values in place of the literals. `push_unsize` and `insert_unsize`
are `push` and `insert` of the coerced value (C41), `box_new_with(e)` moves the value out (C38), `vec[2][1] = …` writes the bytes `bs` into
element 2 (dropping the old box is not the affair of the vector), and `dbg!(&vec)` calls `next` until it returns `None` (C45).
-/

namespace Verif.Docs
variable {T : UTy} {β : Type}

/-- The tests. -/
inductive Test (T : UTy) (β : Type) where
  /-- `test_sized` (tests/test.rs:29–43) -/
  | sized (x y : Val T β)
  /-- `test_unsized_drop` (47–114) -/
  | unsizedDrop (x y z w : Val T β) (bs : List β)
  /-- `test_dyn` (116–146) -/
  | dynamic (x y w : Val T β)
  /-- `test_unsized_aligned` (148–179) -/
  | unsizedAligned (x y z w : Val T β) (bs : List β)

/-- The calls. -/
def Test.ops : Test T β → List (Op T β)
  | sized x y => [.len, .push x, .len, .index 0, .shrink .toFit, .push y, .len, .index 1]
  | unsizedDrop x y z w bs => [.len, .push x, .len, .index 0, .push y, .index 1, .push z, .set 2 bs, .index 2, .pop .take,
      .insert 0 w, .index 0, .index 1, .index 2, .shrink .toFit, .remove 1 .take, .index 0, .index 1]
  | dynamic x y w => [.len, .push x, .len, .push y, .len, .pop .take, .len, .shrink .toFit, .insert 0 w, .len, .index 0, .index 1,
      .iter [.next, .next, .next], .remove 0 .take, .len, .index 0]
  | unsizedAligned x y z w bs => [.len, .push x, .len, .index 0, .push y, .index 1, .shrink .toFit, .push z, .set 2 bs, .index 2, .pop .take,
      .insert 0 w, .index 0, .index 1, .index 2, .remove 1 .take, .index 0, .index 1]

end Verif.Docs
