import Verif.Model.Tests
import Verif.Spec.Docs

/-!
# What the tests of the repository assert
-/

namespace Verif
namespace Docs
variable {T : UTy} {β : Type}

/-- What a test asserts, call by call. -/
def Test.shows : Test T β → List (Out T β)
  | sized x y => [.number 0, .done, .number 1, .value x, .done, .done, .number 2, .value y]
  | unsizedDrop x y z w bs => [.number 0, .done, .number 1, .value x, .done, .value y, .done, .done, .value ⟨z.md, bs⟩, .value ⟨z.md, bs⟩,
      .done, .value w, .value x, .value y, .done, .value x, .value w, .value y]
  | dynamic x y w => [.number 0, .done, .number 1, .done, .number 2, .value y, .number 1, .done, .done, .number 2, .value w, .value x,
      .values [some w, some x, none], .value w, .number 1, .value x]
  | unsizedAligned x y z w bs => [.number 0, .done, .number 1, .value x, .done, .value y, .done, .done, .done, .value ⟨z.md, bs⟩,
      .value ⟨z.md, bs⟩, .done, .value w, .value x, .value y, .value x, .value w, .value y]

/-- The vector at the end. -/
def Test.leaves : Test T β → List (Val T β)
  | sized x y => [x, y]
  | unsizedDrop _ y _ w _ | unsizedAligned _ y _ w _ => [w, y]
  | dynamic x _ _ => [x]

/-- The values in a test. -/
def Test.vals : Test T β → List (Val T β)
  | sized x y => [x, y]
  | unsizedDrop x y z w _ | unsizedAligned x y z w _ => [x, y, z, w]
  | dynamic x y w => [x, y, w]

/-- The values of a test can exist, and the bytes that are written into an element fit it. -/
def Test.WF (c : Cfg) : Test T β → Prop
  | sized x y => x.WF c ∧ y.WF c
  | unsizedDrop x y z w bs | unsizedAligned x y z w bs => x.WF c ∧ y.WF c ∧ z.WF c ∧ w.WF c ∧ bs.length = z.size
  | dynamic x y w => x.WF c ∧ y.WF c ∧ w.WF c

end Docs
end Verif
