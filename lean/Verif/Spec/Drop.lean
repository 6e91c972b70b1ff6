import Verif.Spec.Holds

/-!
# Destructors
-/

namespace Verif

/-- Destroying `xs` in order stops at the first destructor that panics: `ds` are the values whose destructors have been
run. -/
def StopsAt {X : Type} (panics : X → Bool) (xs ds : List X) : Prop :=
  ∃ ys x zs, xs = ys ++ x :: zs ∧ ds = ys ++ [x] ∧ panics x = true ∧ ∀ y ∈ ys, panics y = false

end Verif
