import Verif.Spec.Holds

/-!
# How often pushing raises the alignment
-/

namespace Verif

/-- The alignment that a vector of alignment `a` needs when the values have been added. -/
def topAlign {T : UTy} {β : Type} (a : Nat) : List (Val T β) → Nat
  | [] => a
  | x :: xs => topAlign (max a x.align) xs

/-- How many of the values have a larger alignment than `a` and all values before them. -/
def raises {T : UTy} {β : Type} (a : Nat) : List (Val T β) → Nat
  | [] => 0
  | x :: xs => (if a < x.align then 1 else 0) + raises (max a x.align) xs

end Verif
