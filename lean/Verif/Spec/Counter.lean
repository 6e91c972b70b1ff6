import Verif.Spec.Iter

/-!
# The number of items left, as a counter

All that `ExactSizeIterator` and `FusedIterator` promise is about a number: how many items are left. Which items these are
does not matter.
-/

namespace Verif.ICall

/-- How many items the call uses up, if there are so many. -/
def uses : ICall → Nat
  | .next => 1
  | .nextBack => 1
  | .nth n => n + 1
  | .nthBack n => n + 1

/-- For each call of a sequence whether it returns an item, if `n` are left before; a call that asks for more than there are
returns none and leaves none. -/
def returns : List ICall → Nat → List Bool
  | [], _ => []
  | k :: ks, n => decide (k.uses ≤ n) :: returns ks (n - k.uses)

/-- The number of items left after a sequence of calls. -/
def left (ks : List ICall) (n : Nat) : Nat := n - (ks.map uses).sum

/-- Once a call has returned nothing, no later call returns anything. -/
def Fused {R : Type} (os : List (Option R)) : Prop := os.Pairwise (fun o o' => o = none → o' = none)

end Verif.ICall
