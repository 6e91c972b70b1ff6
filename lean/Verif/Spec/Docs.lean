import Verif.Model.Docs
import Verif.Spec.Several

/-!
# What the examples in the documentation say
-/

namespace Verif
namespace Docs
variable {V : Type} {T : UTy} {β : Type}

/-- What an example shows, call by call. -/
def Ex.shows : Ex T β → List (Out T β)
  | push x => [.done, .value x]
  | insert _ y => [.done, .done, .value y]
  | remove x _ => [.done, .done, .value x]
  | pop x y _ => [.number 0, .nothing, .done, .value x, .done, .values [some y, none], .done, .number 0, .done]
  | main xs x => List.replicate (xs.length + 1) .done ++
      [.values ((xs ++ [x]).map some ++ [none]), .number (xs.length + 1), .value x, .number xs.length]
  | screen xs => List.replicate xs.length .done ++ [.values (xs.map some ++ [none])]

/-- The vector at the end. -/
def Ex.leaves : Ex T β → List (Val T β)
  | push x => [x]
  | insert x y => [y, x]
  | remove _ y => [y]
  | pop _ _ z => [z]
  | main xs _ => xs
  | screen xs => xs

/-- The values that have been dropped before the end. -/
def Ex.drops : Ex T β → List (Val T β)
  | pop _ y _ => [y]
  | _ => []

/-- The values in an example. -/
def Ex.vals : Ex T β → List (Val T β)
  | push x => [x]
  | insert x y | remove x y => [x, y]
  | pop x y z => [x, y, z]
  | main xs x => xs ++ [x]
  | screen xs => xs

/-- What an example with two vectors shows. -/
def Ex2.shows : Ex2 T β → List (Out T β)
  | insertWith _ b _ => [.done, .done, .done, .done, .number 1, .number 2, .value b]
  | pushWith _ b => [.done, .done, .done, .number 1, .value b]

/-- The two vectors at the end. -/
def Ex2.leaves : Ex2 T β → List (Val T β) × List (Val T β)
  | insertWith a b d => ([a], [b, d])
  | pushWith a b => ([a], [b])

/-- The values in an example. -/
def Ex2.vals : Ex2 T β → List (Val T β)
  | insertWith a b d => [a, b, d]
  | pushWith a b => [a, b]

end Docs
end Verif
