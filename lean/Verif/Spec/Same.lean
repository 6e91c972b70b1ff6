import Verif.Spec.History

/-!
# The same program on different vectors
-/

namespace Verif
section
variable {T : UTy} {β : Type}

/-- Two programs make the same calls, on values with the same destructors. The allocators may be different. -/
def SameCalls (p q : List (Env (Val T β) × Op T β)) : Prop :=
  p.map (fun x => (x.1.dropPanics, x.2)) = q.map (fun x => (x.1.dropPanics, x.2))

/-- Both runs return, and the program has made the same observations; both vectors hold the same elements, and the same values
have been dropped in the same order. -/
def Indistinguishable {V W : Type} (M : Machine V T β) (N : Machine W T β) (H : V → List (Val T β) → Prop) (I : W → List (Val T β) → Prop)
    (r : Res V (List (Out T β))) (q : Res W (List (Out T β))) : Prop :=
  ∃ os v w s, r = .ok os v ∧ q = .ok os w ∧ Tracks M H v s ∧ Tracks N I w s

end

/-- A sized type as a statically aligned one: `impl<T> Aligned for T` (marker.rs:27–29), and nothing is stored of its metadata, which is
`()` (helper.rs:16–18, 53–61, 70–74). The implementation for statically aligned types would be used for sized types as well if there
were no better one. -/
def ATy.sized (sz al : Nat) : ATy := ⟨sizedTy sz al, al, Unit, fun _ => (), fun _ _ => ()⟩

end Verif
