import Verif.Model.Client

/-!
# A vector gives nothing up by itself (C58)
-/

namespace Verif

/-- Nothing has been given up between the states `v` and `v'`: what the user can query has not become smaller; the alignment has not
become larger than `a`, unless it was before; and if the queries still have the same answers, then the memory is still the same
(`block`), and still where it was (`ptr`; the pointer of a vector without memory changes when a larger alignment is asked for). -/
structure NoLoss {V T β μ} (P : Provider V T β) (block : V → μ) (ptr : V → Nat) (a : Nat) (v v' : V) : Prop where
  capacity : P.capacity v ≤ P.capacity v'
  bytes : ∀ b b', P.byteCapacity v = some b → P.byteCapacity v' = some b' → b ≤ b'
  align : P.align v ≤ P.align v'
  asked : P.align v' ≤ max (P.align v) a
  stays : P.capacity v' = P.capacity v → P.byteCapacity v' = P.byteCapacity v → P.align v' = P.align v →
    block v' = block v ∧ (a ≤ P.align v → ptr v' = ptr v)

section
variable {T : UTy} {β : Type}

/-- The largest alignment that a call asks for. -/
def Op.asks : Op T β → Nat
  | .push x | .insert _ x | .pushWith (.value x) | .insertWith _ (.value x) => x.align
  | .pushWith (.fails md _) | .insertWith _ (.fails md _) => T.alignOf md
  | .reserve q | .tryReserve q => q.align
  | _ => 0

/-- The calls that are not of the shrink family. -/
def Op.Grows : Op T β → Prop
  | .shrink _ => False
  | _ => True

end
end Verif
