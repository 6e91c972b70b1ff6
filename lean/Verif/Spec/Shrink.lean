import Verif.Spec.Guards

/-!
# Shrinking
-/

namespace Verif

/-- A method that shrinks, and its arguments. -/
inductive Shrinking where
  /-- `shrink_to_fit` -/
  | toFit
  /-- `shrink_to` -/
  | elems (n : Nat)
  /-- `shrink_capacity_bytes_to` -/
  | capBytes (n b : Nat)
  /-- `shrink_capacity_bytes_align_to` -/
  | capBytesAlign (n b al : Nat)

namespace Shrinking

/-- The element capacity to be kept. -/
def slots : Shrinking → Nat
  | toFit => 0
  | elems n | capBytes n _ | capBytesAlign n _ _ => n

/-- The byte capacity to be kept (`usize::MAX` = all). -/
def bytes (c : Cfg) : Shrinking → Nat
  | toFit => 0
  | elems _ => c.usizeMax
  | capBytes _ b | capBytesAlign _ b _ => b

/-- The alignment to be kept (the largest alignment = all). -/
def align (c : Cfg) : Shrinking → Nat
  | toFit => 1
  | elems _ | capBytes _ _ => 2 ^ (c.bits - 1)
  | capBytesAlign _ _ al => al

/-- The code of the method. -/
def run {V : Type} {T : UTy} {β : Type} (c : Cfg) (P : Provider V T β) (env : Env (Val T β)) : Shrinking → Exec V Unit
  | toFit => Api.shrinkToFit P env
  | elems n => Api.shrinkTo c P env n
  | capBytes n b => Api.shrinkCapacityBytesTo c P env n b
  | capBytesAlign n b al => Api.shrinkCapacityBytesAlignTo P env n b al

end Shrinking

namespace UVec
variable {T : UTy} {β : Type}

/-- The strictest alignment among the elements; 1 if there are none. -/
def maxAlign : List (Val T β) → Nat
  | [] => 1
  | x :: xs => max x.align (maxAlign xs)

/-- The alignment after shrinking: not below the requested minimum nor below what the elements need, and not above the
present one. -/
def shrunkAlign (v : UVec T β) (xs : List (Val T β)) (minAlign : Nat) : Nat := max (min minAlign v.align) (maxAlign xs)

/-- The byte capacity after shrinking. -/
def shrunkCap (v : UVec T β) (xs : List (Val T β)) (minBytes minAlign : Nat) : Nat :=
  max (min minBytes v.byteCap) (totalWidth (padTo (v.shrunkAlign xs minAlign)) xs)

/-- The covered case of shrinking: no element (except the last) needs less padding under the new alignment, so that the
elements can stay where they are. -/
def ShrinkOk (v : UVec T β) (xs : List (Val T β)) (minAlign : Nat) : Prop :=
  ∀ x ∈ xs.dropLast, padTo v.align x.size = padTo (v.shrunkAlign xs minAlign) x.size

/-- The byte capacity after shrinking is a multiple of the alignment after shrinking. -/
def CapOk (v : UVec T β) (xs : List (Val T β)) (minBytes minAlign : Nat) : Prop :=
  v.shrunkAlign xs minAlign ∣ v.shrunkCap xs minBytes minAlign

end UVec

namespace AVec
variable {A : ATy} {β : Type}

/-- The byte capacity after shrinking. -/
def shrunkCap (v : AVec A β) (xs : List (Val A.ty β)) (minBytes : Nat) : Nat := max (min minBytes v.byteCap) (totalWidth id xs)

end AVec
end Verif
