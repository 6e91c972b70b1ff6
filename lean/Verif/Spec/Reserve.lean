import Verif.Spec.Guards

/-!
# Reservations

The methods that reserve capacity, as one type, so that a theorem can speak about all of them.
-/

namespace Verif

/-- A reservation: which method, and its arguments. -/
inductive Reservation where
  /-- `(try_)reserve` -/
  | elems (n : Nat)
  /-- `(try_)reserve_capacity_bytes` -/
  | capBytes (n b : Nat)
  /-- `(try_)reserve_capacity_bytes_align` -/
  | capBytesAlign (n b al : Nat)
  /-- `(try_)reserve_exact` -/
  | exact (n : Nat)
  /-- `(try_)reserve_exact_capacity_bytes` -/
  | exactCapBytes (n b : Nat)
  /-- `(try_)reserve_exact_capacity_bytes_align` -/
  | exactCapBytesAlign (n b al : Nat)

namespace Reservation
variable {V : Type} {T : UTy} {β : Type}

/-- Number of additional elements asked for. -/
def slots : Reservation → Nat
  | elems n | capBytes n _ | capBytesAlign n _ _ | exact n | exactCapBytes n _ | exactCapBytesAlign n _ _ => n

/-- Number of additional bytes asked for. -/
def bytes : Reservation → Nat
  | elems _ | exact _ => 0
  | capBytes _ b | capBytesAlign _ b _ | exactCapBytes _ b | exactCapBytesAlign _ b _ => b

/-- Alignment asked for. -/
def align : Reservation → Nat
  | capBytesAlign _ _ al | exactCapBytesAlign _ _ al => al
  | _ => 1

/-- The code of the `try_` method. -/
def attempt (c : Cfg) (P : Provider V T β) (env : Env (Val T β)) : Reservation → Exec V (Except TRE Unit)
  | elems n => Api.tryReserve P env n
  | capBytes n b => Api.tryReserveCapacityBytes c P env n b
  | capBytesAlign n b al => Api.tryReserveCapacityBytesAlign c P env n b al
  | exact n => Api.tryReserveExact P env n
  | exactCapBytes n b => Api.tryReserveExactCapacityBytes P env n b
  | exactCapBytesAlign n b al => Api.tryReserveExactCapacityBytesAlign P env n b al

/-- The code of the method without `try_`. -/
def run (c : Cfg) (P : Provider V T β) (env : Env (Val T β)) : Reservation → Exec V Unit
  | elems n => Api.reserve P env n
  | capBytes n b => Api.reserveCapacityBytes c P env n b
  | capBytesAlign n b al => Api.reserveCapacityBytesAlign c P env n b al
  | exact n => Api.reserveExact P env n
  | exactCapBytes n b => Api.reserveExactCapacityBytes P env n b
  | exactCapBytesAlign n b al => Api.reserveExactCapacityBytesAlign P env n b al

/-- The `try_` method evaluates the `debug_assert!` of src/lib.rs:585. -/
def Asserts : Reservation → Prop
  | capBytes _ _ | capBytesAlign _ _ _ => True
  | _ => False

/-- Room for `n` more elements with `b` more bytes, in terms of what the user can query. -/
def Roomy (P : Provider V T β) (v : V) (n b : Nat) : Prop :=
  P.len v + n ≤ P.capacity v ∧ ∃ len cap, P.byteLen v = some len ∧ P.byteCapacity v = some cap ∧ len + b ≤ cap

/-- The queries about the bytes have the same answers. -/
def SameBytes (P : Provider V T β) (v v' : V) : Prop :=
  P.byteLen v' = P.byteLen v ∧ P.byteCapacity v' = P.byteCapacity v ∧ P.align v' = P.align v

end Reservation
end Verif
