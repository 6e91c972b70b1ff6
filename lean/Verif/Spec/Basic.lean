import Verif.Model.Heap

/-!
# Basic vocabulary of the specifications
-/

namespace Verif

/-- A judgement on an outcome: normal returns satisfy `okP`, unwinding leaves a state satisfying `panicP`, an abort
happens only if `abortP`, and there is no undefined behaviour. -/
def Res.Meets {σ α : Type} (r : Res σ α) (okP : α → σ → Prop) (panicP : σ → Prop) (abortP : Prop) : Prop :=
  match r with
  | .ok a s => okP a s
  | .panic s => panicP s
  | .abort => abortP
  | .ub => False

/-- `a` is a power of two below `2 ^ bits`. -/
def IsAlign (c : Cfg) (a : Nat) : Prop := ∃ k, k < c.bits ∧ a = 2 ^ k

/-- `m` is the least multiple of `a` that is not below `n`. -/
def LeastMultiple (a n m : Nat) : Prop := a ∣ m ∧ n ≤ m ∧ ∀ k, a ∣ k → n ≤ k → m ≤ k

/-- `n` rounded up to a multiple of `a` (`padTo_leastMultiple`: it is the least such multiple). -/
def padTo (a n : Nat) : Nat := (n + (a - 1)) / a * a

/-- The bytes `bs` are in memory from offset `off` on. -/
def BytesAre {β : Type} (mem : Nat → β) (off : Nat) (bs : List β) : Prop :=
  ∀ i (h : i < bs.length), mem (off + i) = bs[i]

/-- Total width of a list of elements when an element of size `s` occupies `w s` bytes. -/
def totalWidth {T : UTy} {β : Type} (w : Nat → Nat) : List (Val T β) → Nat
  | [] => 0
  | x :: xs => w x.size + totalWidth w xs

/-- The elements are in memory one after the other from offset `off` on; an element of size `s` occupies `w s`
bytes. -/
def MemAt {T : UTy} {β : Type} (mem : Nat → β) (w : Nat → Nat) : Nat → List (Val T β) → Prop
  | _, [] => True
  | off, x :: xs => BytesAre mem off x.bytes ∧ MemAt mem w (off + w x.size) xs

/-- The element-info records that describe the elements laid out from offset `off` on. -/
def infosFrom {T : UTy} {β R : Type} (enc : T.Meta → R) (w : Nat → Nat) : Nat → List (Val T β) → List (Info R)
  | _, [] => []
  | off, x :: xs => ⟨enc x.md, off + x.size⟩ :: infosFrom enc w (off + w x.size) xs

/-- The vector with pointer `p`, byte capacity `cap` and alignment `a` owns exactly the allocation it should: none
for capacity zero (then the pointer is merely a multiple of the alignment), otherwise a block at `p` of that
alignment with at least `cap` bytes. -/
def BlockOk {β : Type} (h : Heap β) (p cap a : Nat) : Prop :=
  0 < p ∧ a ∣ p ∧
  match h.block with
  | none => cap = 0
  | some b => 0 < cap ∧ b.addr = p ∧ b.align = a ∧ b.reqSize ≤ cap ∧ cap ≤ b.granted

end Verif
