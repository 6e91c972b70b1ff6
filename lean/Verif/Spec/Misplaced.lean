import Verif.Spec.Guards

/-!
# What `insert` does

`insert` puts the new element at the *byte* offset `index` instead of the offset at which element `index` starts (aligned.rs:254,
unaligned.rs:609). These definitions say what that does to the memory.
-/

namespace Verif
variable {T : UTy} {β : Type}

/-- The number of bytes up to the end of the last element (the padding behind it does not count). -/
def bytesUsed (w : Nat → Nat) (xs : List (Val T β)) : Nat :=
  match xs.getLast? with
  | none => 0
  | some x => totalWidth w xs.dropLast + x.size

/-- The memory after `insert`: the bytes `bs` of the new element are at `off`, the `n` bytes from `off` on have moved up by `w`
bytes, and everything else is as it was. -/
def misplaced [Inhabited β] (mem : Nat → β) (off : Nat) (bs : List β) (w n : Nat) : Nat → β := fun i =>
  if off ≤ i ∧ i < off + bs.length then bs.getD (i - off) default
  else if off + w ≤ i ∧ i < off + w + n then mem (i - w)
  else mem i

/-- The values that the memory contains for elements with the given metadata, one after the other. -/
def seenAs (mem : Nat → β) (w : Nat → Nat) : Nat → List T.Meta → List (Val T β)
  | _, [] => []
  | off, md :: mds => ⟨md, (List.range (T.sizeOf md)).map (fun i => mem (off + i))⟩ :: seenAs mem w (off + w (T.sizeOf md)) mds

end Verif
