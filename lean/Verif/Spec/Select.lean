import Verif.Spec.History
import Verif.Spec.Plain
import Verif.Model.Select

/-!
# What the choice of the implementation should achieve
-/

namespace Verif

/-- The layout of a sized Rust type: the alignment is a power of two that divides the size. -/
def SizedLayout (c : Cfg) (size align : Nat) : Prop := IsAlign c align ∧ align ∣ size

/-- A type that exists in Rust. -/
def DTy.Valid (c : Cfg) : DTy → Prop
  | .slice size align => SizedLayout c size align
  | .record _ align last => IsAlign c align ∧ last.Valid c
  | _ => True

def RTy.Valid (c : Cfg) : RTy → Prop
  | .sized size align => SizedLayout c size align
  | .unsized d => d.Valid c

/-- Metadata that exist in Rust: a vtable records the layout of a sized type. -/
def DTy.MetaValid (c : Cfg) : (d : DTy) → (d.ty c).Meta → Prop
  | .dyn, md => SizedLayout c md.1 md.2
  | .record _ _ last, md => last.MetaValid c md
  | .slice _ _, _ => True
  | .str, _ => True
  | .cstr, _ => True

/-- `offset`, `size` and `align` are a correct layout for a struct whose other fields need `prefixSize` bytes with the alignment
`prefixAlign`, and whose last field needs `lastSize` bytes with the alignment `lastAlign`: everything is inside and aligned, and no
bytes are wasted except for alignment. -/
structure RecordLayout (prefixSize prefixAlign lastSize lastAlign offset size align : Nat) : Prop where
  behind : prefixSize ≤ offset
  aligned : lastAlign ∣ offset
  tight : offset < prefixSize + lastAlign
  inside : offset + lastSize ≤ size
  dvd : align ∣ size
  snug : size < offset + lastSize + align
  prefixDvd : prefixAlign ∣ align
  lastDvd : lastAlign ∣ align
  least : align = prefixAlign ∨ align = lastAlign

/-- A slice of elements of size zero: its length is not recorded (C28). -/
def RTy.LosesLength : RTy → Prop
  | .unsized (.slice size _) => size = 0
  | _ => False

namespace Choice
variable {β : Type}

/-- The vector holds the list. -/
def Holds (c : Cfg) : (i : Choice) → i.Vec β → List (Val i.ty β) → Prop
  | vec _ _ => SVec.Holds c
  | aligned _ => AVec.Holds c
  | unaligned _ => UVec.Holds c

/-- Covered calls. -/
def Covered (c : Cfg) : (i : Choice) → Env (Val i.ty β) → Op i.ty β → i.Vec β → List (Val i.ty β) → Prop
  | vec _ _ => fun env op _ xs => SVec.Covered env op xs
  | aligned _ => fun env op _ xs => AVec.Covered env op xs
  | unaligned _ => UVec.Covered True c

/-- Memory is short for the call. -/
def Short (c : Cfg) : (i : Choice) → Env (Val i.ty β) → Op i.ty β → i.Vec β → List (Val i.ty β) → Prop
  | vec _ _ => SVec.Short c
  | aligned _ => AVec.Short c
  | unaligned _ => UVec.Short c

/-- All memory has been returned. -/
def Freed : (i : Choice) → i.Vec β → Prop
  | vec _ _ => fun v => v.slots = 0
  | aligned _ => fun v => v.heap.block = none ∧ v.heap.leaks = 0
  | unaligned _ => fun v => v.heap.block = none ∧ v.heap.leaks = 0

end Choice

/-- Calls that add and remove at the ends of the vector, or read and write elements. The elements are not of size zero; the result of
removing is not dropped if the destructor panics, nor given to code that panics. -/
def Op.AtEnds {T : UTy} {β : Type} (env : Env (Val T β)) (xs : List (Val T β)) : Op T β → Prop
  | push x | pushWith (.value x) => 0 < x.size
  | insert i x | insertWith i (.value x) => 0 < x.size ∧ (i ≤ xs.length → i = 0)
  | remove i d => i = 0 ∧ d ≠ .panics ∧ (d = .drop → ∀ x, xs[i]? = some x → env.dropPanics x = false)
  | pop _ | get _ | index _ | set _ _ | len => True
  | _ => False

end Verif
