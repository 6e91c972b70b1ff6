/-!
# Words, alignments and sizes

Transcription of `src/helper/valid_align.rs` and `src/helper/valid_size.rs`.

A `usize` is a `Nat`. Functions that contain an unchecked operation return `Option`, where `none` means
that the safety precondition is violated (undefined behaviour). A Rust `Option` result of such a function is
a second, inner `Option`.
-/

namespace Verif

/-- Target and build parameters. -/
structure Cfg where
  /-- `usize::BITS` -/
  bits : Nat
  /-- `cfg!(debug_assertions)` -/
  debug : Bool
  /-- `mem::align_of::<usize>()` -/
  usizeAlign : Nat
  /-- the largest number of element-info records a `Vec` can hold (`isize::MAX / size_of::<ElementInfo>()`) -/
  infoMax : Nat
  deriving Repr

namespace Cfg
/-- `usize::MAX` -/
def usizeMax (c : Cfg) : Nat := 2 ^ c.bits - 1
/-- `isize::MAX as usize` -/
def isizeMax (c : Cfg) : Nat := 2 ^ (c.bits - 1) - 1
end Cfg

/-- core::alloc::Layout -/
structure Layout where
  size : Nat
  align : Nat
  deriving DecidableEq, Repr

/-! ## primitive operations on `usize` -/

/-- `usize::checked_add` -/
def checkedAdd (c : Cfg) (x y : Nat) : Option Nat := if x + y ≤ c.usizeMax then some (x + y) else none
/-- `usize::unchecked_add`; `none` = UB on overflow -/
def uncheckedAdd (c : Cfg) (x y : Nat) : Option Nat := if x + y ≤ c.usizeMax then some (x + y) else none
/-- `usize::unchecked_sub`; `none` = UB on underflow -/
def uncheckedSub (x y : Nat) : Option Nat := if y ≤ x then some (x - y) else none
/-- `usize::unchecked_mul`; `none` = UB on overflow -/
def uncheckedMul (c : Cfg) (x y : Nat) : Option Nat := if x * y ≤ c.usizeMax then some (x * y) else none
/-- `!x` on `usize` -/
def bitNot (c : Cfg) (x : Nat) : Nat := c.usizeMax - x
/-- `usize::saturating_add` -/
def saturatingAdd (c : Cfg) (x y : Nat) : Nat := min (x + y) c.usizeMax

namespace ValidAlign

/-- `usize::is_power_of_two` (std: `count_ones() == 1`), computed by the usual bit trick. -/
def isPowerOfTwo (x : Nat) : Bool := x != 0 && (x &&& (x - 1)) == 0

/-- `ValidAlign::new` (valid_align.rs:40–50). -/
def new (align : Nat) : Option Nat := if isPowerOfTwo align then some align else none

/-- The discriminants of `ValidAlignEnum` (valid_align.rs:174–302): `1 << 0, …, 1 << (BITS - 1)`. -/
def variants (c : Cfg) : List Nat := (List.range c.bits).map (fun k => 1 <<< k)

/-- `ValidAlign::new_unckecked` (valid_align.rs:64–68): a transmute to the enum; UB unless the value is a
discriminant. -/
def newUnchecked (c : Cfg) (align : Nat) : Option Nat :=
  if align ∈ variants c then some align else none

/-- `ValidAlign::minus_1` (valid_align.rs:79–82). -/
def minus1 (a : Nat) : Option Nat := uncheckedSub a 1

/-- `NonZeroUsize::trailing_zeros` by structural recursion on the number of bits. -/
def trailingZeros : Nat → Nat → Nat
  | 0, _ => 0
  | fuel + 1, x => if x % 2 = 1 then 0 else trailingZeros fuel (x / 2) + 1

/-- `ValidAlign::log2` (valid_align.rs:102–104). -/
def log2 (c : Cfg) (a : Nat) : Nat := trailingZeros c.bits a

end ValidAlign

/-- Is `layout` accepted by `Layout::from_size_align_unchecked`: power-of-two alignment below `2^BITS`, and
the size rounded up to the alignment at most `isize::MAX`. -/
def Layout.Valid (c : Cfg) (l : Layout) : Prop :=
  (∃ k, k < c.bits ∧ l.align = 2 ^ k) ∧ l.size + (l.align - 1) ≤ c.isizeMax

/-- `Layout::from_size_align_unchecked`; `none` = UB. -/
def layoutUnchecked (c : Cfg) (size align : Nat) : Option Layout :=
  if align ∈ ValidAlign.variants c ∧ size + (align - 1) ≤ c.isizeMax then some ⟨size, align⟩ else none

/-! ## `ValidSizeUnaligned` (valid_size.rs:160–320): sizes whose alignment is only known at run time -/
namespace VSU

/-- `new_unchecked` (valid_size.rs:174–177); precondition `size <= isize::MAX`. -/
def newUnchecked (c : Cfg) (size : Nat) : Option Nat := if size ≤ c.isizeMax then some size else none

/-- `new` (valid_size.rs:185–191). -/
def new (c : Cfg) (size : Nat) : Option Nat := if size ≤ c.isizeMax then some size else none

/-- `max_for_align` (valid_size.rs:203–207). -/
def maxForAlign (c : Cfg) (align : Nat) : Option Nat := do
  let m ← ValidAlign.minus1 align
  let d ← uncheckedSub c.isizeMax m
  newUnchecked c d

/-- `new_padded_to` (valid_size.rs:211–221). -/
def newPaddedTo (c : Cfg) (size align : Nat) : Option (Option Nat) := do
  let m ← ValidAlign.minus1 align
  match Verif.checkedAdd c size m with
  | none => pure none
  | some sum => pure (new c (sum &&& bitNot c m))

/-- `new_squished_to` (valid_size.rs:226–234). -/
def newSquishedTo (c : Cfg) (size align : Nat) : Option Nat := do
  let mx ← maxForAlign c align
  if size ≤ mx then newUnchecked c size else pure mx

/-- `checked_add` (valid_size.rs:238–244, 109–115 with `T = ()`). -/
def checkedAdd (c : Cfg) (x y : Nat) : Option Nat :=
  match Verif.checkedAdd c x y with
  | some s => new c s
  | none => none

/-- `unchecked_add` (valid_size.rs:251–254, 122–125). -/
def uncheckedAdd (c : Cfg) (x y : Nat) : Option Nat := do
  let s ← Verif.uncheckedAdd c x y
  newUnchecked c s

/-- `unchecked_sub` (valid_size.rs:261–264, 132–135). -/
def uncheckedSub (c : Cfg) (x y : Nat) : Option Nat := do
  let s ← Verif.uncheckedSub x y
  newUnchecked c s

/-- `checked_pad_to` (valid_size.rs:268–276). -/
def checkedPadTo (c : Cfg) (x align : Nat) : Option (Option Nat) := do
  let m ← ValidAlign.minus1 align
  let s ← Verif.uncheckedAdd c x m
  pure (new c (s &&& bitNot c m))

/-- `unchecked_pad_to` (valid_size.rs:283–291). -/
def uncheckedPadTo (c : Cfg) (x align : Nat) : Option Nat := do
  let m ← ValidAlign.minus1 align
  let s ← Verif.uncheckedAdd c x m
  newUnchecked c (s &&& bitNot c m)

/-- `checked_add_pad` (valid_size.rs:295–301). -/
def checkedAddPad (c : Cfg) (x rhs align : Nat) : Option (Option Nat) :=
  match Verif.checkedAdd c x rhs with
  | some sum => newPaddedTo c sum align
  | none => pure none

end VSU

/-! ## `ValidSize<T>` (valid_size.rs:13–158): sizes for a type with statically known alignment `a` -/
namespace VS

/-- `MAX` (valid_size.rs:55–58). -/
def max (c : Cfg) (a : Nat) : Nat := c.isizeMax - (a - 1)

/-- `new_unchecked` (valid_size.rs:69–73); the precondition is the one the `debug_assert!` states. -/
def newUnchecked (c : Cfg) (a size : Nat) : Option Nat := if size ≤ max c a then some size else none

/-- `new` (valid_size.rs:81–87). -/
def new (c : Cfg) (a size : Nat) : Option Nat := if size ≤ max c a then some size else none

/-- `new_squished` (valid_size.rs:92–99). -/
def newSquished (c : Cfg) (a size : Nat) : Nat := if size ≤ max c a then size else max c a

/-- `unchecked_add` (valid_size.rs:122–125). -/
def uncheckedAdd (c : Cfg) (a x y : Nat) : Option Nat := do
  let s ← Verif.uncheckedAdd c x y
  newUnchecked c a s

/-- `unchecked_sub` (valid_size.rs:132–135). -/
def uncheckedSub (c : Cfg) (a x y : Nat) : Option Nat := do
  let s ← Verif.uncheckedSub x y
  newUnchecked c a s

end VS

end Verif
