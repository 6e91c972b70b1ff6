import Verif.Proofs.Arith
import Verif.Proofs.Exec
import Verif.Model.Api

/-!
# C29 (padding arithmetic) and C30 (alignments)
-/

namespace Verif

/-- A 64-bit configuration used in the examples. -/
def cfg64 (debug : Bool) : Cfg := ⟨64, debug, 8, 2 ^ 59⟩

/-! ## C29 -/

/-- `checked_pad_to` on a valid size and alignment never has undefined behaviour. It returns the least multiple
of the alignment not below the size, and fails exactly when that multiple exceeds `isize::MAX`. -/
theorem C29_checked_pad_to (c : Cfg) (x a : Nat) (ha : IsAlign c a) (hx : x ≤ c.isizeMax) :
    ∃ m, LeastMultiple a x m ∧
      VSU.checkedPadTo c x a = some (if m ≤ c.isizeMax then some m else none) :=
  ⟨padTo a x, padTo_leastMultiple ha.pos x, VSU.checkedPadTo_eq ha hx⟩

example : IsAlign (cfg64 false) 16 ∧ 33 ≤ (cfg64 false).isizeMax ∧ VSU.checkedPadTo (cfg64 false) 33 16 = some (some 48) :=
  ⟨⟨4, by decide, by decide⟩, by decide, by decide⟩

/-- `unchecked_pad_to` returns the least multiple, and has undefined behaviour exactly when it exceeds
`isize::MAX`. -/
theorem C29_unchecked_pad_to (c : Cfg) (x a : Nat) (ha : IsAlign c a) (hx : x ≤ c.isizeMax) :
    ∃ m, LeastMultiple a x m ∧
      VSU.uncheckedPadTo c x a = if m ≤ c.isizeMax then some m else none := by
  refine ⟨padTo a x, padTo_leastMultiple ha.pos x, ?_⟩
  by_cases h : padTo a x ≤ c.isizeMax
  · rw [if_pos h]; exact VSU.uncheckedPadTo_eq ha hx h
  · rw [if_neg h]; exact VSU.uncheckedPadTo_none ha hx h

/-- `new_padded_to` accepts every `usize` and is total: the least multiple if that is at most `isize::MAX`,
failure otherwise; no intermediate overflow. -/
theorem C29_new_padded_to (c : Cfg) (n a : Nat) (ha : IsAlign c a) :
    ∃ m, LeastMultiple a n m ∧
      VSU.newPaddedTo c n a = some (if m ≤ c.isizeMax then some m else none) :=
  ⟨padTo a n, padTo_leastMultiple ha.pos n, VSU.newPaddedTo_eq ha⟩

example : VSU.newPaddedTo (cfg64 false) (2 ^ 64 - 1) 16 = some none := by decide

/-- `checked_add_pad` for every `usize` argument: the least multiple of the alignment not below the exact sum, or
failure exactly when that exceeds `isize::MAX` (which includes every sum that overflows `usize`). -/
theorem C29_checked_add_pad (c : Cfg) (x r a : Nat) (ha : IsAlign c a) :
    ∃ m, LeastMultiple a (x + r) m ∧
      VSU.checkedAddPad c x r a = some (if m ≤ c.isizeMax then some m else none) :=
  ⟨padTo a (x + r), padTo_leastMultiple ha.pos _, VSU.checkedAddPad_eq ha⟩

example : VSU.checkedAddPad (cfg64 true) 5 12 8 = some (some 24) := by decide

/-- `checked_add` is exact addition that fails exactly above `isize::MAX`. -/
theorem C29_checked_add (c : Cfg) (x y : Nat) :
    VSU.checkedAdd c x y = if x + y ≤ c.isizeMax then some (x + y) else none := VSU.checkedAdd_eq x y

/-- `new_squished_to` clamps to the largest size a layout of that alignment can have, and a layout of the result is
valid. -/
theorem C29_new_squished_to (c : Cfg) (n a : Nat) (ha : IsAlign c a) :
    ∃ m, VSU.newSquishedTo c n a = some m ∧ m ≤ n ∧ layoutUnchecked c m a = some ⟨m, a⟩ ∧
      ∀ k, k ≤ n → layoutUnchecked c k a = some ⟨k, a⟩ → k ≤ m := by
  have h1 := ha.sub_one_le
  refine ⟨_, VSU.newSquishedTo_eq ha, Nat.min_le_left _ _, layoutUnchecked_eq ha (by omega), ?_⟩
  intro k hk hl
  unfold layoutUnchecked at hl
  split at hl
  · rename_i h; have := h.2; omega
  · simp at hl

/-- The padded sizes the vector stores as capacities give valid layouts: a multiple of the alignment that is at
most `isize::MAX` is accepted by `Layout::from_size_align_unchecked`. -/
theorem C29_padded_layout_valid (c : Cfg) (n a : Nat) (ha : IsAlign c a) (hd : a ∣ n) (hn : n ≤ c.isizeMax) :
    layoutUnchecked c n a = some ⟨n, a⟩ := layoutUnchecked_eq ha (ha.room hd hn)

example : IsAlign (cfg64 true) 4096 ∧ 4096 ∣ 8192 ∧ 8192 ≤ (cfg64 true).isizeMax :=
  ⟨⟨12, by decide, by decide⟩, by decide, by decide⟩

/-! ## C30 -/

/-- `ValidAlign::new` accepts exactly the powers of two. -/
theorem C30_new_iff (n : Nat) : ValidAlign.new n = some n ↔ ∃ k, n = 2 ^ k := by
  rw [← isPowerOfTwo_iff]
  unfold ValidAlign.new
  split <;> simp_all

/-- … and rejects everything else. -/
theorem C30_new_none_iff (n : Nat) : ValidAlign.new n = none ↔ ¬ ∃ k, n = 2 ^ k := by
  rw [← isPowerOfTwo_iff]
  unfold ValidAlign.new
  split <;> simp_all

/-- An accepted `usize` is a discriminant of the internal enum, so the transmute in `new_unckecked` is sound. -/
theorem C30_representable (c : Cfg) (n : Nat) (hn : n ≤ c.usizeMax) (h : ValidAlign.new n = some n) :
    ValidAlign.newUnchecked c n = some n := by
  obtain ⟨k, rfl⟩ := (C30_new_iff n).mp h
  have hk : k < c.bits := by
    unfold Cfg.usizeMax at hn
    have := Nat.two_pow_pos c.bits
    exact (Nat.pow_lt_pow_iff_right (a := 2) (by decide)).mp (by omega)
  unfold ValidAlign.newUnchecked
  rw [if_pos (mem_variants.mpr ⟨k, hk, rfl⟩)]

/-- The enum has exactly the powers of two below `2 ^ BITS` as discriminants. -/
theorem C30_variants (c : Cfg) (n : Nat) : n ∈ ValidAlign.variants c ↔ ∃ k, k < c.bits ∧ n = 2 ^ k := mem_variants

/-- `log2` is exact. -/
theorem C30_log2 (c : Cfg) (k : Nat) (hk : k < c.bits) : ValidAlign.log2 c (2 ^ k) = k :=
  trailingZeros_two_pow c.bits k hk

example : ValidAlign.log2 (cfg64 true) 4096 = 12 := by decide

section
variable {T : UTy} {β : Type} [Inhabited β]

/-- The alignment check of the public methods, for dynamically aligned elements: a power of two is passed on, any other
number panics without touching the vector. -/
theorem C30_to_align (c : Cfg) (n : Nat) (v : UVec T β) :
    ((∃ k, n = 2 ^ k) → Api.toAlign (unalignedP c T) n v = .ok n v) ∧
    ((¬ ∃ k, n = 2 ^ k) → Api.toAlign (unalignedP c T) n v = .panic v) := by
  refine ⟨fun h => ?_, fun h => ?_⟩
  · have := (C30_new_iff n).mpr h
    simp [Api.toAlign, unalignedP, this]
  · have := (C30_new_none_iff n).mpr h
    simp [Api.toAlign, unalignedP, this]

private theorem tryReserve_cases (c : Cfg) (env : Env (Val T β)) (n : Nat) (v : UVec T β) :
    (∃ e, (unalignedP c T).tryReserve env n v = .ok (.error e) v) ∨
    (∃ cap, (unalignedP c T).tryReserve env n v = .ok (.ok ()) { v with elemsCap := cap }) := by
  simp only [unalignedP, UVec.tryReserve, Exec.get_bind]
  cases hr : stdReserve c.infoMax v.elemsCap v.len n env.infoGrow with
  | error e => exact .inl ⟨e, rfl⟩
  | ok cap => exact .inr ⟨cap, rfl⟩

/-- `shrink_capacity_bytes_align_to` with an alignment that is not a power of two panics and changes nothing. -/
theorem C30_shrink_rejects (c : Cfg) (env : Env (Val T β)) (n b a : Nat) (v : UVec T β) (h : ¬ ∃ k, a = 2 ^ k) :
    Api.shrinkCapacityBytesAlignTo (unalignedP c T) env n b a v = .panic v := by
  unfold Api.shrinkCapacityBytesAlignTo
  rw [Exec.bind_panic ((C30_to_align c a v).2 h)]

/-- The exact reservation methods with an alignment that is not a power of two never succeed: the call panics, or
reserving the element slots has already failed. Contents and element storage are untouched. -/
theorem C30_reserve_exact_rejects (c : Cfg) (env : Env (Val T β)) (n b a : Nat) (v : UVec T β)
    (h : ¬ ∃ k, a = 2 ^ k) :
    (∃ cap, Api.tryReserveExactCapacityBytesAlign (unalignedP c T) env n b a v = .panic { v with elemsCap := cap }) ∨
    (∃ e, Api.tryReserveExactCapacityBytesAlign (unalignedP c T) env n b a v = .ok (.error e) v) := by
  unfold Api.tryReserveExactCapacityBytesAlign
  rcases tryReserve_cases c env n v with ⟨e, he⟩ | ⟨cap, he⟩
  · right; exact ⟨e, Exec.bind_ok he⟩
  · left
    refine ⟨cap, ?_⟩
    rw [Exec.bind_ok he]
    exact Exec.bind_panic ((C30_to_align c a _).2 h)

/-- The amortised reservation methods with an alignment that is not a power of two never succeed. -/
theorem C30_reserve_rejects (c : Cfg) (env : Env (Val T β)) (n b a : Nat) (v : UVec T β)
    (h : ¬ ∃ k, a = 2 ^ k) :
    (∃ cap, Api.tryReserveCapacityBytesAlign c (unalignedP c T) env n b a v = .panic { v with elemsCap := cap }) ∨
    (∃ e, Api.tryReserveCapacityBytesAlign c (unalignedP c T) env n b a v = .ok (.error e) v) := by
  unfold Api.tryReserveCapacityBytesAlign Api.tryReserve
  rcases tryReserve_cases c env n v with ⟨e, he⟩ | ⟨cap, he⟩
  · right; exact ⟨e, Exec.bind_ok he⟩
  · left
    refine ⟨cap, ?_⟩
    rw [Exec.bind_ok he]
    dsimp only
    rw [Exec.get_bind]
    rcases Exec.debugAssert_cases c.debug
      ((unalignedP c T).capacity { v with elemsCap := cap } ≥ (unalignedP c T).len { v with elemsCap := cap } + n)
      { v with elemsCap := cap } with hd | ⟨hd, _⟩
    · rw [Exec.bind_ok hd]
      exact Exec.bind_panic ((C30_to_align c a _).2 h)
    · exact Exec.bind_panic hd

example : ¬ ∃ k, 24 = 2 ^ k := by
  intro h
  exact absurd ((isPowerOfTwo_iff 24).mpr h) (by decide)

end
end Verif
