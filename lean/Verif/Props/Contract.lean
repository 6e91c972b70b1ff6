import Verif.Model.Heap

/-!
# What counts as undefined behaviour

The theorems that say "no undefined behaviour" are only as good as the model of memory. Here is what the model forbids, stated with
addresses: a byte may be accessed only if it belongs to the live allocation, an allocation may be returned or replaced only with a
layout that fits it, and a reference must be aligned. These are the rules of the Rust reference and of `core::alloc::Allocator`; they
are not part of the code that is verified.
-/

namespace Verif
namespace Heap
variable {β : Type} [Inhabited β] {h h' : Heap β} {p off n : Nat}

/-- The bytes from `p + off` to `p + off + n` belong to the live allocation, which begins at `p`. -/
def Live (h : Heap β) (p off n : Nat) : Prop := ∃ b, h.block = some b ∧ b.addr = p ∧ off + n ≤ b.granted

omit [Inhabited β] in
theorem live_of (h1 : off + n ≤ h.span p) (h2 : 0 < n) : h.Live p off n := by
  unfold span at h1
  cases hb : h.block with
  | none => rw [hb] at h1; simp only at h1; omega
  | some b =>
    rw [hb] at h1
    by_cases e : p = b.addr
    · simp only [if_pos e] at h1; exact ⟨b, hb, e.symm, h1⟩
    · simp only [if_neg e] at h1; omega

/-- Reading at least one byte: it is defined only within the live allocation. -/
theorem memory_read {bs : List β} (hn : 0 < n) (hr : h.read p off n = some bs) : h.Live p off n ∧ bs = (List.range n).map (fun i => h.mem (off + i)) := by
  unfold read at hr
  by_cases e : h.addOk p off ∧ off + n ≤ h.span p
  · rw [if_pos e] at hr
    exact ⟨live_of e.2 hn, (Option.some.inj hr).symm⟩
  · rw [if_neg e] at hr; cases hr

/-- Writing at least one byte: it is defined only within the live allocation; other bytes stay as they are. -/
theorem memory_write {bs : List β} (hn : 0 < bs.length) (hw : h.write p off bs = some h') :
    h.Live p off bs.length ∧ h'.block = h.block ∧ (∀ i, i < bs.length → h'.mem (off + i) = bs.getD i default) ∧
      ∀ i, i < off ∨ off + bs.length ≤ i → h'.mem i = h.mem i := by
  unfold write at hw
  by_cases e : h.addOk p off ∧ off + bs.length ≤ h.span p
  · rw [if_pos e] at hw
    obtain rfl := Option.some.inj hw
    refine ⟨live_of e.2 hn, rfl, fun i hi => ?_, fun i hi => ?_⟩
    · show (if off ≤ off + i ∧ off + i < off + bs.length then _ else _) = _
      rw [if_pos (by omega), Nat.add_sub_cancel_left]
    · show (if off ≤ i ∧ i < off + bs.length then _ else _) = _
      rw [if_neg (by omega)]
  · rw [if_neg e] at hw; cases hw

/-- Moving at least one byte: source and destination are within the live allocation; they may overlap. -/
theorem memory_copy {src dst : Nat} (hn : 0 < n) (hw : h.copy p src dst n = some h') :
    h.Live p src n ∧ h.Live p dst n ∧ h'.block = h.block ∧ (∀ i, i < n → h'.mem (dst + i) = h.mem (src + i)) ∧
      ∀ i, i < dst ∨ dst + n ≤ i → h'.mem i = h.mem i := by
  unfold copy at hw
  by_cases e : h.addOk p src ∧ h.addOk p dst ∧ src + n ≤ h.span p ∧ dst + n ≤ h.span p
  · rw [if_pos e] at hw
    obtain rfl := Option.some.inj hw
    refine ⟨live_of e.2.2.1 hn, live_of e.2.2.2 hn, rfl, fun i hi => ?_, fun i hi => ?_⟩
    · show (if dst ≤ dst + i ∧ dst + i < dst + n then _ else _) = _
      rw [if_pos (by omega), Nat.add_sub_cancel_left]
    · show (if dst ≤ i ∧ i < dst + n then _ else _) = _
      rw [if_neg (by omega)]
  · rw [if_neg e] at hw; cases hw

/-- A pointer may be advanced only within the live allocation (one past the end is allowed), or by zero. -/
theorem memory_add (ho : h.addOk p off) : off = 0 ∨ ∃ b, h.block = some b ∧ b.addr = p ∧ off ≤ b.granted := by
  by_cases e : off = 0
  · exact .inl e
  · obtain ⟨b, h1, h2, h3⟩ := live_of (h := h) (p := p) (off := 0) (n := off) (by rw [Nat.zero_add]; exact ho) (by omega)
    exact .inr ⟨b, h1, h2, by omega⟩

/-- An allocation may be returned only with its address, its alignment and a size between what was asked for and what was granted. -/
theorem memory_deallocate {l : Layout} (hl : 0 < l.size) (hd : h.deallocate p l = some h') :
    ∃ b, h.block = some b ∧ b.addr = p ∧ b.align = l.align ∧ b.reqSize ≤ l.size ∧ l.size ≤ b.granted ∧ h'.block = none := by
  unfold deallocate at hd
  rw [if_neg (by omega)] at hd
  by_cases e : h.fits p l
  · rw [if_pos e] at hd
    obtain rfl := Option.some.inj hd
    unfold fits at e
    cases hb : h.block with
    | none => rw [hb] at e; exact e.elim
    | some b => rw [hb] at e; exact ⟨b, rfl, e.1.symm, e.2.1.symm, e.2.2.1, e.2.2.2, rfl⟩
  · rw [if_neg e] at hd; cases hd

/-- The result of replacing an allocation, in which the first `n` bytes are kept: a new block of the size asked for, at least, with
the alignment asked for, at an address of the allocator's choice; nothing is leaked. -/
structure Replaced {X : Type} (env : Env X) (h : Heap β) (old new : Layout) (p n : Nat) (h' : Heap β) (q size : Nat) : Prop where
  fitted : ∃ b, h.block = some b ∧ b.addr = p ∧ b.align = old.align ∧ b.reqSize ≤ old.size ∧ old.size ≤ b.granted
  granted : ∃ extra, env.alloc new = some (q, extra) ∧ size = new.size + extra
  block : h'.block = some ⟨q, new.size, size, new.align⟩
  kept : ∀ i, i < n → h'.mem i = h.mem i
  leaks : h'.leaks = h.leaks

/-- Growing: only with a layout that fits, and not to a smaller size. -/
theorem memory_grow {X : Type} {env : Env X} {old new : Layout} {q size : Nat} (hg : h.grow env p old new = some (some (h', q, size))) :
    old.size ≤ new.size ∧ Replaced env h old new p old.size h' q size := by
  unfold grow at hg
  by_cases e : h.fits p old ∧ old.size ≤ new.size
  · rw [if_pos e] at hg
    cases ha : env.alloc new with
    | none => rw [ha] at hg; cases hg
    | some r =>
      rw [ha] at hg
      simp only [Option.some.injEq, Prod.mk.injEq] at hg
      obtain ⟨rfl, rfl, rfl⟩ := hg
      refine ⟨e.2, ?_, ⟨r.2, ha, rfl⟩, rfl, fun i hi => ?_, rfl⟩
      · have f := e.1
        unfold fits at f
        cases hb : h.block with
        | none => rw [hb] at f; exact f.elim
        | some b => rw [hb] at f; exact ⟨b, rfl, f.1.symm, f.2.1.symm, f.2.2.1, f.2.2.2⟩
      · exact if_pos hi
  · rw [if_neg e] at hg; cases hg

/-- Shrinking: only with a layout that fits, and not to a larger size. -/
theorem memory_shrink {X : Type} {env : Env X} {old new : Layout} {q size : Nat} (hg : h.shrink env p old new = some (some (h', q, size))) :
    new.size ≤ old.size ∧ Replaced env h old new p new.size h' q size := by
  unfold shrink at hg
  by_cases e : h.fits p old ∧ new.size ≤ old.size
  · rw [if_pos e] at hg
    cases ha : env.alloc new with
    | none => rw [ha] at hg; cases hg
    | some r =>
      rw [ha] at hg
      simp only [Option.some.injEq, Prod.mk.injEq] at hg
      obtain ⟨rfl, rfl, rfl⟩ := hg
      refine ⟨e.2, ?_, ⟨r.2, ha, rfl⟩, rfl, fun i hi => ?_, rfl⟩
      · have f := e.1
        unfold fits at f
        cases hb : h.block with
        | none => rw [hb] at f; exact f.elim
        | some b => rw [hb] at f; exact ⟨b, rfl, f.1.symm, f.2.1.symm, f.2.2.1, f.2.2.2⟩
      · exact if_pos hi
  · rw [if_neg e] at hg; cases hg

/-- A new allocation: the one before it, if any, is leaked. The new memory is not initialised (`default` stands for that). -/
theorem memory_allocate {X : Type} {env : Env X} {l : Layout} {q size : Nat} (ha : h.allocate env l = some (h', q, size)) :
    (∃ extra, env.alloc l = some (q, extra) ∧ size = l.size + extra) ∧ h'.block = some ⟨q, l.size, size, l.align⟩ ∧
      h'.leaks = h.leaks + (if h.block = none then 0 else 1) ∧ ∀ i, h'.mem i = default := by
  unfold allocate at ha
  cases hr : env.alloc l with
  | none => rw [hr] at ha; cases ha
  | some r =>
    rw [hr] at ha
    simp only [Option.some.injEq, Prod.mk.injEq] at ha
    obtain ⟨rfl, rfl, rfl⟩ := ha
    refine ⟨⟨r.2, rfl, rfl⟩, rfl, ?_, fun _ => rfl⟩
    show h.leaks + (if h.block.isSome = true then 1 else 0) = _
    cases h.block <;> rfl

/-- A reference to a value that is not zero-sized: it is aligned, and the value lies within the live allocation. -/
theorem memory_ref {T : UTy} {md : T.Meta} {r : Ref T} (hn : 0 < T.sizeOf md) (hr : mkRef h p off md = some r) :
    h.Live p off (T.sizeOf md) ∧ T.alignOf md ∣ p + off ∧ r.base = p ∧ r.off = off ∧ r.md = md := by
  unfold mkRef at hr
  by_cases e : h.addOk p off ∧ off + T.sizeOf md ≤ h.span p ∧ (p + off) % T.alignOf md = 0
  · rw [if_pos e] at hr
    obtain rfl := Option.some.inj hr
    exact ⟨live_of e.2.1 hn, Nat.dvd_of_mod_eq_zero e.2.2, rfl, rfl, rfl⟩
  · rw [if_neg e] at hr; cases hr

/-- A block of 4 bytes at 16: its last byte can be read, the one behind it cannot, and no byte through another pointer. -/
example : (⟨fun i => i, some ⟨16, 4, 4, 4⟩, 0⟩ : Heap Nat).read 16 3 1 = some [3] ∧
    (⟨fun i => i, some ⟨16, 4, 4, 4⟩, 0⟩ : Heap Nat).read 16 3 2 = none ∧ (⟨fun i => i, some ⟨16, 4, 4, 4⟩, 0⟩ : Heap Nat).read 20 0 1 = none ∧
    ((⟨fun i => i, some ⟨16, 4, 4, 4⟩, 0⟩ : Heap Nat).deallocate 16 ⟨4, 4⟩).isSome = true ∧
    ((⟨fun i => i, some ⟨16, 4, 4, 4⟩, 0⟩ : Heap Nat).deallocate 16 ⟨3, 4⟩).isSome = false := by decide

end Heap
end Verif
