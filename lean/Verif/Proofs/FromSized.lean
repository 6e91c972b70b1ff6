import Verif.Spec.FromSized
import Verif.Proofs.Observe

/-!
# Lemmas about `from_sized`
-/

namespace Verif
variable {T : UTy} {A : ATy} {β : Type} [Inhabited β] {c : Cfg} {r : RawVec β} {xs : List (List β)}

set_option linter.unusedSectionVars false

theorem mapM_range_map {α : Type} {f : Nat → Option α} {g : Nat → α} {n : Nat} (h : ∀ i, i < n → f i = some (g i)) :
    (List.range n).mapM f = some ((List.range n).map g) := by
  have := mapM_range_eq (f := f) (xs := (List.range n).map g) (fun i hi => by
    rw [h i (by simpa using hi)]; simp)
  simpa using this

theorem mapM_range_of {α : Type} {f : Nat → Option α} {ys : List α} {n : Nat} (hn : ys.length = n)
    (h : ∀ i (hi : i < n), f i = some (ys[i]'(hn ▸ hi))) : (List.range n).mapM f = some ys := by
  subst hn; exact mapM_range_eq h

theorem RawVec.Holds.mul_le (h : r.Holds c xs) {i : Nat} (hi : i ≤ xs.length) : i * r.elemSize ≤ r.cap * r.elemSize :=
  Nat.mul_le_mul_right _ (Nat.le_trans hi h.room)

theorem uncheckedMul_eq {x y : Nat} (h : x * y ≤ c.usizeMax) : uncheckedMul c x y = some (x * y) := by
  unfold uncheckedMul; rw [if_pos h]

theorem UVec.fromSized_eq (h : r.Holds c xs) (md : T.Meta) :
    UVec.fromSized c r md = some ⟨r.ptr, r.cap * r.elemSize, (List.range xs.length).map (fun i => ⟨md, i * r.elemSize⟩), xs.length,
      r.elemAlign, r.heap, []⟩ := by
  have h1 := h.capMax
  have h2 := VS.max_le_isizeMax c r.elemAlign
  have h3 := c.isizeMax_le_usizeMax
  unfold fromSized
  rw [uncheckedMul_eq (by omega)]
  simp only [bind, Option.bind]
  rw [VSU.newUnchecked_eq (by omega), h.len, mapM_range_map (g := fun i => ⟨md, i * r.elemSize⟩)]
  · rfl
  · intro i hi
    have := h.mul_le (Nat.le_of_lt hi)
    rw [uncheckedMul_eq (by omega)]
    simp only
    rw [VSU.newUnchecked_eq (by omega)]
    rfl

theorem AVec.fromSized_eq (h : r.Holds c xs) (hal : r.elemAlign = A.ALIGN) (md : A.ty.Meta) :
    AVec.fromSized c r md = some (⟨r.ptr, r.cap * r.elemSize, (List.range xs.length).map (fun i => ⟨A.enc md, i * r.elemSize⟩),
      xs.length, r.heap, []⟩ : AVec A β) := by
  have h1 := h.capMax
  have h2 := VS.max_le_isizeMax c r.elemAlign
  have h3 := c.isizeMax_le_usizeMax
  unfold fromSized
  rw [uncheckedMul_eq (by omega)]
  simp only [bind, Option.bind]
  rw [VS.newUnchecked_eq (by rw [← hal]; omega), h.len, mapM_range_map (g := fun i => ⟨A.enc md, i * r.elemSize⟩)]
  · rfl
  · intro i hi
    have := h.mul_le (Nat.le_of_lt hi)
    rw [uncheckedMul_eq (by omega)]
    simp only
    rw [VS.newUnchecked_eq (by rw [← hal]; omega)]
    rfl

theorem RawVec.Holds.span_ge (h : r.Holds c xs) : r.cap * r.elemSize ≤ r.heap.span r.ptr := by
  have hb := h.block
  unfold BlockOk at hb
  unfold Heap.span
  split
  · next b hbl => rw [hbl] at hb; rw [if_pos hb.2.2.2.1.symm]; exact hb.2.2.2.2.2.2
  · next hbl => rw [hbl] at hb; exact Nat.le_of_eq hb.2.2

/-- Reading an element of the buffer through a wide pointer with metadata of the right size. -/
theorem RawVec.Holds.read_at (h : r.Holds c xs) {md : T.Meta} (hs : T.sizeOf md = r.elemSize) (ha : T.alignOf md = r.elemAlign) {i : Nat}
    (hi : i < xs.length) :
    ∃ ref : Ref T, mkRef r.heap r.ptr (i * r.elemSize) md = some ref ∧ ref.read r.heap = unsized md xs[i] := by
  have h1 := h.span_ge
  have h2 : i * r.elemSize + r.elemSize ≤ r.cap * r.elemSize := by
    have := h.mul_le (i := i + 1) hi
    rwa [Nat.add_mul, Nat.one_mul] at this
  have h3 : (r.ptr + i * r.elemSize) % T.alignOf md = 0 := by
    rw [ha]
    exact Nat.mod_eq_zero_of_dvd (Nat.dvd_add h.block.2.1 (Nat.dvd_mul_left_of_dvd h.sizeDvd i))
  refine ⟨⟨r.ptr, i * r.elemSize, md⟩, ?_, ?_⟩
  · unfold mkRef Heap.addOk
    rw [if_pos ⟨by omega, by omega, h3⟩]
  · unfold Ref.read unsized
    simp only
    rw [hs, bytesAt_eq (h.mem i hi) (h.bytes _ (List.getElem_mem hi))]

theorem RawVec.Holds.wf (h : r.Holds c xs) {md : T.Meta} (hs : T.sizeOf md = r.elemSize) (ha : T.alignOf md = r.elemAlign) :
    ∀ x ∈ xs.map (unsized md), x.WF c := by
  intro x hx
  obtain ⟨bs, hbs, rfl⟩ := List.mem_map.mp hx
  refine ⟨?_, ?_, ?_, ?_⟩
  · show bs.length = T.sizeOf md; rw [hs]; exact h.bytes _ hbs
  · show ∃ k, _ ∧ T.alignOf md = _; rw [ha]; exact h.al
  · show T.alignOf md ∣ T.sizeOf md; rw [ha, hs]; exact h.sizeDvd
  · show T.sizeOf md + (T.alignOf md - 1) ≤ _; rw [ha, hs]; exact h.sizeMax

/-- When there is nothing to lay out, all end offsets are zero. -/
theorem infosFrom_trivial {R : Type} {enc : T.Meta → R} {w : Nat → Nat} (hw : w 0 = 0) {md : T.Meta} (hs : T.sizeOf md = 0)
    (xs : List (List β)) : infosFrom enc w 0 (xs.map (unsized md)) = (List.range xs.length).map (fun i => ⟨enc md, i * 0⟩) := by
  induction xs with
  | nil => rfl
  | cons x xs ih =>
    rw [List.length_cons, List.range_succ_eq_map, List.map_cons, List.map_cons, List.map_map]
    show (⟨enc md, 0 + T.sizeOf md⟩ : Info R) :: infosFrom enc w (0 + w (T.sizeOf md)) (xs.map (unsized md)) = _
    rw [hs, hw, ih]
    rfl

theorem memAt_trivial {mem : Nat → β} {w : Nat → Nat} {md : T.Meta} {xs : List (List β)} (hl : ∀ bs ∈ xs, bs.length = 0) (off : Nat) :
    MemAt mem w off (xs.map (unsized md)) := by
  induction xs generalizing off with
  | nil => trivial
  | cons x xs ih =>
    refine ⟨?_, ih (fun bs hb => hl bs (by simp [hb])) _⟩
    intro i hi
    have := hl x (by simp)
    simp [unsized] at hi; omega

theorem totalWidth_trivial {w : Nat → Nat} (hw : w 0 = 0) {md : T.Meta} (hs : T.sizeOf md = 0) (xs : List (List β)) :
    totalWidth w (xs.map (unsized md)) = 0 := by
  induction xs with
  | nil => rfl
  | cons x xs ih =>
    show w (T.sizeOf md) + _ = 0
    rw [hs, hw, ih]

end Verif
