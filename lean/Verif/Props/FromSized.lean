import Verif.Proofs.FromSized
import Verif.Spec.Samples

/-!
# C22: unsizing a vector
-/

namespace Verif
open Sample

section
variable {T : UTy} {A : ATy} {β : Type} [Inhabited β] {c : Cfg} {r : RawVec β} {xs : List (List β)}

/-- C22 for dynamically aligned elements. Partial: only vectors without elements, and vectors of zero-sized elements. For all
others the conversion goes wrong (`C22_unsize_unaligned_shifted`, `C22_counterexample`). -/
theorem C22_unsize_unaligned_partial (h : r.Holds c xs) {md : T.Meta} (hs : T.sizeOf md = r.elemSize)
    (ha : T.alignOf md = r.elemAlign) (hz : xs = [] ∨ r.elemSize = 0) :
    ∃ v, UVec.fromSized c r md = some v ∧ v.Holds c (xs.map (unsized md)) ∧ v.observe c = some (xs.map (unsized md)) ∧
      v.drops = [] := by
  refine ⟨_, UVec.fromSized_eq h md, ?_⟩
  suffices hh : UVec.Holds c _ (xs.map (unsized md)) from ⟨hh, hh.observe_eq, rfl⟩
  have h1 := h.capMax
  have h2 := VS.max_le_isizeMax c r.elemAlign
  refine ⟨h.wf hs ha, h.al, ?_, ?_, ?_, ?_, ?_, ?_, ?_, h.block, h.leaks⟩
  · intro x hx
    obtain ⟨bs, -, rfl⟩ := List.mem_map.mp hx
    show T.alignOf md ∣ _
    rw [ha]; exact Nat.dvd_refl _
  · rcases hz with rfl | hz
    · rfl
    · rw [hz] at hs ⊢
      exact (infosFrom_trivial (enc := id) (padTo_zero _) hs xs).symm
  · simp
  · rcases hz with rfl | hz
    · exact Nat.zero_le _
    · rw [hz] at hs
      rw [totalWidth_trivial (padTo_zero _) hs]
      exact Nat.zero_le _
  · exact fun _ => Nat.dvd_mul_left_of_dvd h.sizeDvd _
  · exact h.al.room (Nat.dvd_mul_left_of_dvd h.sizeDvd _) (show r.cap * r.elemSize ≤ _ by omega)
  · rcases hz with rfl | hz
    · trivial
    · exact memAt_trivial (fun bs hb => by rw [h.bytes bs hb, hz]) _

/-- C22 for statically aligned elements, partial in the same way. -/
theorem C22_unsize_aligned_partial (hA : A.Lawful c) (hX : A.Exact) (h : r.Holds c xs) {md : A.ty.Meta} (hs : A.ty.sizeOf md = r.elemSize)
    (ha : A.ALIGN = r.elemAlign) (hz : xs = [] ∨ r.elemSize = 0) :
    ∃ v : AVec A β, AVec.fromSized c r md = some v ∧ v.Holds c (xs.map (unsized md)) ∧
      v.observe c = some (xs.map (unsized md)) ∧ v.drops = [] := by
  refine ⟨_, AVec.fromSized_eq h ha.symm md, ?_⟩
  suffices hh : AVec.Holds c _ (xs.map (unsized md)) from ⟨hh, hh.observe_eq hA.fits, rfl⟩
  have h1 := h.capMax
  refine ⟨h.wf hs (by rw [hX, ha]), fun x _ => hA.keeps x.md, ?_, ?_, ?_, ?_, ?_, ?_, h.leaks⟩
  · rcases hz with rfl | hz
    · rfl
    · rw [hz] at hs ⊢
      exact (infosFrom_trivial (enc := A.enc) (w := id) rfl hs xs).symm
  · simp
  · rcases hz with rfl | hz
    · exact Nat.zero_le _
    · rw [hz] at hs
      rw [totalWidth_trivial (w := id) rfl hs]
      exact Nat.zero_le _
  · rw [ha]; exact h1
  · rcases hz with rfl | hz
    · trivial
    · exact memAt_trivial (fun bs hb => by rw [h.bytes bs hb, hz]) _
  · rw [ha]; exact h.block

/-- What the conversion to a dynamically aligned type does to every non-empty vector: the first element appears twice and
the last one is lost. -/
theorem C22_unsize_unaligned_shifted {x : List β} (h : r.Holds c (x :: xs)) {md : T.Meta} (hs : T.sizeOf md = r.elemSize)
    (ha : T.alignOf md = r.elemAlign) :
    ∃ v, UVec.fromSized c r md = some v ∧ v.observe c = some ((x :: (x :: xs).dropLast).map (unsized md)) := by
  refine ⟨_, UVec.fromSized_eq h md, ?_⟩
  have hcm := h.capMax
  have hmx := VS.max_le_isizeMax c r.elemAlign
  have hlen : ((x :: (x :: xs).dropLast).map (unsized (T := T) md)).length = (x :: xs).length := by simp
  unfold UVec.observe UVec.len
  simp only [List.length_map, List.length_range]
  refine mapM_range_of hlen (fun i hi => ?_)
  simp only [List.getElem_map]
  cases i with
  | zero =>
    obtain ⟨ref, h1, h2⟩ := h.read_at hs ha hi
    unfold UVec.getUnchecked UVec.startOffset
    simp only [List.getElem?_map, List.getElem?_range hi, Option.map_some, bind, Option.bind]
    rw [VSU.uncheckedSub_eq (Nat.zero_le _) (by simp)]
    simp only
    rw [Nat.zero_mul] at h1
    rw [h1, Option.map_some, h2]
    rfl
  | succ j =>
    have hj : j < (x :: xs).length := by omega
    obtain ⟨ref, h1, h2⟩ := h.read_at hs ha hj
    unfold UVec.getUnchecked UVec.startOffset
    simp only [List.getElem?_map, List.getElem?_range hi, List.getElem?_range hj, Option.map_some, bind, Option.bind]
    have hp : padTo r.elemAlign (j * r.elemSize) = j * r.elemSize :=
      padTo_of_dvd h.al.pos (Nat.dvd_mul_left_of_dvd h.sizeDvd _)
    have hle := h.mul_le (Nat.le_of_lt hj)
    have hle' := h.mul_le (Nat.le_of_lt hi)
    rw [VSU.uncheckedPadTo_eq h.al (by omega) (by rw [hp]; omega), hp]
    simp only
    rw [VSU.uncheckedSub_eq (Nat.mul_le_mul_right _ (by omega)) (by omega)]
    simp only
    rw [h1, Option.map_some, h2]
    simp

/-- What the conversion to a statically aligned type (a slice) does to every non-empty vector: an element of size zero
appears at the front and the last one is lost. -/
theorem C22_unsize_aligned_shifted (hA : A.Lawful c) (hX : A.Exact) {x : List β} (h : r.Holds c (x :: xs)) {md : A.ty.Meta}
    (hs : A.ty.sizeOf md = r.elemSize) (ha : A.ALIGN = r.elemAlign) (h0 : A.ty.sizeOf (A.dec (A.enc md) 0) = 0) :
    ∃ v : AVec A β, AVec.fromSized c r md = some v ∧
      v.observe c = some (⟨A.dec (A.enc md) 0, []⟩ :: (x :: xs).dropLast.map (unsized md)) := by
  refine ⟨_, AVec.fromSized_eq h ha.symm md, ?_⟩
  have hcm := h.capMax
  have hlen : ((⟨A.dec (A.enc md) 0, []⟩ : Val A.ty β) :: (x :: xs).dropLast.map (unsized md)).length = (x :: xs).length := by simp
  unfold AVec.observe AVec.len
  simp only [List.length_map, List.length_range]
  refine mapM_range_of hlen (fun i hi => ?_)
  cases i with
  | zero =>
    unfold AVec.getUnchecked AVec.startOffset
    simp only [List.getElem?_map, List.getElem?_range hi, Option.map_some, bind, Option.bind, Nat.zero_mul]
    rw [VS.uncheckedSub_eq (Nat.le_refl 0) (Nat.zero_le _)]
    have hp : (r.ptr + 0) % A.ty.alignOf (A.dec (A.enc md) 0) = 0 := by
      rw [hX, ha]; exact Nat.mod_eq_zero_of_dvd h.block.2.1
    simp only [Nat.sub_self]
    unfold mkRef Heap.addOk
    rw [if_pos ⟨Nat.zero_le _, by rw [h0]; exact Nat.zero_le _, hp⟩]
    show some (Val.mk _ (Heap.bytesAt _ 0 _)) = _
    rw [h0]
    rfl
  | succ j =>
    have hj : j < (x :: xs).length := by omega
    obtain ⟨ref, h1, h2⟩ := h.read_at hs (by rw [hX, ha]) hj
    unfold AVec.getUnchecked AVec.startOffset
    simp only [List.getElem?_map, List.getElem?_range hi, List.getElem?_range hj, Option.map_some, bind, Option.bind]
    have hle' := h.mul_le (Nat.le_of_lt hi)
    rw [VS.uncheckedSub_eq (Nat.mul_le_mul_right _ (by omega)) (by rw [ha]; omega)]
    have hsub : (j + 1) * r.elemSize - j * r.elemSize = r.elemSize := by
      rw [Nat.add_mul, Nat.one_mul]; omega
    have hrt : A.dec (A.enc md) (A.ty.sizeOf md) = md := hA.keeps md
    rw [hs] at hrt
    simp only
    rw [hsub, hrt, h1, Option.map_some, h2]
    simp only [List.getElem_cons_succ, List.getElem_map, List.getElem_dropLast]

end

/-! ## Examples and counterexamples -/

/-- A `Vec<[u8; 2]>` with three elements. -/
def rawVec : RawVec Nat where
  elemSize := 2
  elemAlign := 1
  ptr := 4096
  cap := 4
  len := 3
  heap := ⟨fun i => [1, 2, 3, 4, 5, 6].getD i 0, some ⟨4096, 8, 8, 1⟩, 0⟩

/-- Its elements. -/
def rawList : List (List Nat) := [[1, 2], [3, 4], [5, 6]]

theorem rawVec_holds : rawVec.Holds c64 rawList := by
  refine ⟨rfl, by decide, ⟨0, by decide, rfl⟩, by decide, by decide, by decide, by decide, ?_, by
    refine ⟨?_, ?_, ?_, ?_, ?_, ?_, ?_⟩ <;> decide, rfl⟩
  decide

/-- A `Vec<[u8; 0]>` with two elements: the covered case. -/
example : (⟨0, 1, 1, c64.usizeMax, 2, ⟨fun _ => 0, none, 0⟩⟩ : RawVec Nat).Holds c64 [[], []] := by
  refine ⟨rfl, by decide, ⟨0, by decide, rfl⟩, by decide, by decide, by decide, by decide, by decide, by
    refine ⟨?_, ?_, ?_⟩ <;> decide, rfl⟩

/-- C22 fails for dynamically aligned elements: unsizing `[[1, 2], [3, 4], [5, 6]]` gives `[[1, 2], [1, 2], [3, 4]]`; … -/
theorem C22_counterexample_unaligned :
    (UVec.fromSized (T := Dyn) c64 rawVec (2, 1)).bind (UVec.observe c64) =
      some [dyn 1 [1, 2], dyn 1 [1, 2], dyn 1 [3, 4]] := by decide

/-- … and for slices: it gives `[[], [1, 2], [3, 4]]`. -/
theorem C22_counterexample_aligned :
    (AVec.fromSized (A := Bytes) c64 rawVec (2 : Nat)).bind (AVec.observe c64) =
      some [bytes [], bytes [1, 2], bytes [3, 4]] := by decide

/-- The values dropped by a computation on a vector of `Dyn`. -/
def dropped {α : Type} : Res (UVec Dyn Nat) α → Option (List (Val Dyn Nat))
  | .ok _ v => some v.drops
  | _ => none

/-- Dropping the converted vector drops `[1, 2]` twice and never drops `[5, 6]`. -/
theorem C22_counterexample_drop :
    (UVec.fromSized (T := Dyn) c64 rawVec (2, 1)).bind (fun v => dropped (UVec.drop c64 env v)) =
      some [dyn 1 [1, 2], dyn 1 [1, 2], dyn 1 [3, 4]] := by decide

end Verif
