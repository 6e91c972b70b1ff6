import Verif.Props.History

/-!
# C54: what `len`, `is_empty`, `byte_len`, `capacity`, `byte_capacity` and `align` report
-/

namespace Verif
open Sample
variable {T : UTy} {A : ATy} {β : Type} [Inhabited β] {c : Cfg} {sz al : Nat}

/-- The observers of a vector with the contents `xs`. Every element takes up its size, rounded up to a multiple of `gap`. -/
structure Reports {V : Type} (P : Provider V T β) (v : V) (xs : List (Val T β)) (gap : Nat) : Prop where
  len : P.len v = xs.length
  empty : Api.isEmpty P v = true ↔ xs = []
  cap : xs.length ≤ P.capacity v
  bytes : ∃ (ws : List Nat) (n : Nat), ws.length = xs.length ∧
    (∀ i (h : i < xs.length) (h' : i < ws.length), LeastMultiple gap xs[i].size ws[i]) ∧
    P.byteLen v = some ws.sum ∧ P.byteCapacity v = some n ∧ ws.sum ≤ n
  align : ∀ x ∈ xs, x.align ∣ P.align v

omit [Inhabited β] in
theorem totalWidth_sum (w : Nat → Nat) : ∀ xs : List (Val T β), totalWidth w xs = (xs.map fun x => w x.size).sum
  | [] => rfl
  | x :: xs => by show w x.size + totalWidth w xs = _; rw [totalWidth_sum w xs]; rfl

omit [Inhabited β] in
theorem isEmpty_iff {V : Type} {P : Provider V T β} {v : V} {xs : List (Val T β)} (h : P.len v = xs.length) :
    Api.isEmpty P v = true ↔ xs = [] := by
  unfold Api.isEmpty
  rw [h, beq_iff_eq]
  exact List.length_eq_zero_iff

theorem leastMultiple_one (n : Nat) : LeastMultiple 1 n n := ⟨Nat.one_dvd _, Nat.le_refl _, fun _ _ h => h⟩

omit [Inhabited β] in
theorem UVec.Stores.length_eq {v : UVec T β} {xs : List (Val T β)} (h : v.Stores c xs) : v.len = xs.length := by
  show v.elems.length = _
  rw [h.infos, infosFrom_length]

/-- C54 for dynamically aligned elements: each element takes up its size rounded up to the alignment of the vector. (`Stores` holds of
every vector with `Holds`, and also after shrinking to an odd capacity.) -/
theorem C54_unaligned {v : UVec T β} {xs : List (Val T β)} (h : v.Stores c xs) : Reports (unalignedP c T) v xs v.align where
  len := h.length_eq
  empty := isEmpty_iff h.length_eq
  cap := h.recs
  bytes := by
    refine ⟨xs.map fun x => padTo v.align x.size, _, by simp, ?_, ?_, rfl, ?_⟩
    · intro i _ _
      rw [List.getElem_map]
      exact padTo_leastMultiple h.al.pos _
    · rw [← totalWidth_sum]; exact UVec.alignedByteLen_eq h
    · rw [← totalWidth_sum]; exact h.cap
  align := h.elemAl

/-- C54 for statically aligned elements: each element takes up its size. -/
theorem C54_aligned (hA : A.Fits c) {v : AVec A β} {xs : List (Val A.ty β)} (h : v.Holds c xs) : Reports (alignedP c A) v xs 1 where
  len := h.len_eq
  empty := isEmpty_iff h.len_eq
  cap := h.recs
  bytes := by
    refine ⟨xs.map fun x => x.size, _, by simp, ?_, ?_, rfl, ?_⟩
    · intro i _ _
      rw [List.getElem_map]
      exact leastMultiple_one _
    · exact congrArg some ((AVec.byteLen_eq h).trans (totalWidth_sum id xs))
    · rw [← show totalWidth id xs = (xs.map fun x => x.size).sum from totalWidth_sum id xs]; exact h.cap
  align := by intro x _; show A.ty.alignOf x.md ∣ A.ALIGN; exact hA.dvd _

omit [Inhabited β] in
theorem sum_const {sz al : Nat} : ∀ xs : List (Val (sizedTy sz al) β), (xs.map fun x => x.size).sum = xs.length * sz
  | [] => by simp
  | x :: xs => by rw [List.map_cons, List.sum_cons, sum_const xs, List.length_cons, Nat.succ_mul, Nat.add_comm]; rfl

/-- C54 for sized elements. -/
theorem C54_sized {v : SVec sz al β} {xs : List (Val (sizedTy sz al) β)} (h : v.Holds c xs) : Reports (sizedP c sz al) v xs 1 where
  len := h.len
  empty := isEmpty_iff h.len
  cap := h.cap
  bytes := by
    refine ⟨xs.map fun x => x.size, _, by simp, ?_, ?_, SVec.byteCapacity_eq h, ?_⟩
    · intro i _ _
      rw [List.getElem_map]
      exact leastMultiple_one _
    · rw [sum_const]; exact SVec.byteLen_eq h
    · rw [sum_const]; exact Nat.mul_le_mul_right _ h.cap
  align := fun _ _ => Nat.dvd_refl _

/-- C54, `new` and `Default::default` (src/lib.rs:265–272, 1176–1184): an empty vector without memory. -/
theorem C54_new_unaligned (hu : IsAlign c c.usizeAlign) :
    Reports (unalignedP c T) (Api.new (unalignedP c T) : UVec T β) [] c.usizeAlign ∧
    (unalignedP c T).capacity (Api.new (unalignedP c T) : UVec T β) = 0 ∧
    (unalignedP c T).byteCapacity (Api.new (unalignedP c T) : UVec T β) = some 0 ∧ (Api.new (unalignedP c T) : UVec T β).heap.block = none :=
  ⟨C54_unaligned (UVec.newAlignPtr_holds hu).stores, rfl, rfl, rfl⟩

theorem C54_new_aligned (hA : A.Fits c) :
    Reports (alignedP c A) (Api.new (alignedP c A) : AVec A β) [] 1 ∧
    (alignedP c A).capacity (Api.new (alignedP c A) : AVec A β) = 0 ∧
    (alignedP c A).byteCapacity (Api.new (alignedP c A) : AVec A β) = some 0 ∧ (Api.new (alignedP c A) : AVec A β).heap.block = none :=
  ⟨C54_aligned hA (AVec.new_holds hA), rfl, rfl, rfl⟩

theorem C54_new_sized : Reports (sizedP c sz al) (Api.new (sizedP c sz al) : SVec sz al β) [] 1 ∧
    (Api.new (sizedP c sz al) : SVec sz al β).slots = 0 ∧ (Api.new (sizedP c sz al) : SVec sz al β).allocs = 0 ∧
    (0 < sz → (sizedP c sz al).capacity (Api.new (sizedP c sz al) : SVec sz al β) = 0 ∧
      (sizedP c sz al).byteCapacity (Api.new (sizedP c sz al) : SVec sz al β) = some 0) := by
  have e : 0 < sz → (sizedP c sz al).capacity (Api.new (sizedP c sz al) : SVec sz al β) = 0 :=
    fun h => if_neg (fun h' => absurd h' (by omega))
  refine ⟨C54_sized SVec.new_holds, rfl, rfl, fun h => ⟨e h, ?_⟩⟩
  rw [show (sizedP c sz al).byteCapacity (Api.new (sizedP c sz al) : SVec sz al β) = _ from SVec.byteCapacity_eq (c := c) SVec.new_holds]
  show some ((sizedP c sz al).capacity (Api.new (sizedP c sz al) : SVec sz al β) * sz) = _
  rw [e h, Nat.zero_mul]

/-- A vector of trait objects of sizes 3 and 8 with alignment 8. -/
example : vecU.Stores c64 listU ∧ (unalignedP c64 Dyn).byteLen vecU = some 16 ∧ Api.isEmpty (unalignedP c64 Dyn) vecU = false ∧
    Api.isEmpty (unalignedP c64 Dyn) (UVec.newAlignPtr c64 : UVec Dyn Nat) = true := ⟨(vecU_holds _ (.inl rfl)).stores, by decide, rfl, rfl⟩
example : vecA.Holds c64 listA ∧ (alignedP c64 Bytes).byteLen vecA = some 6 := ⟨vecA_holds _ (.inl rfl), rfl⟩

end Verif
