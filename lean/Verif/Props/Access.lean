import Verif.Proofs.Observe
import Verif.Proofs.Access
import Verif.Spec.Samples

/-!
# C06, C07, C28: access to elements
-/

namespace Verif
open Sample

section
variable {T : UTy} {A : ATy} {β : Type} [Inhabited β] {c : Cfg}

/-! ## C06 -/

/-- C06, statically aligned elements: a valid index gives a reference with the metadata and the bytes of the element; it
is in bounds of the vector's memory and aligned. -/
theorem C06_get_aligned (hA : A.Fits c) {v : AVec A β} {xs : List (Val A.ty β)} (h : v.Holds c xs) {i : Nat}
    (hi : i < xs.length) :
    ∃ r, Api.get (alignedP c A) v i = some (some r) ∧ Api.index (alignedP c A) i v = .ok r v ∧
      r.read v.heap = xs[i] ∧ r.base = v.ptr ∧ r.off + xs[i].size ≤ v.byteCap ∧ (v.ptr + r.off) % xs[i].align = 0 := by
  have h1 : Api.get (alignedP c A) v i = some (some ⟨v.ptr, totalWidth id (xs.take i), xs[i].md⟩) := by
    unfold Api.get
    rw [if_pos (by show i < v.len; rw [h.len_eq]; exact hi)]
    show (v.getUnchecked c i).map some = _
    rw [AVec.getUnchecked_eq hA h i hi]; rfl
  refine ⟨_, h1, ?_, AVec.read_elem h i hi, rfl, ?_, ?_⟩
  · unfold Api.index
    rw [Exec.get_bind, Exec.orUb_bind h1]; rfl
  · have := h.elem_le i hi; have := h.cap; show totalWidth id (xs.take i) + _ ≤ _; omega
  · refine Nat.mod_eq_zero_of_dvd ?_
    show A.ty.alignOf _ ∣ _
    exact Nat.dvd_add (Nat.dvd_trans (hA.dvd _) h.block.2.1)
      (AVec.dvd_width hA (fun x hx => h.wf x (List.mem_of_mem_take hx)) _)

/-- C06, dynamically aligned elements. -/
theorem C06_get_unaligned {G : Prop} {v : UVec T β} {xs : List (Val T β)} (h : v.Represents G c xs) {i : Nat}
    (hi : i < xs.length) :
    ∃ r, Api.get (unalignedP c T) v i = some (some r) ∧ Api.index (unalignedP c T) i v = .ok r v ∧
      r.read v.heap = xs[i] ∧ r.base = v.ptr ∧ r.off + xs[i].size ≤ v.byteCap ∧ (v.ptr + r.off) % xs[i].align = 0 := by
  have h1 : Api.get (unalignedP c T) v i = some (some ⟨v.ptr, totalWidth (padTo v.align) (xs.take i), xs[i].md⟩) := by
    unfold Api.get
    rw [if_pos (by show i < v.len; rw [h.len_eq]; exact hi)]
    show (v.getUnchecked c i).map some = _
    rw [UVec.getUnchecked_eq h i hi]; rfl
  refine ⟨_, h1, ?_, UVec.read_elem h i hi, rfl, ?_, ?_⟩
  · unfold Api.index
    rw [Exec.get_bind, Exec.orUb_bind h1]; rfl
  · have := h.elem_le i hi; have := h.cap; show totalWidth _ (xs.take i) + _ ≤ _; omega
  · have hd : xs[i].align ∣ v.align := h.elemAl _ (List.getElem_mem hi)
    exact Nat.mod_eq_zero_of_dvd (Nat.dvd_add (Nat.dvd_trans hd h.block.2.1) (Nat.dvd_trans hd (dvd_totalWidth _)))

/-- C06, index out of range: `get` is `None`, `v[i]` panics and changes nothing. -/
theorem C06_get_out_aligned {v : AVec A β} {xs : List (Val A.ty β)} (h : v.Holds c xs) {i : Nat} (hi : xs.length ≤ i) :
    Api.get (alignedP c A) v i = some none ∧ Api.index (alignedP c A) i v = .panic v := by
  have h1 : Api.get (alignedP c A) v i = some none := by
    unfold Api.get
    rw [if_neg (by show ¬ i < v.len; rw [h.len_eq]; omega)]
  refine ⟨h1, ?_⟩
  unfold Api.index
  rw [Exec.get_bind, Exec.orUb_bind h1]; rfl

/-- C06, index out of range. -/
theorem C06_get_out_unaligned {G : Prop} {v : UVec T β} {xs : List (Val T β)} (h : v.Represents G c xs) {i : Nat} (hi : xs.length ≤ i) :
    Api.get (unalignedP c T) v i = some none ∧ Api.index (unalignedP c T) i v = .panic v := by
  have h1 : Api.get (unalignedP c T) v i = some none := by
    unfold Api.get
    rw [if_neg (by show ¬ i < v.len; rw [h.len_eq]; omega)]
  refine ⟨h1, ?_⟩
  unfold Api.index
  rw [Exec.get_bind, Exec.orUb_bind h1]; rfl

/-! ## C07 -/

/-- C07, statically aligned elements: storing new bytes through the reference obtained for index `i` changes exactly
element `i`. -/
theorem C07_store_aligned (hA : A.Fits c) {v : AVec A β} {xs : List (Val A.ty β)} (h : v.Holds c xs) {i : Nat}
    (hi : i < xs.length) {bs : List β} (hb : bs.length = xs[i].size) :
    ∃ r h', Api.get (alignedP c A) v i = some (some r) ∧ r.store v.heap bs = some h' ∧
      ({ v with heap := h' } : AVec A β).Holds c (xs.set i ⟨xs[i].md, bs⟩) := by
  have h1 := AVec.getUnchecked_eq hA h i hi
  have hw : totalWidth id (xs.take i) + bs.length ≤ v.heap.span v.ptr := by
    have := h.elem_le i hi; have := h.cap; have := h.span; omega
  refine ⟨⟨v.ptr, totalWidth id (xs.take i), xs[i].md⟩, _, ?_, ?_, AVec.set_holds h i hi hb⟩
  · unfold Api.get
    rw [if_pos (by show i < v.len; rw [h.len_eq]; exact hi)]
    show (v.getUnchecked c i).map some = _
    rw [h1]; rfl
  · unfold Ref.store
    rw [if_pos (show bs.length = A.ty.sizeOf xs[i].md from hb)]
    exact write_eq hw

/-- C07, dynamically aligned elements. -/
theorem C07_store_unaligned {G : Prop} {v : UVec T β} {xs : List (Val T β)} (h : v.Represents G c xs) {i : Nat}
    (hi : i < xs.length) {bs : List β} (hb : bs.length = xs[i].size) :
    ∃ r h', Api.get (unalignedP c T) v i = some (some r) ∧ r.store v.heap bs = some h' ∧
      ({ v with heap := h' } : UVec T β).Represents G c (xs.set i ⟨xs[i].md, bs⟩) := by
  have h1 := UVec.getUnchecked_eq h i hi
  have hw : totalWidth (padTo v.align) (xs.take i) + bs.length ≤ v.heap.span v.ptr := by
    have := h.elem_le i hi; have := h.cap; have := h.span; omega
  refine ⟨⟨v.ptr, totalWidth (padTo v.align) (xs.take i), xs[i].md⟩, _, ?_, ?_, UVec.set_holds h i hi hb⟩
  · unfold Api.get
    rw [if_pos (by show i < v.len; rw [h.len_eq]; exact hi)]
    show (v.getUnchecked c i).map some = _
    rw [h1]; rfl
  · unfold Ref.store
    rw [if_pos (show bs.length = T.sizeOf xs[i].md from hb)]
    exact write_eq hw

/-- C07, statically aligned elements: the references for two indices do not overlap. -/
theorem C07_disjoint_aligned (hA : A.Fits c) {v : AVec A β} {xs : List (Val A.ty β)} (h : v.Holds c xs) {i j : Nat}
    (hij : i < j) (hj : j < xs.length) :
    ∃ r s, Api.get (alignedP c A) v i = some (some r) ∧ Api.get (alignedP c A) v j = some (some s) ∧
      r.off + A.ty.sizeOf r.md ≤ s.off := by
  have h0 := h.len_eq
  refine ⟨⟨v.ptr, totalWidth id (xs.take i), (xs[i]'(by omega)).md⟩,
    ⟨v.ptr, totalWidth id (xs.take j), xs[j].md⟩, ?_, ?_, ?_⟩
  · unfold Api.get
    rw [if_pos (by show i < v.len; omega)]
    show (v.getUnchecked c i).map some = _
    rw [AVec.getUnchecked_eq hA h i (by omega)]; rfl
  · unfold Api.get
    rw [if_pos (by show j < v.len; omega)]
    show (v.getUnchecked c j).map some = _
    rw [AVec.getUnchecked_eq hA h j hj]; rfl
  · have h1 := totalWidth_take_succ id xs i (by omega)
    have h2 := totalWidth_take_mono id xs (show i + 1 ≤ j by omega)
    rw [h1] at h2
    exact h2

/-- C07, dynamically aligned elements. -/
theorem C07_disjoint_unaligned {G : Prop} {v : UVec T β} {xs : List (Val T β)} (h : v.Represents G c xs) {i j : Nat}
    (hij : i < j) (hj : j < xs.length) :
    ∃ r s, Api.get (unalignedP c T) v i = some (some r) ∧ Api.get (unalignedP c T) v j = some (some s) ∧
      r.off + T.sizeOf r.md ≤ s.off := by
  have h0 := h.len_eq
  refine ⟨⟨v.ptr, totalWidth (padTo v.align) (xs.take i), (xs[i]'(by omega)).md⟩,
    ⟨v.ptr, totalWidth (padTo v.align) (xs.take j), xs[j].md⟩, ?_, ?_, ?_⟩
  · unfold Api.get
    rw [if_pos (by show i < v.len; omega)]
    show (v.getUnchecked c i).map some = _
    rw [UVec.getUnchecked_eq h i (by omega)]; rfl
  · unfold Api.get
    rw [if_pos (by show j < v.len; omega)]
    show (v.getUnchecked c j).map some = _
    rw [UVec.getUnchecked_eq h j hj]; rfl
  · have h1 := totalWidth_take_succ (padTo v.align) xs i (by omega)
    have h2 := totalWidth_take_mono (padTo v.align) xs (show i + 1 ≤ j by omega)
    have h3 := h.le_w (xs[i]'(by omega)).size
    rw [h1] at h2
    exact Nat.le_trans (Nat.add_le_add_left h3 _) h2

end

example : vecU.Holds c64 listU ∧ ∃ r h', Api.get (unalignedP c64 Dyn) vecU 1 = some (some r) ∧
    r.store vecU.heap [9, 9, 9, 9, 9, 9, 9, 9] = some h' ∧
    ({ vecU with heap := h' } : UVec Dyn Nat).observe c64 = some [dyn 1 [1, 2, 3], dyn 8 [9, 9, 9, 9, 9, 9, 9, 9]] :=
  ⟨vecU_holds _ (.inl rfl), _, _, rfl, rfl, rfl⟩

example : Api.index (alignedP c64 Bytes) 3 vecA = .panic vecA := rfl

/-! ## C28 -/

section
variable {c : Cfg} {β : Type} [Inhabited β]

/-- C28 for slices of elements that are not zero-sized: the length that is computed from the stored size is the length
that the slice had. -/
theorem C28_slice {sz al : Nat} (hsz : 0 < sz) (md : Nat) :
    (ATy.slice sz al).dec ((ATy.slice sz al).enc md) ((ATy.slice sz al).ty.sizeOf md) = md := by
  show (if sz = 0 then 0 else md * sz / sz) = md
  rw [if_neg (by omega), Nat.mul_div_cancel _ hsz]

/-- C28 for `str` and `CStr`: the metadata is stored as it is. -/
theorem C28_full (T : UTy) (al : Nat) (md : T.Meta) (n : Nat) : (ATy.full T al).dec ((ATy.full T al).enc md) n = md := rfl

/-- Slices of elements that are not zero-sized meet what all theorems about statically aligned elements assume. -/
theorem C28_slice_lawful {sz al : Nat} (hal : IsAlign c al) (hsz : 0 < sz) : (ATy.slice sz al).Lawful c :=
  ATy.Exact.lawful (fun _ => rfl) hal fun md => C28_slice hsz md

/-- So does `str`. For `CStr` see `C60_cstr_lawful`. -/
theorem C28_full_lawful {T : UTy} {al : Nat} (hal : IsAlign c al) (hT : ∀ md, T.alignOf md = al) : (ATy.full T al).Lawful c :=
  ATy.Exact.lawful hT hal fun md => C28_full T al md _

/-- C28, end to end for slices: whatever is pushed is read back with the length that it had. -/
theorem C28_push_get {sz al : Nat} (hal : IsAlign c al) (hsz : 0 < sz) {v v' : AVec (ATy.slice sz al) β}
    {xs : List (Val (ATy.slice sz al).ty β)} (h : v.Holds c xs) {env : Env (Val (ATy.slice sz al).ty β)} (hv : env.Valid)
    {x : Val (ATy.slice sz al).ty β} (hx : x.WF c)
    (hp : Api.push c (alignedP c (ATy.slice sz al)) env x v = .ok () v') :
    ∃ r, Api.get (alignedP c (ATy.slice sz al)) v' xs.length = some (some r) ∧ r.md = x.md := by
  have hL := C28_slice_lawful (c := c) hal hsz
  have h1 := (AVec.impl hL).push_meets h hv hx (fun _ _ => trivial) (fun _ => trivial)
  rw [hp] at h1
  have h2 : v'.Holds c (xs ++ [x]) := h1.1
  obtain ⟨r, h3, _, h4, _⟩ := C06_get_aligned hL.fits h2 (i := xs.length) (by simp)
  refine ⟨r, h3, ?_⟩
  have := congrArg Val.md h4
  simpa [Ref.read] using this

/-- C28 for dynamically aligned types (trait objects): the metadata is stored as it is, so every element is read back with
its own metadata. -/
theorem C28_unaligned {T : UTy} {G : Prop} {v : UVec T β} {xs : List (Val T β)} (h : v.Represents G c xs) {i : Nat} (hi : i < xs.length) :
    ∃ r, Api.get (unalignedP c T) v i = some (some r) ∧ r.md = xs[i].md := by
  obtain ⟨r, h3, _, h4, _⟩ := C06_get_unaligned h hi
  refine ⟨r, h3, ?_⟩
  have := congrArg Val.md h4
  simpa [Ref.read] using this

end

/-- C28 is false of the code for slices of zero-sized elements: a slice of length 5 comes back with length 0. -/
theorem C28_counterexample : ∃ v' r, Api.push c64 (alignedP c64 (ATy.slice 0 1)) env ⟨(5 : Nat), []⟩ (AVec.new : AVec (ATy.slice 0 1) Nat) = .ok () v' ∧
    Api.get (alignedP c64 (ATy.slice 0 1)) v' 0 = some (some r) ∧ r.md = (0 : Nat) := ⟨_, _, rfl, rfl, rfl⟩

example : IsAlign c64 2 ∧ 0 < 2 := ⟨⟨1, by decide, rfl⟩, by decide⟩

end Verif
