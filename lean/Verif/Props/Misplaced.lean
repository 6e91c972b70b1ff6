import Verif.Proofs.Misplaced
import Verif.Props.Insert

/-!
# C03: what `insert` does outside the covered cases

`C03_insert_*_partial` says that `insert` is right if the elements before the index occupy as many bytes as their number. The
theorems here say what it does otherwise: exactly which bytes the elements have afterwards, that for every other index (and new
element of nonzero size) the result is wrong for some value, and where there is undefined behaviour.
-/

namespace Verif
open Sample

section
variable {T : UTy} {A : ATy} {β : Type} [Inhabited β] {c : Cfg}

/-! ## The resulting contents -/

/-- C03, what `insert` does instead, statically aligned elements: the metadata are those of the list with the element inserted, but
the bytes are those that are found when the new element is put at byte offset `i`. -/
theorem C03_insert_aligned_exact (hA : A.Lawful c) {v : AVec A β} {xs : List (Val A.ty β)} (h : v.Holds c xs)
    {env : Env (Val A.ty β)} (hv : env.Valid) {x : Val A.ty β} (hx : x.WF c) {i : Nat} (hi : i ≤ xs.length)
    (hg : i ≤ totalWidth id (xs.take i)) :
    (Api.insert c (alignedP c A) env i x v).Meets
      (fun _ v' => v'.drops = v.drops ∧ ∃ mem, MemAt mem id 0 xs ∧
        v'.Holds c (seenAs (misplaced mem i x.bytes x.size (totalWidth id (xs.drop i))) id 0
          ((xs.take i ++ x :: xs.drop i).map Val.md)))
      (fun v' => v'.Holds c xs ∧ v'.drops = v.drops ∧
        (env.Refuses (xs.length + 1) (v.request (x.size - v.spare xs)) ∨ v.TooLarge c xs 1 (x.size - v.spare xs)))
      (env.Refuses (xs.length + 1) (v.request (x.size - v.spare xs))) := by
  unfold Api.insert
  rw [Exec.get_bind, Exec.assert_bind (by rw [(AVec.impl hA).len_eq h]; exact hi)]
  refine (((AVec.impl hA).reserveCapacityBytesAlign_meets h hv 1 x.size hx.align_pow).mono (fun _ _ h => h)
    (fun _ h => ⟨h.1.holds, h.1.drops, h.2⟩) (fun h => h)).bind ?_
  intro _ v1 hE
  have h1 : v1.Holds c xs := hE.holds
  have hb : totalWidth id xs + x.size ≤ v1.byteCap := hE.room
  have hr : AVec.Room c v1 xs x.size := ⟨h1, hE.recs, hb⟩
  have hsp := h1.span
  have htd := totalWidth_take_drop id xs i
  have := AVec.insertUnchecked_any hx hr hi
  rw [if_pos (by omega)] at this
  exact .of_ok this ⟨hE.drops, v1.heap.mem, h1.mem, AVec.misput_holds hA hx hr i⟩

/-- C03, what `insert` does instead, dynamically aligned elements. -/
theorem C03_insert_unaligned_exact {v : UVec T β} {xs : List (Val T β)} (h : v.Holds c xs)
    {env : Env (Val T β)} (hv : env.Valid) (he : env.Exact) {x : Val T β} (hx : x.WF c) (hz : v.ZstOk x.size x.align)
    {i : Nat} (hi : i ≤ xs.length) (hg : UVec.InsertOk xs i (max v.align x.align))
    (hb : i ≤ totalWidth (padTo (max v.align x.align)) (xs.take i)) :
    (Api.insert c (unalignedP c T) env i x v).Meets
      (fun _ v' => v'.drops = v.drops ∧ ∃ mem, MemAt mem (padTo (max v.align x.align)) 0 xs ∧
        v'.Holds c (seenAs (misplaced mem i x.bytes (padTo (max v.align x.align) x.size)
          (bytesUsed (padTo (max v.align x.align)) (xs.drop i))) (padTo (max v.align x.align)) 0
          ((xs.take i ++ x :: xs.drop i).map Val.md)))
      (fun v' => v'.Holds c xs ∧ v'.drops = v.drops ∧
        (env.Refuses (xs.length + 1) (v.request xs (x.size - v.spare xs) x.align) ∨
          v.TooLarge c xs 1 (x.size - v.spare xs) x.align))
      (env.Refuses (xs.length + 1) (v.request xs (x.size - v.spare xs) x.align)) := by
  unfold Api.insert
  rw [Exec.get_bind, Exec.assert_bind (by rw [(UVec.impl True c T).len_eq h]; exact hi)]
  refine (((UVec.impl True c T).reserveCapacityBytesAlign_meets h ⟨hv, (fun _ => he)⟩ 1 x.size hx.align_pow).mono (fun _ _ h => h)
    (fun _ h => ⟨h.1.holds, h.1.drops, h.2⟩) (fun h => h)).bind ?_
  intro _ v1 hE
  obtain ⟨ha, hr⟩ := UVec.room_of_enlarged hx hz hE
  rw [← ha] at hg hb ⊢
  have h1 := hr.holds
  have hsp := h1.span
  have hbb := hr.bytes
  have htd := totalWidth_take_drop (padTo v1.align) xs i
  have hex := extent_le (padTo v1.align) h1.le_w (xs.drop i)
  have hpad := hbb
  rw [← bytesUsed_eq] at hex
  have := (UVec.insertUnchecked_any hx hr hi).2 hg
  rw [if_pos (by omega)] at this
  exact .of_ok this ⟨hE.drops, v1.heap.mem, h1.mem, UVec.misput_holds hx hr i⟩

/-- C03: elements of size zero are inserted correctly at every index that is not larger than the number of bytes before it. -/
theorem C03_insert_zst_aligned (hA : A.Lawful c) {v : AVec A β} {xs : List (Val A.ty β)} (h : v.Holds c xs)
    {env : Env (Val A.ty β)} (hv : env.Valid) {x : Val A.ty β} (hx : x.WF c) (h0 : x.size = 0) {i : Nat} (hi : i ≤ xs.length)
    (hg : i ≤ totalWidth id (xs.take i)) :
    (Api.insert c (alignedP c A) env i x v).Meets
      (fun _ v' => v'.Holds c (xs.take i ++ x :: xs.drop i) ∧ v'.drops = v.drops)
      (fun v' => v'.Holds c xs ∧ v'.drops = v.drops ∧
        (env.Refuses (xs.length + 1) (v.request (x.size - v.spare xs)) ∨ v.TooLarge c xs 1 (x.size - v.spare xs)))
      (env.Refuses (xs.length + 1) (v.request (x.size - v.spare xs))) := by
  refine (C03_insert_aligned_exact hA h hv hx hi hg).mono ?_ (fun _ h => h) (fun h => h)
  rintro _ v' ⟨hd, mem, hm, hh⟩
  refine ⟨?_, hd⟩
  have hb0 : x.bytes.length = 0 := by rw [hx.bytes_len, h0]
  rw [h0, misplaced_zero mem i _ hb0, seenAs_of_memAt (memAt_insert_zst (by simpa using h0) hb0 hm i)] at hh
  · exact hh
  · intro y hy
    rcases List.mem_append.1 hy with hy | hy
    · exact (h.wf y (List.mem_of_mem_take hy)).bytes_len
    · rcases List.mem_cons.1 hy with rfl | hy
      · exact hx.bytes_len
      · exact (h.wf y (List.mem_of_mem_drop hy)).bytes_len

/-- C03: the same for dynamically aligned elements. -/
theorem C03_insert_zst_unaligned {v : UVec T β} {xs : List (Val T β)} (h : v.Holds c xs)
    {env : Env (Val T β)} (hv : env.Valid) (he : env.Exact) {x : Val T β} (hx : x.WF c) (h0 : x.size = 0)
    (hz : v.ZstOk x.size x.align) {i : Nat} (hi : i ≤ xs.length) (hg : UVec.InsertOk xs i (max v.align x.align))
    (hb : i ≤ totalWidth (padTo (max v.align x.align)) (xs.take i)) :
    (Api.insert c (unalignedP c T) env i x v).Meets
      (fun _ v' => v'.Holds c (xs.take i ++ x :: xs.drop i) ∧ v'.drops = v.drops)
      (fun v' => v'.Holds c xs ∧ v'.drops = v.drops ∧
        (env.Refuses (xs.length + 1) (v.request xs (x.size - v.spare xs) x.align) ∨
          v.TooLarge c xs 1 (x.size - v.spare xs) x.align))
      (env.Refuses (xs.length + 1) (v.request xs (x.size - v.spare xs) x.align)) := by
  refine (C03_insert_unaligned_exact h hv he hx hz hi hg hb).mono ?_ (fun _ h => h) (fun h => h)
  rintro _ v' ⟨hd, mem, hm, hh⟩
  refine ⟨?_, hd⟩
  have hb0 : x.bytes.length = 0 := by rw [hx.bytes_len, h0]
  have hw0 : padTo (max v.align x.align) x.size = 0 := by rw [h0]; exact padTo_zero _
  rw [hw0, misplaced_zero mem i _ hb0, seenAs_of_memAt (memAt_insert_zst hw0 hb0 hm i)] at hh
  · exact hh
  · intro y hy
    rcases List.mem_append.1 hy with hy | hy
    · exact (h.wf y (List.mem_of_mem_take hy)).bytes_len
    · rcases List.mem_cons.1 hy with rfl | hy
      · exact hx.bytes_len
      · exact (h.wf y (List.mem_of_mem_drop hy)).bytes_len

/-! ## Every other index is wrong -/

/-- C03: the condition in `C03_insert_aligned_partial` is necessary. For every vector, and every index at which the elements before do
not occupy as many bytes as their number, some value of each nonzero size cannot be inserted correctly. -/
theorem C03_insert_aligned_wrong (hA : A.Lawful c) (hβ : ∀ b : β, ∃ b', b' ≠ b) {v : AVec A β} {xs : List (Val A.ty β)}
    (h : v.Holds c xs) {env : Env (Val A.ty β)} (hv : env.Valid) {md : A.ty.Meta} (hm : MetaOk c md)
    (hs : 0 < A.ty.sizeOf md) {i : Nat} (hi : i ≤ xs.length) (hne : totalWidth id (xs.take i) ≠ i) :
    ∃ x : Val A.ty β, x.md = md ∧ x.WF c ∧ ∀ v', Api.insert c (alignedP c A) env i x v = .ok () v' →
      ¬ v'.Holds c (xs.take i ++ x :: xs.drop i) := by
  have hres := (AVec.impl hA).reserveCapacityBytesAlign_meets h hv 1 (A.ty.sizeOf md) hm.align_pow
  have hun : ∀ x : Val A.ty β, x.md = md → Api.insert c (alignedP c A) env i x v =
      (Api.reserveCapacityBytesAlign c (alignedP c A) env 1 (A.ty.sizeOf md) (A.ty.alignOf md) >>= fun _ =>
        (alignedP c A).insertUnchecked i x) v := by
    rintro x rfl
    unfold Api.insert
    rw [Exec.get_bind, Exec.assert_bind (by rw [(AVec.impl hA).len_eq h]; exact hi)]
    rfl
  have hwf : ∀ bs : List β, bs.length = A.ty.sizeOf md → (⟨md, bs⟩ : Val A.ty β).WF c := fun bs hbs => hm.wf hbs
  generalize hr : Api.reserveCapacityBytesAlign c (alignedP c A) env 1 (A.ty.sizeOf md) (A.ty.alignOf md) v = r at hres
  have hbad : (∀ v1, r ≠ .ok () v1) → ∃ x : Val A.ty β, x.md = md ∧ x.WF c ∧
      ∀ v', Api.insert c (alignedP c A) env i x v = .ok () v' → ¬ v'.Holds c (xs.take i ++ x :: xs.drop i) := by
    intro hn
    refine ⟨⟨md, List.replicate (A.ty.sizeOf md) default⟩, rfl, hwf _ (by simp), fun v' hv' => ?_⟩
    rw [hun _ rfl] at hv'
    cases r with
    | ok _ v1 => exact absurd rfl (hn v1)
    | panic v1 => rw [Exec.bind_panic hr] at hv'; cases hv'
    | abort => rw [Exec.bind_abort hr] at hv'; cases hv'
    | ub => rw [Exec.bind_ub hr] at hv'; cases hv'
  cases r with
  | panic v1 => exact hbad (by intro _ h; cases h)
  | abort => exact hbad (by intro _ h; cases h)
  | ub => exact hbad (by intro _ h; cases h)
  | ok _ v1 =>
    have hE : (AVec.impl hA).Enlarged env v v1 xs 1 (A.ty.sizeOf md) (A.ty.alignOf md) := hres
    have h1 : v1.Holds c xs := hE.holds
    obtain ⟨bs, hl, hw⟩ := exists_wrong_bytes hβ v1.heap.mem (off := i) (A.ty.sizeOf md) (totalWidth id (xs.drop i)) hs hne
    refine ⟨⟨md, bs⟩, rfl, hwf bs hl, fun v' hv' hh => hw ?_⟩
    have hro : AVec.Room c v1 xs (A.ty.sizeOf md) := ⟨h1, hE.recs, hE.room⟩
    rw [hun _ rfl, Exec.bind_ok hr] at hv'
    have hany := AVec.insertUnchecked_any (hwf bs hl) hro hi
    have hv2 : AVec.insertUnchecked c i ⟨md, bs⟩ v1 = .ok () v' := hv'
    rw [hany] at hv2
    split at hv2
    · cases hv2
      exact memAt_elem hh.mem
    · cases hv2

/-- C03: the condition on the bytes before the index in `C03_insert_unaligned_partial` is necessary. -/
theorem C03_insert_unaligned_wrong (hβ : ∀ b : β, ∃ b', b' ≠ b) {v : UVec T β} {xs : List (Val T β)}
    (h : v.Holds c xs) {env : Env (Val T β)} (hv : env.Valid) (he : env.Exact) {md : T.Meta} (hm : MetaOk c md)
    (hs : 0 < T.sizeOf md) {i : Nat} (hi : i ≤ xs.length)
    (hne : totalWidth (padTo (max v.align (T.alignOf md))) (xs.take i) ≠ i) :
    ∃ x : Val T β, x.md = md ∧ x.WF c ∧ ∀ v', Api.insert c (unalignedP c T) env i x v = .ok () v' →
      ¬ v'.Holds c (xs.take i ++ x :: xs.drop i) := by
  have hres := (UVec.impl True c T).reserveCapacityBytesAlign_meets h ⟨hv, (fun _ => he)⟩ 1 (T.sizeOf md) hm.align_pow
  have hun : ∀ x : Val T β, x.md = md → Api.insert c (unalignedP c T) env i x v =
      (Api.reserveCapacityBytesAlign c (unalignedP c T) env 1 (T.sizeOf md) (T.alignOf md) >>= fun _ =>
        (unalignedP c T).insertUnchecked i x) v := by
    rintro x rfl
    unfold Api.insert
    rw [Exec.get_bind, Exec.assert_bind (by rw [(UVec.impl True c T).len_eq h]; exact hi)]
    rfl
  have hwf : ∀ bs : List β, bs.length = T.sizeOf md → (⟨md, bs⟩ : Val T β).WF c := fun bs hbs => hm.wf hbs
  generalize hr : Api.reserveCapacityBytesAlign c (unalignedP c T) env 1 (T.sizeOf md) (T.alignOf md) v = r at hres
  have hbad : (∀ v1, r ≠ .ok () v1) → ∃ x : Val T β, x.md = md ∧ x.WF c ∧
      ∀ v', Api.insert c (unalignedP c T) env i x v = .ok () v' → ¬ v'.Holds c (xs.take i ++ x :: xs.drop i) := by
    intro hn
    refine ⟨⟨md, List.replicate (T.sizeOf md) default⟩, rfl, hwf _ (by simp), fun v' hv' => ?_⟩
    rw [hun _ rfl] at hv'
    cases r with
    | ok _ v1 => exact absurd rfl (hn v1)
    | panic v1 => rw [Exec.bind_panic hr] at hv'; cases hv'
    | abort => rw [Exec.bind_abort hr] at hv'; cases hv'
    | ub => rw [Exec.bind_ub hr] at hv'; cases hv'
  cases r with
  | panic v1 => exact hbad (by intro _ h; cases h)
  | abort => exact hbad (by intro _ h; cases h)
  | ub => exact hbad (by intro _ h; cases h)
  | ok _ v1 =>
    have hE : (UVec.impl True c T).Enlarged env v v1 xs 1 (T.sizeOf md) (T.alignOf md) := hres
    obtain ⟨ha, hro⟩ := UVec.room_of_enlarged (x := ⟨md, List.replicate (T.sizeOf md) default⟩) (hwf _ (by simp))
      (fun _ h0 => absurd h0 (Nat.ne_of_gt hs)) hE
    have ha : v1.align = max v.align (T.alignOf md) := ha
    rw [← ha] at hne
    obtain ⟨bs, hl, hw⟩ := exists_wrong_bytes hβ v1.heap.mem (off := i) (padTo v1.align (T.sizeOf md))
      (bytesUsed (padTo v1.align) (xs.drop i)) hs hne
    refine ⟨⟨md, bs⟩, rfl, hwf bs hl, fun v' hv' hh => hw ?_⟩
    rw [hun _ rfl, Exec.bind_ok hr] at hv'
    have hany := UVec.insertUnchecked_any (hwf bs hl) hro hi
    have hv2 : UVec.insertUnchecked c i ⟨md, bs⟩ v1 = .ok () v' := hv'
    by_cases hok : UVec.InsertOk xs i v1.align
    · rw [hany.2 hok] at hv2
      split at hv2
      · cases hv2
        exact memAt_elem hh.mem
      · cases hv2
    · rw [hany.1 hok] at hv2
      cases hv2

/-! ## Undefined behaviour -/

/-- C03: the condition `InsertOk` is necessary. Inserting at the end of a dynamically aligned vector whose last element has padding
behind it (under the alignment that the vector gets) is undefined behaviour, unless the memory for the element cannot be had. -/
theorem C03_insert_unaligned_end {v : UVec T β} {xs : List (Val T β)} (h : v.Holds c xs)
    {env : Env (Val T β)} (hv : env.Valid) (he : env.Exact) {x : Val T β} (hx : x.WF c) (hz : v.ZstOk x.size x.align)
    {i : Nat} (hi : i ≤ xs.length) (hg : ¬ UVec.InsertOk xs i (max v.align x.align))
    (hn1 : ¬ env.Refuses (xs.length + 1) (v.request xs (x.size - v.spare xs) x.align))
    (hn2 : ¬ v.TooLarge c xs 1 (x.size - v.spare xs) x.align) :
    Api.insert c (unalignedP c T) env i x v = .ub := by
  unfold Api.insert
  rw [Exec.get_bind, Exec.assert_bind (by rw [(UVec.impl True c T).len_eq h]; exact hi)]
  have hres := (UVec.impl True c T).reserveCapacityBytesAlign_meets h ⟨hv, (fun _ => he)⟩ 1 x.size hx.align_pow
  generalize hr : Api.reserveCapacityBytesAlign c (unalignedP c T) env 1 x.size x.align v = r at hres
  cases r with
  | ok _ v1 =>
    obtain ⟨ha, hro⟩ := UVec.room_of_enlarged hx hz hres
    rw [Exec.bind_ok hr]
    exact (UVec.insertUnchecked_any hx hro hi).1 (by rw [ha]; exact hg)
  | panic v1 => exact absurd hres.2 (not_or.2 ⟨hn1, hn2⟩)
  | abort => exact absurd hres hn1
  | ub => exact hres.elim

/-- C03: if there is room already and the byte offset `i` is so large that the element or the ones behind it do not fit (there must
be elements of size zero before), the memory behind the vector is accessed. -/
theorem C03_insert_aligned_outside (hA : A.Lawful c) {v : AVec A β} {xs : List (Val A.ty β)} (h : v.Holds c xs)
    (env : Env (Val A.ty β)) {x : Val A.ty β} (hx : x.WF c) {i : Nat} (hi : i ≤ xs.length) (h1 : xs.length + 1 ≤ v.elemsCap)
    (h2 : totalWidth id xs + x.size ≤ v.byteCap)
    (hg : v.heap.span v.ptr < i + x.size + totalWidth id (xs.drop i)) :
    Api.insert c (alignedP c A) env i x v = .ub := by
  unfold Api.insert
  rw [Exec.get_bind, Exec.assert_bind (by rw [(AVec.impl hA).len_eq h]; exact hi),
    Exec.bind_ok ((AVec.impl hA).reserveCapacityBytesAlign_idle h env 1 x.size hx.align_pow h1 h2 trivial)]
  have hany := AVec.insertUnchecked_any hx (⟨h, h1, h2⟩ : AVec.Room c v xs x.size) hi
  rw [if_neg (by omega)] at hany
  exact hany

end
end Verif
