import Verif.Spec.Misplaced
import Verif.Proofs.UImpl
import Verif.Proofs.AImpl

set_option linter.unusedSectionVars false

/-!
# What `insert` does
-/

namespace Verif
section
variable {T : UTy} {β R : Type}

theorem bytesUsed_eq (w : Nat → Nat) (xs : List (Val T β)) : bytesUsed w xs = extent w xs := by
  unfold bytesUsed extent
  cases xs.getLast? <;> rfl

theorem misplaced_eq [Inhabited β] (mem : Nat → β) (off : Nat) (bs : List β) (w n : Nat) :
    misplaced mem off bs w n = written (moved mem off (off + w) n) off bs := by
  funext i
  unfold misplaced written moved
  by_cases h1 : off ≤ i ∧ i < off + bs.length
  · rw [if_pos h1, if_pos h1]
  · rw [if_neg h1, if_neg h1]
    by_cases h2 : off + w ≤ i ∧ i < off + w + n
    · rw [if_pos h2, if_pos h2]; congr 1; omega
    · rw [if_neg h2, if_neg h2]

/-- The values seen in some memory are in that memory. -/
theorem seenAs_memAt (mem : Nat → β) (w : Nat → Nat) (off : Nat) (mds : List T.Meta) :
    MemAt mem w off (seenAs mem w off mds) := by
  induction mds generalizing off with
  | nil => trivial
  | cons md mds ih =>
    refine ⟨?_, ih _⟩
    intro i hi
    simp

theorem seenAs_md (mem : Nat → β) (w : Nat → Nat) (off : Nat) (mds : List T.Meta) :
    (seenAs mem w off mds : List (Val T β)).map Val.md = mds := by
  induction mds generalizing off with
  | nil => rfl
  | cons md mds ih => simp [seenAs, ih]

theorem seenAs_mem {mem : Nat → β} {w : Nat → Nat} {off : Nat} {mds : List T.Meta} {y : Val T β} (h : y ∈ seenAs mem w off mds) :
    y.md ∈ mds ∧ y.bytes.length = y.size := by
  induction mds generalizing off with
  | nil => cases h
  | cons md mds ih =>
    rcases List.mem_cons.1 h with rfl | h
    · exact ⟨List.mem_cons_self, by simp [Val.size]⟩
    · exact ⟨List.mem_cons_of_mem _ (ih h).1, (ih h).2⟩

theorem infosFrom_md (enc : T.Meta → R) (w : Nat → Nat) (off : Nat) {xs ys : List (Val T β)}
    (h : xs.map Val.md = ys.map Val.md) : infosFrom enc w off xs = infosFrom enc w off ys := by
  induction xs generalizing off ys with
  | nil =>
    cases ys with
    | nil => rfl
    | cons y ys => cases h
  | cons x xs ih =>
    cases ys with
    | nil => cases h
    | cons y ys =>
      simp only [List.map_cons, List.cons.injEq] at h
      unfold infosFrom
      rw [ih _ h.2]
      simp only [Val.size, h.1]

theorem totalWidth_md (w : Nat → Nat) {xs ys : List (Val T β)} (h : xs.map Val.md = ys.map Val.md) :
    totalWidth w xs = totalWidth w ys := by
  induction xs generalizing ys with
  | nil =>
    cases ys with
    | nil => rfl
    | cons y ys => cases h
  | cons x xs ih =>
    cases ys with
    | nil => cases h
    | cons y ys =>
      simp only [List.map_cons, List.cons.injEq] at h
      simp only [totalWidth_cons, ih h.2, Val.size, h.1]

theorem wf_md {c : Cfg} {x y : Val T β} (hx : x.WF c) (h : y.md = x.md) (hb : y.bytes.length = y.size) : y.WF c where
  bytes_len := hb
  align_pow := by unfold Val.align; rw [h]; exact hx.align_pow
  align_dvd := by unfold Val.align Val.size; rw [h]; exact hx.align_dvd
  size_le := by unfold Val.align Val.size; rw [h]; exact hx.size_le

/-- The bytes of the new element that lie outside the place where `insert` puts it do not depend on it. -/
theorem misplaced_outside [Inhabited β] (mem : Nat → β) (off w n i : Nat) {bs bs' : List β} (hl : bs.length = bs'.length)
    (h : ¬ (off ≤ i ∧ i < off + bs.length)) : misplaced mem off bs w n i = misplaced mem off bs' w n i := by
  unfold misplaced
  rw [hl] at h
  rw [hl, if_neg h, if_neg h]

end

namespace AVec
variable {A : ATy} {β : Type} [Inhabited β] {c : Cfg} {v : AVec A β} {xs : List (Val A.ty β)}

/-- The vector after `insert`. -/
def misput (v : AVec A β) (xs : List (Val A.ty β)) (k : Nat) (x : Val A.ty β) : AVec A β :=
  { v with
    elems := infosFrom A.enc id 0 (xs.take k ++ x :: xs.drop k)
    heap := { v.heap with mem := misplaced v.heap.mem k x.bytes x.size (totalWidth id (xs.drop k)) } }

/-- What `insert_unchecked` does in all cases. -/
theorem insertUnchecked_any {x : Val A.ty β} (hx : x.WF c) (hr : Room c v xs x.size) {k : Nat} (hk : k ≤ xs.length) :
    insertUnchecked c k x v =
      if k + x.size + totalWidth id (xs.drop k) ≤ v.heap.span v.ptr then .ok () (misput v xs k x) else .ub := by
  have h1 := hr.holds
  have hb := hr.bytes
  have hcm := h1.capMax
  have hsp := h1.span
  have hrec := hr.recs
  have hl := h1.length
  have htk := totalWidth_take_le id xs k
  have htd := totalWidth_take_drop id xs k
  have hn : totalWidth id xs - totalWidth id (xs.take k) = totalWidth id (xs.drop k) := by omega
  unfold insertUnchecked
  rw [Exec.get_bind, Exec.orUb_bind (VS.newUnchecked_eq (by omega)), Exec.debugAssert_bind (by unfold len; omega),
    byteLen_eq h1, Exec.debugAssert_bind (by omega), Exec.orUb_bind (startOffset_eq h1 k hk),
    Exec.orUb_bind (VS.uncheckedSub_eq htk (by omega)), hn]
  by_cases hf : k + x.size + totalWidth id (xs.drop k) ≤ v.heap.span v.ptr
  · rw [if_pos hf, Exec.require_bind (by constructor <;> show _ ≤ _ <;> omega), Exec.bind_ok (memmove_eq (by omega) (by omega))]
    let w1 : AVec A β := { v with heap := { v.heap with mem := moved v.heap.mem k (k + x.size) (totalWidth id (xs.drop k)) } }
    let w2 : AVec A β := { w1 with heap := { w1.heap with mem := written w1.heap.mem k x.bytes } }
    have hw : memwrite v.ptr k x.bytes w1 = .ok () w2 :=
      memwrite_eq (v := w1) (by rw [show w1.heap.span v.ptr = v.heap.span v.ptr from rfl, hx.bytes_len]; omega)
    rw [Exec.bind_ok hw]
    have := insertRecords_eq (w := w2) hr rfl k hk rfl rfl
    rw [this]
    unfold misput
    simp only [misplaced_eq, w2, w1]
  · rw [if_neg hf]
    by_cases ha : v.heap.addOk v.ptr k ∧ v.heap.addOk v.ptr (k + x.size)
    · rw [Exec.require_bind ha]
      refine Exec.bind_ub ?_
      unfold memmove
      rw [Exec.get_bind]
      refine Exec.bind_ub ?_
      unfold Heap.copy
      rw [if_neg (by omega)]; rfl
    · refine Exec.bind_ub ?_
      unfold Exec.require
      rw [if_neg ha]

theorem misput_holds (hA : A.Lawful c) {x : Val A.ty β} (hx : x.WF c) (hr : Room c v xs x.size) (k : Nat) :
    (misput v xs k x).Holds c (seenAs (misplaced v.heap.mem k x.bytes x.size (totalWidth id (xs.drop k))) id 0
      ((xs.take k ++ x :: xs.drop k).map Val.md)) := by
  have hm := seenAs_md (β := β) (misplaced v.heap.mem k x.bytes x.size (totalWidth id (xs.drop k))) id 0
    ((xs.take k ++ x :: xs.drop k).map Val.md)
  have hh := inserted_holds hx (hA.keeps _) hr k
  refine ⟨?_, fun y _ => hA.keeps _, ?_, ?_, ?_, hh.capMax, seenAs_memAt _ _ _ _, hr.holds.block.mem_eq rfl, hh.leaks⟩
  · intro y hy
    obtain ⟨h1, h2⟩ := seenAs_mem hy
    obtain ⟨z, hz, h3⟩ := List.mem_map.1 h1
    exact wf_md (hh.wf z hz) h3.symm h2
  · exact infosFrom_md _ _ _ hm.symm
  · have := congrArg List.length hm
    rw [List.length_map, List.length_map] at this
    rw [this]; exact hh.recs
  · rw [totalWidth_md id hm]; exact hh.cap

end AVec

namespace UVec
variable {T : UTy} {β : Type} {c : Cfg} {v : UVec T β} {xs : List (Val T β)} [Inhabited β]

/-- The vector after `insert`. -/
def misput (v : UVec T β) (xs : List (Val T β)) (k : Nat) (x : Val T β) : UVec T β :=
  { v with
    elems := infosFrom id (padTo v.align) 0 (xs.take k ++ x :: xs.drop k)
    heap := { v.heap with
      mem := misplaced v.heap.mem k x.bytes (padTo v.align x.size) (bytesUsed (padTo v.align) (xs.drop k)) } }

theorem insertOk_used {xs : List (Val T β)} {k a : Nat} (ha : 0 < a) :
    extent (padTo a) xs - totalWidth (padTo a) (xs.take k) = bytesUsed (padTo a) (xs.drop k) := by
  rw [bytesUsed_eq]
  by_cases hd : xs.drop k = []
  · have h1 := extent_le (padTo a) (fun n => le_padTo ha n) xs
    have h2 : xs.take k = xs := by
      have := List.take_append_drop k xs
      rw [hd, List.append_nil] at this
      exact this
    rw [hd, h2]
    simp; omega
  · have := extent_append (padTo a) (xs.take k) (xs.drop k) hd
    rw [List.take_append_drop] at this
    omega

/-- Without `InsertOk` the position of the new element lies behind the end of the last one. -/
theorem not_insertOk_lt {xs : List (Val T β)} {k a : Nat} (ha : 0 < a) (hk : k ≤ xs.length) (hok : ¬ InsertOk xs k a) :
    extent (padTo a) xs < totalWidth (padTo a) (xs.take k) := by
  unfold InsertOk at hok
  simp only [not_or] at hok
  obtain ⟨h1, h2, h3⟩ := hok
  rcases List.eq_nil_or_concat xs with h4 | ⟨ys, y, rfl⟩
  · exact absurd h4 h2
  · rw [List.concat_eq_append] at *
    have h5 : ¬ a ∣ y.size := fun h => h3 (by intro z hz; rw [List.getLast?_concat] at hz; cases hz; exact h)
    rw [extent_concat, List.take_of_length_le (by omega), totalWidth_append]
    simp only [totalWidth_cons, totalWidth_nil]
    have h6 := le_padTo ha y.size
    have h7 : padTo a y.size ≠ y.size := by
      intro h; exact h5 (h ▸ dvd_padTo a y.size)
    omega

/-- What `insert_unchecked` does in all cases. -/
theorem insertUnchecked_any {x : Val T β} (hx : x.WF c) (hr : Room True c v xs x.size x.align) {k : Nat} (hk : k ≤ xs.length) :
    (¬ InsertOk xs k v.align → insertUnchecked c k x v = .ub) ∧
    (InsertOk xs k v.align → insertUnchecked c k x v =
      if k + padTo v.align x.size + bytesUsed (padTo v.align) (xs.drop k) ≤ v.heap.span v.ptr
      then .ok () (misput v xs k x) else .ub) := by
  have h1 := hr.holds
  have hb := hr.bytes
  have hpad := hb
  have hcm := h1.capMax
  have hsp := h1.span
  have hrec := hr.recs
  have hl := h1.length
  have hex := extent_le (padTo v.align) h1.le_w xs
  have htk := totalWidth_take_le (padTo v.align) xs k
  have hpw := le_padTo h1.al.pos x.size
  unfold insertUnchecked
  rw [Exec.get_bind, Exec.debugAssert_bind (by unfold len; omega), Exec.debugAssert_bind (by unfold len; omega),
    Exec.orUb_bind (VSU.uncheckedPadTo_eq h1.al (by omega) (by omega)), Exec.orUb_bind (alignedByteLen_eq h1),
    Exec.debugAssert_bind (by omega), Exec.debugAssert_bind (Nat.le_of_dvd h1.al.pos hr.align),
    Exec.orUb_bind (startOffset_eq h1 k hk), unalignedByteLen_eq h1]
  refine ⟨fun hok => ?_, fun hok => ?_⟩
  · have hlt := not_insertOk_lt h1.al.pos hk hok
    refine Exec.bind_ub ?_
    unfold VSU.uncheckedSub Verif.uncheckedSub
    rw [if_neg (by omega)]
    rfl
  · have hle := insertOk_le h1.al.pos hok
    rw [Exec.orUb_bind (VSU.uncheckedSub_eq hle (by omega)), insertOk_used h1.al.pos]
    by_cases hf : k + padTo v.align x.size + bytesUsed (padTo v.align) (xs.drop k) ≤ v.heap.span v.ptr
    · rw [if_pos hf, Exec.require_bind (by constructor <;> show _ ≤ _ <;> omega),
        Exec.bind_ok (memmove_eq (by omega) (by omega))]
      let w1 : UVec T β := { v with heap := { v.heap with mem := moved v.heap.mem k (k + padTo v.align x.size) (bytesUsed (padTo v.align) (xs.drop k)) } }
      let w2 : UVec T β := { w1 with heap := { w1.heap with mem := written w1.heap.mem k x.bytes } }
      have hw : memwrite v.ptr k x.bytes w1 = .ok () w2 :=
        memwrite_eq (v := w1) (by rw [show w1.heap.span v.ptr = v.heap.span v.ptr from rfl, hx.bytes_len]; omega)
      rw [Exec.bind_ok hw]
      have := insertRecords_eq (w := w2) hr rfl k hk rfl rfl
      rw [this]
      unfold misput
      simp only [misplaced_eq, w2, w1]
    · rw [if_neg hf]
      by_cases ha : v.heap.addOk v.ptr k ∧ v.heap.addOk v.ptr (k + padTo v.align x.size)
      · rw [Exec.require_bind ha]
        refine Exec.bind_ub ?_
        unfold memmove
        rw [Exec.get_bind]
        refine Exec.bind_ub ?_
        unfold Heap.copy
        rw [if_neg (by omega)]; rfl
      · refine Exec.bind_ub ?_
        unfold Exec.require
        rw [if_neg ha]

theorem misput_holds {x : Val T β} (hx : x.WF c) (hr : Room True c v xs x.size x.align) (k : Nat) :
    (misput v xs k x).Holds c (seenAs (misplaced v.heap.mem k x.bytes (padTo v.align x.size)
      (bytesUsed (padTo v.align) (xs.drop k))) (padTo v.align) 0 ((xs.take k ++ x :: xs.drop k).map Val.md)) := by
  have hm := seenAs_md (β := β) (misplaced v.heap.mem k x.bytes (padTo v.align x.size)
    (bytesUsed (padTo v.align) (xs.drop k))) (padTo v.align) 0 ((xs.take k ++ x :: xs.drop k).map Val.md)
  have hh := inserted_holds hx hr k
  refine ⟨?_, hh.al, ?_, ?_, ?_, ?_, hh.capDvd, hh.room, seenAs_memAt _ _ _ _, hr.holds.block.mem_eq rfl, hh.leaks⟩
  · intro y hy
    obtain ⟨h1, h2⟩ := seenAs_mem hy
    obtain ⟨z, hz, h3⟩ := List.mem_map.1 h1
    exact wf_md (hh.wf z hz) h3.symm h2
  · intro y hy
    obtain ⟨h1, h2⟩ := seenAs_mem hy
    obtain ⟨z, hz, h3⟩ := List.mem_map.1 h1
    have := hh.elemAl z hz
    unfold Val.align at this ⊢
    rw [← h3]; exact this
  · exact infosFrom_md _ _ _ hm.symm
  · have := congrArg List.length hm
    rw [List.length_map, List.length_map] at this
    rw [this]; exact hh.recs
  · rw [totalWidth_md _ hm]; exact hh.cap

end UVec
end Verif

namespace Verif
section
variable {T : UTy} {β : Type}

/-- A memory that contains the elements shows exactly these. -/
theorem seenAs_of_memAt {mem : Nat → β} {w : Nat → Nat} {off : Nat} {xs : List (Val T β)} (h : MemAt mem w off xs)
    (hb : ∀ x ∈ xs, x.bytes.length = x.size) : seenAs mem w off (xs.map Val.md) = xs := by
  induction xs generalizing off with
  | nil => rfl
  | cons x xs ih =>
    have h2 := ih h.2 fun y hy => hb y (List.mem_cons_of_mem _ hy)
    have hl := hb x List.mem_cons_self
    show (⟨x.md, _⟩ : Val T β) :: seenAs mem w (off + w x.size) (xs.map Val.md) = x :: xs
    rw [h2]
    congr 1
    obtain ⟨md, bs⟩ := x
    congr 1
    apply List.ext_getElem
    · simp only [List.length_map, List.length_range]; exact hl.symm
    · intro i h3 h4
      simp only [List.getElem_map, List.getElem_range]
      exact h.1 i h4

theorem misplaced_zero [Inhabited β] (mem : Nat → β) (off n : Nat) {bs : List β} (h : bs.length = 0) : misplaced mem off bs 0 n = mem := by
  funext i
  unfold misplaced
  rw [if_neg (by omega)]
  split <;> simp

/-- If the place of the new element is not where `insert` puts it, some bytes do not arrive. -/
theorem exists_wrong_bytes [Inhabited β] (hβ : ∀ b : β, ∃ b', b' ≠ b) (mem : Nat → β) {off start : Nat} (w n : Nat) {s : Nat}
    (hs : 0 < s) (hne : start ≠ off) :
    ∃ bs : List β, bs.length = s ∧ ¬ BytesAre (misplaced mem off bs w n) start bs := by
  have hp : ∃ j, j < s ∧ ¬ (off ≤ start + j ∧ start + j < off + s) := by
    rcases Nat.lt_or_ge off start with h | h
    · exact ⟨s - 1, by omega, by omega⟩
    · exact ⟨0, hs, by omega⟩
  obtain ⟨j, hj, ho⟩ := hp
  obtain ⟨b', hb'⟩ := hβ (misplaced mem off (List.replicate s default) w n (start + j))
  refine ⟨List.replicate s b', by simp, fun h => hb' ?_⟩
  have h1 := h j (by simpa using hj)
  rw [misplaced_outside (bs' := List.replicate s default) mem off w n _ (by simp) (by simpa using ho), List.getElem_replicate] at h1
  exact h1.symm

theorem memAt_elem {mem : Nat → β} {w : Nat → Nat} {xs ys : List (Val T β)} {x : Val T β} (h : MemAt mem w 0 (xs ++ x :: ys)) :
    BytesAre mem (totalWidth w xs) x.bytes := by
  rw [memAt_append] at h
  have := h.2.1
  rwa [Nat.zero_add] at this

theorem memAt_insert_zst {mem : Nat → β} {w : Nat → Nat} {xs : List (Val T β)} {x : Val T β} (hw : w x.size = 0)
    (hb : x.bytes.length = 0) (h : MemAt mem w 0 xs) (k : Nat) : MemAt mem w 0 (xs.take k ++ x :: xs.drop k) := by
  rw [← List.take_append_drop k xs, memAt_append] at h
  rw [memAt_append]
  refine ⟨h.1, fun i hi => absurd hi (by omega), ?_⟩
  rw [hw]
  exact h.2

end

/-- After a successful reservation the vector has the requested alignment and room for the element. -/
theorem UVec.room_of_enlarged {T : UTy} {β : Type} [Inhabited β] {c : Cfg} {v v1 : UVec T β} {xs : List (Val T β)}
    {env : Env (Val T β)} {x : Val T β} (hx : x.WF c) (hz : v.ZstOk x.size x.align)
    (hE : (UVec.impl True c T).Enlarged env v v1 xs 1 x.size x.align) :
    v1.align = max v.align x.align ∧ UVec.Room True c v1 xs x.size x.align := by
  have h1 : v1.Holds c xs := hE.holds
  have hf : x.align ≤ v1.align := hE.fits x.size (Nat.le_refl _) hz
  refine ⟨?_, h1, hE.recs, h1.room_pad (h1.capDvd trivial) hE.room, IsAlign.dvd_of_le hx.align_pow h1.al hf⟩
  rcases hE.alignCases with h3 | h3
  · exact h3
  · have h3 : v1.align = v.align := h3
    rw [h3]; rw [h3] at hf; exact (Nat.max_eq_left hf).symm

end Verif
