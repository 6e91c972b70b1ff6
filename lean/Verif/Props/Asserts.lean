import Verif.Proofs.UReserve
import Verif.Proofs.Exec
import Verif.Model.Sized
import Verif.Spec.Samples
import Verif.Props.Sized

/-!
# C62: misuse of the internal unsafe functions is caught in debug builds

The implementations offer unsafe functions that expect the caller to have checked the index and to have reserved room
(inner.rs:146–189). In a debug build they check this themselves, before anything is touched.
-/

namespace Verif
open Sample
section
variable {T : UTy} {A : ATy} {β : Type} [Inhabited β] {c : Cfg} {sz al : Nat}

omit [Inhabited β] in
private theorem stops {σ α : Type} {b : Bool} {p : Prop} [Decidable p] {f : Unit → Exec σ α} {s : σ} (hd : b = true) (h : ¬ p) :
    (Exec.debugAssert b p >>= f) s = .panic s := by
  subst hd
  exact Exec.bind_panic (Exec.debugAssert_neg h s)

/-- An assertion that fails makes the function panic, whatever follows; one that holds is passed. -/
private theorem stops_or {σ α : Type} {b : Bool} {p q : Prop} [Decidable p] {f : Unit → Exec σ α} {s : σ} (hd : b = true) (h : ¬ (p ∧ q))
    (hq : p → ¬ q → f () s = .panic s) : (Exec.debugAssert b p >>= f) s = .panic s := by
  by_cases hp : p
  · rw [Exec.debugAssert_bind hp]
    exact hq hp fun hq => h ⟨hp, hq⟩
  · exact stops hd hp

/-! ## Dynamically aligned elements -/

/-- There is room behind the padded contents for a record and `n` bytes of alignment `a`. -/
def UVec.HasRoom (v : UVec T β) (xs : List (Val T β)) (n a : Nat) : Prop :=
  xs.length < v.elemsCap ∧ totalWidth (padTo v.align) xs + n ≤ v.byteCap ∧ a ≤ v.align

/-- C62: `push_unchecked` without room. -/
theorem C62_push_unaligned {G : Prop} (hd : c.debug = true) {v : UVec T β} {xs : List (Val T β)} (h : v.Represents G c xs) {x : Val T β}
    (hr : ¬ v.HasRoom xs x.size x.align) : UVec.pushUnchecked c x v = .panic v := by
  unfold UVec.HasRoom at hr
  unfold UVec.pushUnchecked
  rw [Exec.get_bind]
  refine stops_or (q := totalWidth (padTo v.align) xs + x.size ≤ v.byteCap ∧ x.align ≤ v.align) hd ?_ fun _ hr => ?_
  · rintro ⟨h1, h2⟩
    rw [h.len_eq] at h1
    exact hr ⟨by omega, h2⟩
  · rw [Exec.orUb_bind (UVec.alignedByteLen_eq h)]
    exact stops_or hd hr fun _ hr => stops hd hr

/-- C62: `insert_unchecked` without room, or out of range. The bytes are those of the padded value, which are supposed to fit into the
address space. -/
theorem C62_insert_unaligned {G : Prop} (hd : c.debug = true) {v : UVec T β} {xs : List (Val T β)} (h : v.Represents G c xs) {x : Val T β}
    (hx : x.WF c) (hp : padTo v.align x.size ≤ c.isizeMax) {i : Nat} (hr : ¬ (i ≤ xs.length ∧ v.HasRoom xs (padTo v.align x.size) x.align)) :
    UVec.insertUnchecked c i x v = .panic v := by
  have hs : x.size ≤ c.isizeMax := Nat.le_trans (Nat.le_add_right _ _) hx.size_le
  unfold UVec.HasRoom at hr
  unfold UVec.insertUnchecked
  rw [Exec.get_bind]
  refine stops_or (q := xs.length < v.elemsCap ∧ totalWidth (padTo v.align) xs + padTo v.align x.size ≤ v.byteCap ∧ x.align ≤ v.align) hd ?_
    fun _ hr => ?_
  · rw [h.len_eq]; exact hr
  refine stops_or (q := totalWidth (padTo v.align) xs + padTo v.align x.size ≤ v.byteCap ∧ x.align ≤ v.align) hd ?_ fun _ hr => ?_
  · rw [h.len_eq]; exact hr
  rw [Exec.orUb_bind (VSU.uncheckedPadTo_eq h.al hs hp), Exec.orUb_bind (UVec.alignedByteLen_eq h)]
  exact stops_or hd hr fun _ hr => stops hd hr

/-- C62: `pop_into_unchecked` on an empty vector, in any state. -/
theorem C62_pop_unaligned (hd : c.debug = true) {v : UVec T β} (h : v.len = 0) (env : Env (Val T β)) :
    UVec.popIntoUnchecked c env v = .panic v := by
  unfold UVec.popIntoUnchecked
  rw [Exec.get_bind]
  exact stops hd fun hn => hn (List.length_eq_zero_iff.1 h)

/-- C62: `remove_into_unchecked` out of range, in any state. -/
theorem C62_remove_unaligned (hd : c.debug = true) {v : UVec T β} {i : Nat} (h : v.len ≤ i) (env : Env (Val T β)) :
    UVec.removeIntoUnchecked c env i v = .panic v := by
  unfold UVec.removeIntoUnchecked
  rw [Exec.get_bind]
  exact stops hd (Nat.not_lt.2 h)

omit [Inhabited β] in
/-- C62: the elements are moved apart only if there are two of them and the alignment is raised, together only if it is lowered. -/
theorem C62_realign (hd : c.debug = true) {v : UVec T β} {a : Nat} :
    (¬ (1 < v.len ∧ v.align < a) → UVec.realignUp c a v = .panic v) ∧ (¬ (1 < v.len ∧ a < v.align) → UVec.realignDown c a v = .panic v) := by
  constructor <;> intro h
  · unfold UVec.realignUp
    rw [Exec.get_bind]
    exact stops hd h
  · unfold UVec.realignDown
    rw [Exec.get_bind]
    exact stops hd h

/-! ## Statically aligned elements -/

/-- There is room for a record and `n` bytes. -/
def AVec.HasRoom (v : AVec A β) (xs : List (Val A.ty β)) (n : Nat) : Prop :=
  xs.length < v.elemsCap ∧ totalWidth id xs + n ≤ v.byteCap

omit [Inhabited β] in
private theorem size_le (hA : A.Fits c) {x : Val A.ty β} (hx : x.WF c) : x.size ≤ VS.max c A.ALIGN := by
  have h := hA.room x.md hx.align_dvd hx.size_le
  unfold VS.max
  show A.ty.sizeOf x.md ≤ _
  omega

theorem C62_push_aligned (hd : c.debug = true) (hA : A.Fits c) {v : AVec A β} {xs : List (Val A.ty β)} (h : v.Holds c xs)
    {x : Val A.ty β} (hx : x.WF c) (hr : ¬ v.HasRoom xs x.size) : AVec.pushUnchecked c x v = .panic v := by
  unfold AVec.HasRoom at hr
  unfold AVec.pushUnchecked
  rw [Exec.get_bind, Exec.orUb_bind (VS.newUnchecked_eq (size_le hA hx))]
  refine stops_or (q := totalWidth id xs + x.size ≤ v.byteCap) hd ?_ fun _ hr => ?_
  · rintro ⟨h1, h2⟩
    rw [AVec.len, h.length] at h1
    exact hr ⟨by omega, h2⟩
  · rw [AVec.byteLen_eq h]
    exact stops hd hr

theorem C62_insert_aligned_partial (hd : c.debug = true) (hA : A.Fits c) {v : AVec A β} {xs : List (Val A.ty β)} (h : v.Holds c xs)
    {x : Val A.ty β} (hx : x.WF c) (i : Nat) (hr : ¬ v.HasRoom xs x.size) : AVec.insertUnchecked c i x v = .panic v := by
  unfold AVec.HasRoom at hr
  unfold AVec.insertUnchecked
  rw [Exec.get_bind, Exec.orUb_bind (VS.newUnchecked_eq (size_le hA hx))]
  refine stops_or (q := totalWidth id xs + x.size ≤ v.byteCap) hd ?_ fun _ hr => ?_
  · rintro ⟨h1, h2⟩
    rw [AVec.len, h.length] at h1
    exact hr ⟨h1, h2⟩
  · rw [AVec.byteLen_eq h]
    exact stops hd hr

/-- C62 fails: the index is not checked. If there is room, an index out of range is undefined behaviour also in a debug build. -/
theorem C62_insert_aligned_index (hA : A.Fits c) {v : AVec A β} {xs : List (Val A.ty β)} (h : v.Holds c xs) {x : Val A.ty β}
    (hx : x.WF c) {i : Nat} (hi : xs.length < i) (hr : v.HasRoom xs x.size) : AVec.insertUnchecked c i x v = .ub := by
  have hs : v.startOffset i = none := by
    unfold AVec.startOffset
    cases i with
    | zero => omega
    | succ j =>
      have : v.elems[j]? = none := List.getElem?_eq_none (by rw [h.length]; omega)
      simp only [this]
  unfold AVec.insertUnchecked
  rw [Exec.get_bind, Exec.orUb_bind (VS.newUnchecked_eq (size_le hA hx)), Exec.debugAssert_bind (by rw [AVec.len, h.length]; exact hr.1),
    AVec.byteLen_eq h, Exec.debugAssert_bind hr.2, Exec.orUb_bind_none hs]

theorem C62_pop_aligned (hd : c.debug = true) {v : AVec A β} (h : v.len = 0) (env : Env (Val A.ty β)) :
    AVec.popIntoUnchecked c env v = .panic v := by
  unfold AVec.popIntoUnchecked
  rw [Exec.get_bind]
  exact stops hd fun hn => hn (List.length_eq_zero_iff.1 h)

theorem C62_remove_aligned (hd : c.debug = true) {v : AVec A β} {i : Nat} (h : v.len ≤ i) (env : Env (Val A.ty β)) :
    AVec.removeIntoUnchecked c env i v = .panic v := by
  unfold AVec.removeIntoUnchecked
  rw [Exec.get_bind]
  exact stops hd (Nat.not_lt.2 h)

/-! ## Sized elements, in any state -/

omit [Inhabited β] in
theorem C62_push_sized (hd : c.debug = true) {v : SVec sz al β} (x : Val (sizedTy sz al) β) (h : v.capacity c ≤ v.len) :
    SVec.pushUnchecked c x v = .panic v := by
  unfold SVec.pushUnchecked
  rw [Exec.get_bind]
  exact stops hd (by omega)

omit [Inhabited β] in
theorem C62_insert_sized_partial (hd : c.debug = true) {v : SVec sz al β} (i : Nat) (x : Val (sizedTy sz al) β) (h : v.capacity c ≤ v.len) :
    SVec.insertUnchecked c i x v = .panic v := by
  unfold SVec.insertUnchecked
  rw [Exec.get_bind]
  exact stops hd (by omega)

omit [Inhabited β] in
/-- C62 fails: the index is not checked. -/
theorem C62_insert_sized_index {v : SVec sz al β} {i : Nat} (x : Val (sizedTy sz al) β) (hi : v.len < i) (h : v.len < v.capacity c) :
    SVec.insertUnchecked c i x v = .ub := by
  unfold SVec.insertUnchecked
  rw [Exec.get_bind, Exec.debugAssert_bind h, Exec.orUb_bind_none (by unfold uncheckedSub; rw [if_neg (by omega)])]

omit [Inhabited β] in
theorem C62_pop_sized (hd : c.debug = true) {v : SVec sz al β} (h : v.len = 0) (env : Env (Val (sizedTy sz al) β)) :
    SVec.popIntoUnchecked c env v = .panic v := by
  unfold SVec.popIntoUnchecked
  rw [Exec.get_bind]
  exact stops hd fun hn => hn h

omit [Inhabited β] in
theorem C62_remove_sized (hd : c.debug = true) {v : SVec sz al β} {i : Nat} (h : v.len ≤ i) (env : Env (Val (sizedTy sz al) β)) :
    SVec.removeIntoUnchecked c env i v = .panic v := by
  unfold SVec.removeIntoUnchecked
  rw [Exec.get_bind]
  exact stops hd (Nat.not_lt.2 h)

end

/-! ## The hypotheses are met -/

/-- `vecU` has room for eight bytes; `vecA` has room for four. -/
example : vecU.Holds c64d listU ∧ vecU.HasRoom listU 8 8 ∧ ¬ vecU.HasRoom listU 9 1 ∧ ¬ vecU.HasRoom listU 0 16 :=
  ⟨vecU_holds _ (.inr rfl), by unfold UVec.HasRoom; decide, by unfold UVec.HasRoom; decide, by unfold UVec.HasRoom; decide⟩
example : vecA.Holds c64d listA ∧ vecA.HasRoom listA 4 ∧ ¬ vecA.HasRoom listA 5 :=
  ⟨vecA_holds _ (.inr rfl), by unfold AVec.HasRoom; decide, by unfold AVec.HasRoom; decide⟩
example : vecP.len = 3 ∧ vecP.capacity c64d = 5 := by decide

/-- C62 fails: `insert_unchecked` with an index out of range is undefined behaviour in a debug build. -/
theorem C62_counterexample : c64d.debug = true ∧ vecA.Holds c64d listA ∧ AVec.insertUnchecked c64d 7 (bytes [1]) vecA = .ub ∧
    SVec.insertUnchecked c64d 4 ⟨(), [1, 2]⟩ vecP = .ub :=
  ⟨rfl, vecA_holds _ (.inr rfl), rfl, rfl⟩

/-- The dynamically aligned implementation does check it. -/
example : UVec.insertUnchecked c64d 7 (dyn 1 [1]) vecU = .panic vecU :=
  C62_insert_unaligned rfl (vecU_holds _ (.inr rfl)) (dyn_wf 0 _ (by decide) (by decide) (by decide) _ (.inr rfl)) (by decide)
    (fun h => absurd h.1 (by decide))

end Verif
