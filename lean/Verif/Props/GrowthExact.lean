import Verif.Proofs.GrowthExact
import Verif.Props.Insert
import Verif.Props.Reserve
import Verif.Props.Growth

/-!
# C14, C15, C17: what happens where the properties fail

The failures of C14, C15 and C17 are not exceptional. `push_with` and `insert_with` enlarge the byte capacity by the size of the value
every time, however much room there is; so do the exact reservations. In a debug build the amortised `try_reserve…` methods never return
`Err` for lack of bytes: they panic.
-/

namespace Verif
open Sample

section
variable {T : UTy} {A : ATy} {β σ : Type} [Inhabited β] {c : Cfg}

/-! ## C15 -/

/-- C15 fails for every non-empty value: whenever `push_with` adds a value, the byte capacity has grown by at least the size of the
value, and the storage has been reallocated, whether or not there was room. Statically aligned elements. -/
theorem C15_pushWith_aligned_grows (hA : A.Fits c) {v : AVec A β} {xs : List (Val A.ty β)} (h : v.Holds c xs)
    {env : Env (Val A.ty β)} (hv : env.Valid) {e : Emplacable σ A.ty β} {s s' : σ} (hs : e.Sound c s) {v' : AVec A β}
    (hr : Api.pushWithRun (alignedP c A) env e (s, v) = .ok () (s', v')) :
    ∃ x : Val A.ty β, e.Runs s x (.ok () s') ∧ v.byteCap + x.size ≤ v'.byteCap ∧ (0 < x.size → v'.heap.block ≠ v.heap.block) ∧
      (env.Exact → v'.byteCap = v.byteCap + x.size) := by
  have key := run_meets (e := e) (m := Api.pushWith (alignedP c A) env) (t := v) (P := fun _ _ => True) (A := fun _ => True)
    (Before := fun _ => True) (After := fun x v' => AVec.Grown env v v' x.size) hs trivial
    (fun st s1 hst => (AVec.pushWith_meets hA h hv (hs.metaOk st s1 hst)).mono
      (fun _ _ h => h.mono (fun _ _ => trivial) (fun _ _ h => h.2.2)) (fun _ _ => trivial) (fun _ => trivial))
  unfold Api.pushWithRun at hr
  rw [hr] at key
  obtain ⟨x, _, h1, h2⟩ := key
  exact ⟨x, h1, h2.le, h2.fresh, h2.exact⟩

/-- C15 fails for `insert_with` in the same way. -/
theorem C15_insertWith_aligned_grows (hA : A.Fits c) {v : AVec A β} {xs : List (Val A.ty β)} (h : v.Holds c xs)
    {env : Env (Val A.ty β)} (hv : env.Valid) {e : Emplacable σ A.ty β} {s s' : σ} (hs : e.Sound c s) {i : Nat}
    (hi : i ≤ xs.length) {v' : AVec A β} (hr : Api.insertWithRun (alignedP c A) env i e (s, v) = .ok () (s', v')) :
    ∃ x : Val A.ty β, e.Runs s x (.ok () s') ∧ v.byteCap + x.size ≤ v'.byteCap ∧ (0 < x.size → v'.heap.block ≠ v.heap.block) ∧
      (env.Exact → v'.byteCap = v.byteCap + x.size) := by
  have key := run_meets (e := e) (m := (alignedP c A).insertWithUnchecked env i) (t := v) (P := fun _ _ => True) (A := fun _ => True)
    (Before := fun _ => True) (After := fun x v' => AVec.Grown env v v' x.size) hs trivial
    (fun st s1 hst => (AVec.insertWith_meets hA h hv (hs.metaOk st s1 hst) i hi).mono
      (fun _ _ h => h.mono (fun _ _ => trivial) (fun _ _ h => h.2.2)) (fun _ _ => trivial) (fun _ => trivial))
  unfold Api.insertWithRun at hr
  rw [Exec.get_bind, Exec.guardedAssert_bind (by rw [(AVec.implF hA).len_eq h]; exact hi)] at hr
  rw [hr] at key
  obtain ⟨x, _, h1, h2⟩ := key
  exact ⟨x, h1, h2.le, h2.fresh, h2.exact⟩

omit [Inhabited β] in
/-- The new byte capacity, if there is anything to store: what was asked for; without a larger alignment, the old one and the padded size. -/
theorem UVec.Grown.exact {env : Env (Val T β)} {v v' : UVec T β} {xs : List (Val T β)} {n al : Nat} (hg : UVec.Grown env v v' xs n al)
    (h : v.Holds c xs) (he : env.Exact) (hn : 0 < n) :
    v'.byteCap = (UVec.request v xs n al).size ∧ (al ≤ v.align → v'.byteCap = v.byteCap + padTo v.align n) := by
  have h1 := hg.le
  have h2 : v'.byteCap = (UVec.request v xs n al).size := (hg.tight he).resolve_left (by omega)
  refine ⟨h2, fun hal => ?_⟩
  have hd := h.capDvd trivial
  rw [h2]
  show padTo (max v.align al) (padTo (max v.align al) (v.byteCap + (totalWidth (padTo (max v.align al)) xs - totalWidth (padTo v.align) xs)) + n) = _
  rw [Nat.max_eq_left hal, Nat.sub_self, Nat.add_zero, padTo_of_dvd h.al.pos hd, padTo_add h.al.pos hd]

/-- C15 fails for `push_with` in the same way, dynamically aligned elements The new byte capacity is
what was asked for, for a value that is not empty. -/
theorem C15_pushWith_unaligned_grows {v : UVec T β} {xs : List (Val T β)} (h : v.Holds c xs)
    {env : Env (Val T β)} (hv : env.Valid) (he : env.Exact) {e : Emplacable σ T β} {s s' : σ} (hs : e.Sound c s)
    (hz : ∀ md s1, e.Announces s md s1 → v.ZstOk (T.sizeOf md) (T.alignOf md)) {v' : UVec T β}
    (hr : Api.pushWithRun (unalignedP c T) env e (s, v) = .ok () (s', v')) :
    ∃ x : Val T β, e.Runs s x (.ok () s') ∧ v.byteCap + x.size ≤ v'.byteCap ∧ (0 < x.size → v'.heap.block ≠ v.heap.block) ∧
      (0 < x.size → v'.byteCap = (UVec.request v xs x.size x.align).size ∧ (x.align ≤ v.align → v'.byteCap = v.byteCap + padTo v.align x.size)) := by
  have key := run_meets (e := e) (m := Api.pushWith (unalignedP c T) env) (t := v) (P := fun _ _ => True) (A := fun _ => True)
    (Before := fun _ => True) (After := fun x v' => UVec.Grown env v v' xs x.size x.align) hs trivial
    (fun st s1 hst => (UVec.pushWith_meets h hv (fun _ => he) (hs.metaOk st s1 hst) (hz _ s1 ⟨st, hst, rfl⟩)).mono
      (fun _ _ h => h.mono (fun _ _ => trivial) (fun _ _ h => h.2.2.2)) (fun _ _ => trivial) (fun _ => trivial))
  unfold Api.pushWithRun at hr
  rw [hr] at key
  obtain ⟨x, _, h1, h2⟩ := key
  exact ⟨x, h1, h2.le, h2.fresh, h2.exact h he⟩

/-- C15 fails for `insert_with` in the same way, dynamically aligned elements. -/
theorem C15_insertWith_unaligned_grows {v : UVec T β} {xs : List (Val T β)} (h : v.Holds c xs)
    {env : Env (Val T β)} (hv : env.Valid) (he : env.Exact) {e : Emplacable σ T β} {s s' : σ} (hs : e.Sound c s)
    (hz : ∀ md s1, e.Announces s md s1 → v.ZstOk (T.sizeOf md) (T.alignOf md)) {i : Nat} (hi : i ≤ xs.length)
    (hg : ∀ md s1, e.Announces s md s1 → UVec.InsertOk xs i (max v.align (T.alignOf md))) {v' : UVec T β}
    (hr : Api.insertWithRun (unalignedP c T) env i e (s, v) = .ok () (s', v')) :
    ∃ x : Val T β, e.Runs s x (.ok () s') ∧ v.byteCap + x.size ≤ v'.byteCap ∧ (0 < x.size → v'.heap.block ≠ v.heap.block) ∧
      (0 < x.size → v'.byteCap = (UVec.request v xs x.size x.align).size ∧ (x.align ≤ v.align → v'.byteCap = v.byteCap + padTo v.align x.size)) := by
  have key := run_meets (e := e) (m := (unalignedP c T).insertWithUnchecked env i) (t := v) (P := fun _ _ => True) (A := fun _ => True)
    (Before := fun _ => True) (After := fun x v' => UVec.Grown env v v' xs x.size x.align) hs trivial
    (fun st s1 hst => (UVec.insertWith_meets h hv (fun _ => he) (hs.metaOk st s1 hst) (hz _ s1 ⟨st, hst, rfl⟩) i hi (hg _ s1 ⟨st, hst, rfl⟩)).mono
      (fun _ _ h => h.mono (fun _ _ => trivial) (fun _ _ h => h.2.2)) (fun _ _ => trivial) (fun _ => trivial))
  unfold Api.insertWithRun at hr
  rw [Exec.get_bind, Exec.guardedAssert_bind (by rw [(UVec.impl True c T).len_eq h]; exact hi)] at hr
  rw [hr] at key
  obtain ⟨x, _, h1, h2⟩ := key
  exact ⟨x, h1, h2.le, h2.fresh, h2.exact h he⟩

/-! ## C17 -/

/-- C17 fails for every request of bytes: whenever `try_reserve_exact_capacity_bytes_align(n, b, al)` returns `Ok`, the byte capacity
has grown by at least `b`, whether or not there was room. Statically aligned elements. -/
theorem C17_exact_aligned_grows (hA : A.Fits c) {v : AVec A β} {xs : List (Val A.ty β)} (h : v.Holds c xs)
    {env : Env (Val A.ty β)} (hv : env.Valid) (n b : Nat) {al : Nat} (hal : IsAlign c al) {v' : AVec A β}
    (hr : Reservation.attempt c (alignedP c A) env (.exactCapBytesAlign n b al) v = .ok (.ok ()) v') :
    v'.Holds c xs ∧ v.byteCap + b ≤ v'.byteCap :=
  (AVec.implF hA).exact_grows (fun _ _ _ => Nat.le_refl _) h hv n b hal hr

/-- C17 fails in the same way for dynamically aligned elements. -/
theorem C17_exact_unaligned_grows {v : UVec T β} {xs : List (Val T β)} (h : v.Holds c xs)
    {env : Env (Val T β)} (hv : env.Valid) (he : env.Exact) (n b : Nat) {al : Nat} (hal : IsAlign c al) {v' : UVec T β}
    (hr : Reservation.attempt c (unalignedP c T) env (.exactCapBytesAlign n b al) v = .ok (.ok ()) v') :
    v'.Holds c xs ∧ v.byteCap + b ≤ v'.byteCap :=
  (UVec.impl True c T).exact_grows UVec.width_mono h ⟨hv, (fun _ => he)⟩ n b hal hr

/-- Hence the exact family can fail although there is room for what is asked: if capacity and request together exceed `isize::MAX`, it
always returns `Err`. Statically aligned elements. -/
theorem C17_exact_aligned_err (hA : A.Fits c) {v : AVec A β} {xs : List (Val A.ty β)} (h : v.Holds c xs)
    {env : Env (Val A.ty β)} (hv : env.Valid) (n b : Nat) {al : Nat} (hal : IsAlign c al) (hb : c.isizeMax < v.byteCap + b) :
    ∃ e v', Reservation.attempt c (alignedP c A) env (.exactCapBytesAlign n b al) v = .ok (.error e) v' := by
  obtain ⟨r, v', h1, _⟩ := C14_try_aligned_partial hA h hv (.exactCapBytesAlign n b al) hal (.inr id)
  cases r with
  | error e => exact ⟨e, v', h1⟩
  | ok u =>
    obtain ⟨h2, h3⟩ := C17_exact_aligned_grows hA h hv n b hal h1
    have h4 := h2.capMax
    have : VS.max c A.ALIGN ≤ c.isizeMax := Nat.sub_le _ _
    omega

/-- The same for dynamically aligned elements. -/
theorem C17_exact_unaligned_err {v : UVec T β} {xs : List (Val T β)} (h : v.Holds c xs)
    {env : Env (Val T β)} (hv : env.Valid) (he : env.Exact) (n b : Nat) {al : Nat} (hal : IsAlign c al)
    (hb : c.isizeMax < v.byteCap + b) :
    ∃ e v', Reservation.attempt c (unalignedP c T) env (.exactCapBytesAlign n b al) v = .ok (.error e) v' := by
  obtain ⟨r, v', h1, _⟩ := C14_try_unaligned_partial h hv (fun _ => he) (.exactCapBytesAlign n b al) hal (.inr id)
  cases r with
  | error e => exact ⟨e, v', h1⟩
  | ok u =>
    obtain ⟨h2, h3⟩ := C17_exact_unaligned_grows h hv he n b hal h1
    have h4 := h2.capMax
    omega

/-! ## C14 -/

/-- C14 fails in debug builds for every request that lacks bytes: `try_reserve_capacity_bytes_align` then returns `Ok` or panics, but
never `Err`. Statically aligned elements. -/
theorem C14_debug_noErr_aligned (hd : c.debug = true) (hA : A.Fits c) {v : AVec A β} {xs : List (Val A.ty β)} (h : v.Holds c xs)
    {env : Env (Val A.ty β)} (hv : env.Valid) {n b al : Nat} (hal : IsAlign c al) (hn : xs.length + n ≤ v.elemsCap)
    (hb : v.byteCap < totalWidth id xs + b) :
    (∃ v', Reservation.attempt c (alignedP c A) env (.capBytesAlign n b al) v = .ok (.ok ()) v') ∨
      Reservation.attempt c (alignedP c A) env (.capBytesAlign n b al) v = .panic v :=
  (AVec.implF hA).tryReserve_noErr hd h hv hal hn hb

/-- The same for dynamically aligned elements. -/
theorem C14_debug_noErr_unaligned (hd : c.debug = true) {v : UVec T β} {xs : List (Val T β)} (h : v.Holds c xs)
    {env : Env (Val T β)} (hv : env.Valid) (he : env.Exact) {n b al : Nat} (hal : IsAlign c al) (hn : xs.length + n ≤ v.elemsCap)
    (hb : v.byteCap < totalWidth (padTo v.align) xs + b) :
    (∃ v', Reservation.attempt c (unalignedP c T) env (.capBytesAlign n b al) v = .ok (.ok ()) v') ∨
      Reservation.attempt c (unalignedP c T) env (.capBytesAlign n b al) v = .panic v :=
  (UVec.impl True c T).tryReserve_noErr hd h ⟨hv, (fun _ => he)⟩ hal hn hb

/-- In particular every request that exceeds `isize::MAX` panics in a debug build. Statically aligned elements. -/
theorem C14_debug_panics_aligned (hd : c.debug = true) (hA : A.Fits c) {v : AVec A β} {xs : List (Val A.ty β)} (h : v.Holds c xs)
    {env : Env (Val A.ty β)} (hv : env.Valid) {n b al : Nat} (hal : IsAlign c al) (hn : xs.length + n ≤ v.elemsCap)
    (hb : c.isizeMax < totalWidth id xs + b) :
    Reservation.attempt c (alignedP c A) env (.capBytesAlign n b al) v = .panic v := by
  have h4 := h.capMax
  have : VS.max c A.ALIGN ≤ c.isizeMax := Nat.sub_le _ _
  rcases C14_debug_noErr_aligned (b := b) hd hA h hv hal hn (by omega) with ⟨v', h1⟩ | h1
  · have key := attempt_aligned hA h hv (.capBytesAlign n b al) hal
    rw [h1] at key
    rcases key with ⟨_, h2⟩ | ⟨e, h2, _⟩
    · have h3 : totalWidth id xs + b ≤ v'.byteCap := h2.room
      have := (show v'.Holds c xs from h2.holds).capMax
      omega
    · cases h2
  · exact h1

/-- The same for dynamically aligned elements. -/
theorem C14_debug_panics_unaligned (hd : c.debug = true) {v : UVec T β} {xs : List (Val T β)} (h : v.Holds c xs)
    {env : Env (Val T β)} (hv : env.Valid) (he : env.Exact) {n b al : Nat} (hal : IsAlign c al) (hn : xs.length + n ≤ v.elemsCap)
    (hb : c.isizeMax < totalWidth (padTo v.align) xs + b) :
    Reservation.attempt c (unalignedP c T) env (.capBytesAlign n b al) v = .panic v := by
  have h4 := h.capMax
  rcases C14_debug_noErr_unaligned (b := b) hd h hv he hal hn (by omega) with ⟨v', h1⟩ | h1
  · have key := attempt_unaligned h hv (fun _ => he) (.capBytesAlign n b al) hal
    rw [h1] at key
    rcases key with ⟨_, h2⟩ | ⟨e, h2, _⟩
    · have h5 : v'.Holds c xs := h2.holds
      have h3 : totalWidth (padTo v'.align) xs + b ≤ v'.byteCap := h2.room
      have h6 := totalWidth_mono_align h.al.pos h5.al.pos (h.al.dvd_of_le h5.al h2.alignMono) xs
      have := h5.capMax
      omega
    · cases h2
  · exact h1

end

/-- The hypotheses can be met, with room to spare: `vecU` has 8 spare bytes and `vecA` has 4. -/
example : vecU.Holds c64d listU ∧ vecA.Holds c64d listA ∧ listU.length + 1 ≤ vecU.elemsCap ∧ listA.length + 1 ≤ vecA.elemsCap ∧
    totalWidth (padTo vecU.align) listU + 8 ≤ vecU.byteCap ∧ totalWidth id listA + 4 ≤ vecA.byteCap ∧
    c64d.isizeMax < totalWidth (padTo vecU.align) listU + 2 ^ 63 ∧ c64d.isizeMax < totalWidth id listA + 2 ^ 63 :=
  ⟨vecU_holds _ (.inr rfl), vecA_holds _ (.inr rfl), by decide, by decide, by decide, by decide, by decide, by decide⟩

/-- The capacity of `vecU` goes from 24 to 32 for a value of 4 bytes, for which there was room. -/
example : ∃ v', Api.pushWithRun (unalignedP c64 Dyn) env (given env (dyn 4 [1, 2, 3, 4])) ([], vecU) = .ok () ([], v') ∧
    vecU.byteCap = 24 ∧ v'.byteCap = 32 := ⟨_, rfl, rfl, rfl⟩

example : ∃ v', Api.insertWithRun (alignedP c64 Bytes) env 1 (given env (bytes [7, 8])) ([], vecA) = .ok () ([], v') ∧
    vecA.byteCap = 10 ∧ v'.byteCap = 12 := ⟨_, rfl, rfl, rfl⟩

end Verif
