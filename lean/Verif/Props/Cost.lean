import Verif.Proofs.CostSeq
import Verif.Proofs.ReserveInst
import Verif.Spec.Samples

/-!
# C68: what the calls cost

"Vectors have O(1) indexing, amortized O(1) push (to the end) and O(1) pop (from the end)" (src/lib.rs:4–5), "same time complexity as
`alloc::vec::Vec` for major operations (indexing, push, pop, insert, remove)" with an exception for elements whose alignment is not known
at compile time (README.md:11–13). Elements have different sizes here; what is constant for `Vec` is proportional to the size of the element.
-/

namespace Verif
open Sample

section
variable {T : UTy} {A : ATy} {β : Type} [Inhabited β] {c : Cfg} {sz al : Nat}

/-! ## Counting does not change what the calls do -/

/-- Programs do the same with and without the meter, dynamically aligned elements. -/
theorem C68_same_unaligned (ops : List (Env (Val T β) × Op T β)) (v : UVec T β) (n : Nat) :
    (runOps c (unalignedMetered c T) ops (v, n)).unmetered = runOps c (unalignedM c T) ops v :=
  ((unaligned_over T).runOps ops (v, n)).unmetered

/-- Programs do the same with and without the meter, statically aligned elements. -/
theorem C68_same_aligned (ops : List (Env (Val A.ty β) × Op A.ty β)) (v : AVec A β) (n : Nat) :
    (runOps c (alignedMetered c A) ops (v, n)).unmetered = runOps c (alignedM c A) ops v :=
  ((aligned_over A).runOps ops (v, n)).unmetered

omit [Inhabited β] in
/-- Programs do the same with and without the meter, sized elements. -/
theorem C68_same_sized (ops : List (Env (Val (sizedTy sz al) β) × Op (sizedTy sz al) β)) (v : SVec sz al β) (n : Nat) :
    (runOps c (sizedMetered c sz al) ops (v, n)).unmetered = runOps c (sizedM c sz al) ops v :=
  ((sized_over sz al).runOps ops (v, n)).unmetered

/-! ## Indexing -/

/-- Indexing, `get` and `len` copy nothing and have no loops, dynamically aligned elements. -/
theorem C68_index_unaligned (env : Env (Val T β)) (v : UVec T β) (i : Nat) :
    CostsAtMost c (unalignedMetered c T) env (.index i) v 0 ∧ CostsAtMost c (unalignedMetered c T) env (.get i) v 0 ∧
      CostsAtMost c (unalignedMetered c T) env .len v 0 :=
  ⟨(index_meters i).atMost (fun _ _ _ h => Nat.le_of_eq h) fun _ h => Nat.le_of_eq h,
    (get_meters i).atMost (fun _ _ _ h => Nat.le_of_eq h) fun _ h => Nat.le_of_eq h,
    len_meters.atMost (fun _ _ _ h => Nat.le_of_eq h) fun _ h => Nat.le_of_eq h⟩

/-- Indexing, `get` and `len` copy nothing and have no loops, statically aligned elements. -/
theorem C68_index_aligned (env : Env (Val A.ty β)) (v : AVec A β) (i : Nat) :
    CostsAtMost c (alignedMetered c A) env (.index i) v 0 ∧ CostsAtMost c (alignedMetered c A) env (.get i) v 0 ∧
      CostsAtMost c (alignedMetered c A) env .len v 0 :=
  ⟨(index_meters i).atMost (fun _ _ _ h => Nat.le_of_eq h) fun _ h => Nat.le_of_eq h,
    (get_meters i).atMost (fun _ _ _ h => Nat.le_of_eq h) fun _ h => Nat.le_of_eq h,
    len_meters.atMost (fun _ _ _ h => Nat.le_of_eq h) fun _ h => Nat.le_of_eq h⟩

/-! ## pop and remove -/

/-- `pop_into` copies at most the last element, whatever happens to it, dynamically aligned elements. -/
theorem C68_pop_unaligned {v : UVec T β} {xs : List (Val T β)} {x : Val T β} (h : v.Holds c (xs ++ [x])) (env : Env (Val T β)) (d : Dst) :
    CostsAtMost c (unalignedMetered c T) env (.pop d) v x.size :=
  (pop_meters d (UVec.Metered.popIntoUnchecked_meters env h)).atMost (fun _ _ _ h => h) fun _ h => h

/-- `pop_into` copies at most the last element, statically aligned elements. -/
theorem C68_pop_aligned {v : AVec A β} {xs : List (Val A.ty β)} {x : Val A.ty β} (h : v.Holds c (xs ++ [x])) (env : Env (Val A.ty β)) (d : Dst) :
    CostsAtMost c (alignedMetered c A) env (.pop d) v x.size :=
  (pop_meters d (AVec.Metered.popIntoUnchecked_meters env h)).atMost (fun _ _ _ h => h) fun _ h => h

/-- `remove_into` copies at most the element and everything behind, and visits the records behind twice, dynamically aligned elements. -/
theorem C68_remove_unaligned {v : UVec T β} {xs : List (Val T β)} (h : v.Holds c xs) (env : Env (Val T β)) (i : Nat) (d : Dst) :
    CostsAtMost c (unalignedMetered c T) env (.remove i d) v (totalWidth (padTo v.align) (xs.drop i) + 2 * (xs.length - i)) := by
  refine (remove_meters i d (B := totalWidth (padTo v.align) (xs.drop i) + 2 * (xs.length - i)) fun ⟨_, hi⟩ => ?_).atMost (fun _ _ _ h => h) fun _ h => h
  have hl : v.len = xs.length := by unfold UVec.len; rw [h.infos, infosFrom_length]
  have hi : i < xs.length := by have hi : i < v.len := hi; omega
  refine (UVec.Metered.removeIntoUnchecked_meters env h hi).mono ?_ fun _ h => h
  rintro st t k ⟨hk, he⟩
  have := le_padTo h.al.pos xs[i].size
  have e : totalWidth (padTo v.align) (xs.drop i) = padTo v.align xs[i].size + totalWidth (padTo v.align) (xs.drop (i + 1)) := by
    rw [List.drop_eq_getElem_cons hi, totalWidth_cons]
  exact ⟨hk, he.mono (by omega)⟩

/-- `remove_into` copies at most the element and everything behind, and visits the records behind twice, statically aligned elements. -/
theorem C68_remove_aligned {v : AVec A β} {xs : List (Val A.ty β)} (h : v.Holds c xs) (env : Env (Val A.ty β)) (i : Nat) (d : Dst) :
    CostsAtMost c (alignedMetered c A) env (.remove i d) v (totalWidth id (xs.drop i) + 2 * (xs.length - i)) := by
  refine (remove_meters i d (B := totalWidth id (xs.drop i) + 2 * (xs.length - i)) fun ⟨_, hi⟩ => ?_).atMost (fun _ _ _ h => h) fun _ h => h
  have hl : v.len = xs.length := by unfold AVec.len; rw [h.infos, infosFrom_length]
  have hi : i < xs.length := by have hi : i < v.len := hi; omega
  refine (AVec.Metered.removeIntoUnchecked_meters env h hi).mono ?_ fun _ h => h
  rintro st t k ⟨hk, he⟩
  have e : totalWidth id (xs.drop i) = id xs[i].size + totalWidth id (xs.drop (i + 1)) := by
    rw [List.drop_eq_getElem_cons hi, totalWidth_cons]
  exact ⟨hk, he.mono (by simp only [id] at e; omega)⟩

/-! ## push and insert -/

/-- `push` with room copies the element and writes one record, dynamically aligned elements. -/
theorem C68_push_room_unaligned {v : UVec T β} {xs : List (Val T β)} (h : v.Holds c xs) (env : Env (Val T β)) {x : Val T β} (hx : x.WF c)
    (h1 : xs.length < v.elemsCap) (h2 : x.size ≤ v.spare xs) (h3 : x.align ≤ v.align) :
    CostsAtMost c (unalignedMetered c T) env (.push x) v (x.size + 1) :=
  (UVec.Metered.push_room_meters h env hx h1 h2 h3).atMost (fun _ _ _ h => h) fun _ h => h

/-- `push` with room copies the element and writes one record, statically aligned elements. -/
theorem C68_push_room_aligned (hA : A.Fits c) {v : AVec A β} {xs : List (Val A.ty β)} (h : v.Holds c xs) (env : Env (Val A.ty β)) {x : Val A.ty β} (hx : x.WF c)
    (h1 : xs.length < v.elemsCap) (h2 : x.size ≤ v.spare xs) : CostsAtMost c (alignedMetered c A) env (.push x) v (x.size + 1) :=
  (AVec.Metered.push_room_meters hA h env hx h1 h2).atMost (fun _ _ _ h => h) fun _ h => h

/-- What raising the alignment of a vector that holds `xs` adds to the bounds: the exception of README.md:12–13. The records are visited at
most four times, and each element may be moved. -/
def raised (v : UVec T β) (xs : List (Val T β)) (x : Val T β) : Nat :=
  if v.align < x.align then 4 * xs.length + totalWidth id xs else 0

/-- The bounds in Proofs/CostUOps in terms of `raised`. -/
theorem raised_bound {v : UVec T β} {xs : List (Val T β)} (h : v.Holds c xs) {x : Val T β} (hx : IsAlign c x.align) :
    UVec.Metered.attempt v x.align + (if v.align < x.align then UVec.Metered.raising c v x.align else 0) ≤ raised v xs x := by
  have hl : v.len = xs.length := by unfold UVec.len; rw [h.infos, infosFrom_length]
  unfold UVec.Metered.attempt raised
  by_cases ha : v.align < x.align
  · have := UVec.Metered.raising_le h hx (Nat.le_of_lt ha)
    simp only [if_pos ha]
    omega
  · simp only [if_neg ha]
    omega

/-- `push` in any case, dynamically aligned elements: apart from the element, at most the storage and the records are copied, once, and
something is added only if the alignment has to be raised. -/
theorem C68_push_unaligned {v : UVec T β} {xs : List (Val T β)} (h : v.Holds c xs) (env : Env (Val T β)) {x : Val T β} (hx : x.WF c) :
    CostsAtMost c (unalignedMetered c T) env (.push x) v (x.size + 1 + v.elemsCap + v.byteCap + raised v xs x) := by
  have hb : x.bytes.length = x.size := hx.bytes_len
  have hr := raised_bound h hx.align_pow
  refine (UVec.Metered.push_meters env hx.align_pow v).atMost ?_ (fun _ h => by omega)
  rintro _ t d ⟨_, _, h3, _⟩
  have e1 : UVec.Metered.recordsMoved v t ≤ v.elemsCap := by unfold UVec.Metered.recordsMoved; split <;> omega
  have e2 : UVec.Metered.blockMoved c v t x.align ≤ v.byteCap + if v.align < x.align then UVec.Metered.raising c v x.align else 0 := by
    unfold UVec.Metered.blockMoved; split
    · omega
    · split <;> omega
  omega

/-- The exception is real: a `push` that raises the alignment copies the storage, visits the records three times and moves all elements but
the first. -/
theorem C68_push_raise_lower {v : UVec T β} {y z : Val T β} {ys : List (Val T β)} (h : v.Holds c (y :: z :: ys)) (env : Env (Val T β)) {x : Val T β} (hx : x.WF c)
    (ha : v.align < x.align) (h0 : 0 < v.byteCap) :
    CostsAtLeast c (unalignedMetered c T) env (.push x) v (x.size + 1 + v.byteCap + 3 * (ys.length + 2) + totalWidth id (z :: ys)) := by
  have hb : x.bytes.length = x.size := hx.bytes_len
  have hl : v.len = ys.length + 2 := by unfold UVec.len; rw [h.infos, infosFrom_length]; rfl
  refine (UVec.Metered.push_meters env hx.align_pow v).atLeast ?_
  rintro _ t d ⟨_, _, _, _, h4⟩
  obtain ⟨h5, h6⟩ := h4 h.al ha h0 (by omega)
  have := UVec.Metered.raising_ge h hx.align_pow (Nat.le_of_lt ha) h6
  rw [List.length_cons] at this
  omega

/-- Its hypotheses can be met; the meter shows 39, the bound itself. -/
example : vecU.Holds c64 (dyn 1 [1, 2, 3] :: dyn 8 [11, 12, 13, 14, 15, 16, 17, 18] :: []) ∧ (dyn (2 ^ 4) []).WF c64 ∧ vecU.align < (dyn (2 ^ 4) []).align ∧
    0 < vecU.byteCap ∧ ((Op.push (dyn (2 ^ 4) [])).exec c64 (unalignedMetered c64 Dyn) env (vecU, 0)).meter = some 39 :=
  ⟨vecU_holds _ (.inl rfl), dyn_wf 4 _ (by decide) (by decide) (by decide) _ (.inl rfl), by decide, by decide, by decide +kernel⟩

/-- `push` in any case, statically aligned elements. -/
theorem C68_push_aligned (env : Env (Val A.ty β)) (v : AVec A β) {x : Val A.ty β} (hx : x.WF c) :
    CostsAtMost c (alignedMetered c A) env (.push x) v (x.size + 1 + v.elemsCap + v.byteCap) := by
  have hb : x.bytes.length = x.size := hx.bytes_len
  refine (AVec.Metered.push_meters env x v).atMost ?_ (fun _ h => by omega)
  rintro _ t d ⟨_, _, h3⟩
  have e1 : AVec.Metered.recordsMoved v t ≤ v.elemsCap := by unfold AVec.Metered.recordsMoved; split <;> omega
  have e2 : AVec.Metered.blockMoved v t ≤ v.byteCap := by unfold AVec.Metered.blockMoved; split <;> omega
  omega

/-- `insert`, dynamically aligned elements: in addition, the bytes behind are moved once, and the records behind are visited twice. -/
theorem C68_insert_unaligned {v : UVec T β} {xs : List (Val T β)} (h : v.Holds c xs) {env : Env (Val T β)} (hv : env.Valid) (he : env.Exact)
    {x : Val T β} (hx : x.WF c) (i : Nat) :
    CostsAtMost c (unalignedMetered c T) env (.insert i x) v
      (x.size + 1 + v.elemsCap + v.byteCap + raised v xs x + totalWidth (padTo (max v.align x.align)) (xs.drop i) + 2 * (xs.length - i)) := by
  have hb : x.bytes.length = x.size := hx.bytes_len
  have hr := raised_bound h hx.align_pow
  exact (UVec.Metered.insert_meters h ⟨hv, fun _ => he⟩ hx.align_pow i).atMost (fun _ _ _ h => by omega) (fun _ h => by omega)

/-- `insert`, statically aligned elements. -/
theorem C68_insert_aligned (hA : A.Fits c) {v : AVec A β} {xs : List (Val A.ty β)} (h : v.Holds c xs) {env : Env (Val A.ty β)} (hv : env.Valid)
    {x : Val A.ty β} (hx : x.WF c) (i : Nat) :
    CostsAtMost c (alignedMetered c A) env (.insert i x) v
      (x.size + 1 + v.elemsCap + v.byteCap + totalWidth id (xs.drop i) + 2 * (xs.length - i)) := by
  have hb : x.bytes.length = x.size := hx.bytes_len
  exact (AVec.Metered.insert_meters hA h hv hx.align_pow i).atMost (fun _ _ _ h => by omega) (fun _ h => by omega)

/-- The hypotheses can be met, and the bounds are meaningful: the meter shows 4 and 8. -/
example : vecU.Holds c64 ([dyn 1 [1, 2, 3]] ++ [dyn 8 [11, 12, 13, 14, 15, 16, 17, 18]]) ∧ (dyn 1 [7, 8, 9]).WF c64 ∧
    listU.length < vecU.elemsCap ∧ (dyn 1 [7, 8, 9]).size ≤ vecU.spare listU ∧
    ((Op.push (dyn 1 [7, 8, 9])).exec c64 (unalignedMetered c64 Dyn) env (vecU, 0)).meter = some 4 ∧
    ((Op.pop .take).exec c64 (unalignedMetered c64 Dyn) env (vecU, 0)).meter = some 8 :=
  ⟨vecU_holds _ (.inl rfl), dyn_wf 0 _ (by decide) (by decide) (by decide) _ (.inl rfl), by decide, by decide, by decide +kernel, by decide +kernel⟩

/-- The same for statically aligned elements: the meter shows 4, 8 and 13. -/
example : Bytes.Fits c64 ∧ vecA.Holds c64 listA ∧ (bytes [7, 8, 9]).WF c64 ∧ listA.length < vecA.elemsCap ∧ (bytes [7, 8, 9]).size ≤ vecA.spare listA ∧
    ((Op.push (bytes [7, 8, 9])).exec c64 (alignedMetered c64 Bytes) env (vecA, 0)).meter = some 4 ∧
    ((Op.remove 1 .take).exec c64 (alignedMetered c64 Bytes) env (vecA, 0)).meter = some 8 ∧
    ((Op.insert 1 (bytes [7, 8, 9])).exec c64 (alignedMetered c64 Bytes) env (vecA, 0)).meter = some 13 :=
  ⟨(bytes_lawful _ (.inl rfl)).fits, vecA_holds _ (.inl rfl), bytes_wf _ (by decide) _ (.inl rfl), by decide, by decide, by decide +kernel, by decide +kernel, by decide +kernel⟩

/-! ## amortized push -/

/-- Pushing `xs` onto a new vector costs at most three times the bytes and records of `xs` (and 4), statically aligned elements. The
allocator grants exactly what it is asked for, and never fails; `elems_info` doubles its capacity, as `Vec` does. -/
theorem C68_pushes_aligned (hA : A.Lawful c) {env : Env (Val A.ty β)} (hv : env.Valid) (he : env.Exact)
    (hg : ∀ l, env.alloc l ≠ none) (hi : ∀ n, ∃ k, env.infoGrow n = .ok k ∧ n - 2 ≤ k ∧ k ≤ n + 4) {xs : List (Val A.ty β)}
    (hx : ∀ x ∈ xs, x.WF c) (hlen : 2 * xs.length ≤ c.infoMax) (hsize : 2 * totalWidth id xs ≤ VS.max c A.ALIGN) :
    ∃ v' n, runOps c (alignedMetered c A) (xs.map fun x => (env, .push x)) (AVec.new, 0) = .ok (xs.map fun _ => .done) (v', n) ∧
      v'.Holds c xs ∧ n ≤ 3 * totalWidth id xs + 3 * xs.length + 4 := AVec.pushes_cost hA hv he hg hi hx hlen hsize

/-- Pushing `xs` onto a new vector, dynamically aligned elements. Partial: the alignment of the elements must not exceed that of a new
vector (`align_of::<usize>()`), so that it is never raised. Sizes are counted rounded up to that alignment. -/
theorem C68_pushes_unaligned_partial (hu : IsAlign c c.usizeAlign) {env : Env (Val T β)} (hv : env.Valid) (he : env.Exact)
    (hg : ∀ l, env.alloc l ≠ none) (hi : ∀ n, ∃ k, env.infoGrow n = .ok k ∧ n - 2 ≤ k ∧ k ≤ n + 4) {xs : List (Val T β)}
    (hx : ∀ x ∈ xs, x.WF c ∧ x.align ≤ c.usizeAlign) (hlen : 2 * xs.length ≤ c.infoMax)
    (hsize : 2 * totalWidth (padTo c.usizeAlign) xs ≤ c.isizeMax) :
    ∃ v' n, runOps c (unalignedMetered c T) (xs.map fun x => (env, .push x)) (UVec.newAlignPtr c, 0) = .ok (xs.map fun _ => .done) (v', n) ∧
      v'.Holds c xs ∧ n ≤ 3 * totalWidth (padTo c.usizeAlign) xs + 3 * xs.length + 4 := UVec.pushes_cost hu hv he hg hi hx hlen hsize

/-- Pushing `xs` onto a new vector, dynamically aligned elements of any alignment: each time the alignment has to be raised, at most three
times the bytes and four times the records are added. Sizes are counted rounded up to the largest alignment. Partial: elements without
bytes must not have a larger alignment than a new vector, since it is not raised for them if there is no memory (`C12_counterexample`). -/
theorem C68_pushes_raising_partial (hu : IsAlign c c.usizeAlign) {env : Env (Val T β)} (hv : env.Valid) (he : env.Exact)
    (hg : ∀ l, env.alloc l ≠ none) (hi : ∀ n, ∃ k, env.infoGrow n = .ok k ∧ n - 2 ≤ k ∧ k ≤ n + 4) {xs : List (Val T β)}
    (hx : ∀ x ∈ xs, x.WF c ∧ (0 < x.size ∨ x.align ≤ c.usizeAlign)) (hlen : 2 * xs.length ≤ c.infoMax)
    (hsize : 2 * totalWidth (padTo (topAlign c.usizeAlign xs)) xs ≤ c.isizeMax) :
    ∃ v' n, runOps c (unalignedMetered c T) (xs.map fun x => (env, .push x)) (UVec.newAlignPtr c, 0) = .ok (xs.map fun _ => .done) (v', n) ∧
      v'.Holds c xs ∧ v'.align = topAlign c.usizeAlign xs ∧
      n ≤ 3 * totalWidth (padTo (topAlign c.usizeAlign xs)) xs + 3 * xs.length + 4 +
        raises c.usizeAlign xs * (3 * totalWidth (padTo (topAlign c.usizeAlign xs)) xs + 4 * xs.length) :=
  UVec.pushes_any_cost hu hv he hg hi hx hlen hsize

omit [Inhabited β] in
/-- The alignment is raised at most as often as the alignment of a new vector can be doubled without exceeding the largest alignment of an
element, however many elements there are. -/
theorem C68_raises {a m : Nat} (ha : IsAlign c a) {xs : List (Val T β)} (hx : ∀ x ∈ xs, x.WF c ∧ x.align ≤ m) (hm : a ≤ m) :
    a * 2 ^ raises a xs ≤ m :=
  Nat.le_trans (pow_raises ha fun x h => (hx x h).1.align_pow) (topAlign_le hm fun x h => (hx x h).2)

/-- An allocator with the growth of `Vec`: to twice the length, and to at least four. -/
def envDoubles {X : Type} : Env X := { (env : Env X) with infoGrow := fun n => .ok (max (n - 2) (4 - n)) }

/-- The hypotheses can be met, and the bound is meaningful: pushing three slices with 6 bytes costs 13. -/
example : (envDoubles : Env (Val Bytes.ty Nat)).Valid ∧ (envDoubles : Env (Val Bytes.ty Nat)).Exact ∧
    (∀ l, (envDoubles : Env (Val Bytes.ty Nat)).alloc l ≠ none) ∧
    (∀ n, ∃ k, (envDoubles : Env (Val Bytes.ty Nat)).infoGrow n = .ok k ∧ n - 2 ≤ k ∧ k ≤ n + 4) ∧ (∀ x ∈ listA, x.WF c64) ∧
    (runOps c64 (alignedMetered c64 Bytes) (listA.map fun x => (envDoubles, .push x)) (AVec.new, 0)).meter = some 13 :=
  ⟨env_valid (X := Val Bytes.ty Nat), env_exact (X := Val Bytes.ty Nat), fun _ => (by intro h; cases h), fun n => ⟨_, rfl, by omega, by omega⟩, (vecA_holds c64 (.inl rfl)).wf, by decide +kernel⟩

/-- The same for dynamically aligned elements: pushing 3 and 8 bytes costs 21. -/
example : IsAlign c64 c64.usizeAlign ∧ (∀ x ∈ listU, x.WF c64 ∧ x.align ≤ c64.usizeAlign) ∧ 2 * listU.length ≤ c64.infoMax ∧
    2 * totalWidth (padTo c64.usizeAlign) listU ≤ c64.isizeMax ∧
    (runOps c64 (unalignedMetered c64 Dyn) (listU.map fun x => (envDoubles, .push x)) (UVec.newAlignPtr c64, 0)).meter = some 21 :=
  ⟨⟨3, by decide, rfl⟩, fun x hx => ⟨(vecU_holds c64 (.inl rfl)).wf x hx, Nat.le_of_dvd (by decide) ((vecU_holds c64 (.inl rfl)).elemAl x hx)⟩, by decide, by decide, by decide +kernel⟩

/-- Elements that raise the alignment twice. -/
def rising : List (Val Dyn Nat) := [dyn 4 [1, 2, 3, 4], dyn 16 [1, 2, 3, 4, 5, 6, 7, 8, 9, 10, 11, 12, 13, 14, 15, 16], dyn 8 [1, 2, 3, 4, 5, 6, 7, 8], dyn 32 [1, 2, 3, 4, 5, 6, 7, 8, 9, 10, 11, 12, 13, 14, 15, 16, 17, 18, 19, 20, 21, 22, 23, 24, 25, 26, 27, 28, 29, 30, 31, 32]]

/-- The alignment grows from 8 by 16 to 32, twice, and not with the third element; pushing 60 bytes costs 202; the bound is 1200. -/
example : IsAlign c64 c64.usizeAlign ∧ (∀ x ∈ rising, x.WF c64 ∧ (0 < x.size ∨ x.align ≤ c64.usizeAlign)) ∧ 2 * rising.length ≤ c64.infoMax ∧
    2 * totalWidth (padTo (topAlign c64.usizeAlign rising)) rising ≤ c64.isizeMax ∧ topAlign c64.usizeAlign rising = 32 ∧ raises c64.usizeAlign rising = 2 ∧
    (runOps c64 (unalignedMetered c64 Dyn) (rising.map fun x => (envDoubles, .push x)) (UVec.newAlignPtr c64, 0)).meter = some 202 := by
  refine ⟨⟨3, by decide, rfl⟩, ?_, by decide, by decide, by decide, by decide, by decide +kernel⟩
  intro x hx
  simp only [rising, List.mem_cons, List.not_mem_nil, or_false] at hx
  rcases hx with rfl | rfl | rfl | rfl
  · exact ⟨dyn_wf 2 _ (by decide) (by decide) (by decide) _ (.inl rfl), by decide⟩
  · exact ⟨dyn_wf 4 _ (by decide) (by decide) (by decide) _ (.inl rfl), by decide⟩
  · exact ⟨dyn_wf 3 _ (by decide) (by decide) (by decide) _ (.inl rfl), by decide⟩
  · exact ⟨dyn_wf 5 _ (by decide) (by decide) (by decide) _ (.inl rfl), by decide⟩

/-! ## push_with -/

/-- `push_with` costs at most as much as `push`, dynamically aligned elements. -/
theorem C68_pushWith_unaligned {v : UVec T β} {xs : List (Val T β)} (h : v.Holds c xs) (env : Env (Val T β)) {x : Val T β} (hx : x.WF c) :
    CostsAtMost c (unalignedMetered c T) env (.pushWith (.value x)) v (x.size + 1 + v.elemsCap + v.byteCap + raised v xs x) := by
  have hb : x.bytes.length = x.size := hx.bytes_len
  have hr := raised_bound h hx.align_pow
  exact (UVec.Metered.pushWith_op_meters env hx.align_pow h.al).atMost (fun _ _ _ h => by have := h.2.2.2.2; omega) (fun _ h => by omega)

/-- `push_with` costs at most as much as `push`, statically aligned elements. -/
theorem C68_pushWith_aligned (env : Env (Val A.ty β)) (v : AVec A β) {x : Val A.ty β} (hx : x.WF c) :
    CostsAtMost c (alignedMetered c A) env (.pushWith (.value x)) v (x.size + 1 + v.elemsCap + v.byteCap) := by
  have hb : x.bytes.length = x.size := hx.bytes_len
  exact (AVec.Metered.pushWith_op_meters env x v).atMost (fun _ _ _ h => by have := h.2.2.2; omega) (fun _ h => by omega)

/-- But it costs that much every time: whenever it returns, it has copied the whole storage, even if there was room for the element. -/
theorem C68_pushWith_lower_unaligned {v : UVec T β} {xs : List (Val T β)} (h : v.Holds c xs) (env : Env (Val T β)) {x : Val T β} (hx : x.WF c)
    (h0 : 0 < x.size) : CostsAtLeast c (unalignedMetered c T) env (.pushWith (.value x)) v v.byteCap :=
  (UVec.Metered.pushWith_op_meters env hx.align_pow h.al).atLeast fun _ _ _ h => h.2.2.2.1 h0

/-- `push_with` copies the whole storage every time, statically aligned elements. -/
theorem C68_pushWith_lower_aligned (env : Env (Val A.ty β)) (v : AVec A β) {x : Val A.ty β} (h0 : 0 < x.size) :
    CostsAtLeast c (alignedMetered c A) env (.pushWith (.value x)) v v.byteCap :=
  (AVec.Metered.pushWith_op_meters env x v).atLeast fun _ _ _ h => h.2.2.1 h0

/-- So filling a vector with `push_with` takes quadratic time: if all values have at least `s` bytes, at least
`s · (1 + 2 + … + (n - 1))` bytes have been copied when all calls have returned. Dynamically aligned elements. -/
theorem C68_pushesWith_lower_unaligned {v : UVec T β} {ys : List (Val T β)} (h : v.Holds c ys) (env : Env (Val T β)) {xs : List (Val T β)} {s : Nat}
    (hs : 0 < s) (hx : ∀ x ∈ xs, x.WF c ∧ s ≤ x.size) {n k : Nat} {v' : UVec T β}
    (hr : runOps c (unalignedMetered c T) (xs.map fun x => (env, .pushWith (.value x))) (v, n) = .ok (xs.map fun _ => .done) (v', k)) :
    n + xs.length * (xs.length - 1) / 2 * s ≤ k := by
  have := runOps_copying (op := fun x => .pushWith (.value x)) (cap := UVec.byteCap) (J := fun v => IsAlign c v.align) (s := s) xs
    (fun v hv x hm => (UVec.Metered.pushWith_op_meters env (hx x hm).1.align_pow hv).mono
      (fun _ _ _ h => ⟨h.2.1, by have := h.2.2.1; have := (hx x hm).2; omega, h.2.2.2.1 (Nat.lt_of_lt_of_le hs (hx x hm).2)⟩) fun _ _ => trivial)
    v n v' k h.al hr
  rw [← below_eq]
  omega

/-- Filling a vector with `push_with` takes quadratic time, statically aligned elements. -/
theorem C68_pushesWith_lower_aligned (env : Env (Val A.ty β)) (v : AVec A β) {xs : List (Val A.ty β)} {s : Nat}
    (hs : 0 < s) (hx : ∀ x ∈ xs, s ≤ x.size) {n k : Nat} {v' : AVec A β}
    (hr : runOps c (alignedMetered c A) (xs.map fun x => (env, .pushWith (.value x))) (v, n) = .ok (xs.map fun _ => .done) (v', k)) :
    n + xs.length * (xs.length - 1) / 2 * s ≤ k := by
  have := runOps_copying (op := fun x => .pushWith (.value x)) (cap := AVec.byteCap) (J := fun _ => True) (s := s) xs
    (fun v _ x hm => (AVec.Metered.pushWith_op_meters env x v).mono
      (fun _ _ _ h => ⟨trivial, by have := h.2.1; have := hx x hm; omega, h.2.2.1 (Nat.lt_of_lt_of_le hs (hx x hm))⟩) fun _ _ => trivial)
    v n v' k trivial hr
  rw [← below_eq]
  omega

/-- C68 is false of `push_with`: with room for the element (four of ten bytes are unused), `push` costs 4, and `push_with` 14, ten of them
for the storage. Five `push_with` of one byte each cost 24: five bytes, five records, four for the growth of `elems_info`, and 1 + 2 + 3 + 4
for copying the storage. -/
theorem C68_counterexample :
    ((Op.push (bytes [7, 8, 9])).exec c64 (alignedMetered c64 Bytes) envDoubles (vecA, 0)).meter = some 4 ∧
    ((Op.pushWith (.value (bytes [7, 8, 9]))).exec c64 (alignedMetered c64 Bytes) envDoubles (vecA, 0)).meter = some 14 ∧
    (runOps c64 (alignedMetered c64 Bytes) ((List.replicate 5 (bytes [1])).map fun x => (envDoubles, .pushWith (.value x))) (AVec.new, 0)).meter = some 24 :=
  ⟨by decide +kernel, by decide +kernel, by decide +kernel⟩

end
end Verif
