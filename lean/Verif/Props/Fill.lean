import Verif.Props.Sized
import Verif.Props.Growth
import Verif.Props.History
import Verif.Proofs.Inversion

/-!
# C56: reserve once, then push

After room for `n` elements of together `b` bytes has been reserved, `n` such elements are pushed one after the other and none of the
calls has to ask the allocator. This is what reservations are for (src/lib.rs:164–198; `test_capacity_growth` and src/bin/stress.rs
check two cases).
-/

namespace Verif
open Sample

section
variable {V : Type} {T : UTy} {A : ATy} {β : Type} {c : Cfg}

/-- Push one value after the other; each call meets its own environment. -/
def pushEach (c : Cfg) (P : Provider V T β) : List (Env (Val T β) × Val T β) → Exec V Unit
  | [] => pure ()
  | (env, x) :: rest => do
    Api.push c P env x
    pushEach c P rest

variable [Inhabited β]

/-- C15 for any number of pushes, statically aligned elements: as long as the elements and their bytes fit into the capacities, all calls
return, whatever the allocator would answer, and the storage stays where it is. -/
theorem C15_fill_aligned (hA : A.Fits c) : ∀ {ys : List (Env (Val A.ty β) × Val A.ty β)} {v : AVec A β} {xs : List (Val A.ty β)},
    v.Holds c xs → (∀ y ∈ ys, y.2.WF c) → xs.length + ys.length ≤ v.elemsCap →
    totalWidth id xs + totalWidth id (ys.map Prod.snd) ≤ v.byteCap →
    ∃ v', pushEach c (alignedP c A) ys v = .ok () v' ∧ v'.Holds c (xs ++ ys.map (A.stored ∘ Prod.snd)) ∧ v'.drops = v.drops ∧
      v'.elemsCap = v.elemsCap ∧ v'.byteCap = v.byteCap ∧ v'.ptr = v.ptr ∧ v'.heap.block = v.heap.block
  | [], v, xs, h, _, _, _ => ⟨v, rfl, by rw [List.map_nil, List.append_nil]; exact h, rfl, rfl, rfl, rfl, rfl⟩
  | (env, x) :: ys, v, xs, h, hw, h1, h2 => by
    rw [List.length_cons] at h1
    rw [List.map_cons, totalWidth_cons] at h2
    have hx : x.WF c := hw (env, x) (by simp)
    obtain ⟨v1, hp, _, g1, g2, g3, g4, _, g6⟩ := (AVec.implF hA).push_idle h env hx (show xs.length + 1 ≤ v.elemsCap by omega)
      (show totalWidth id xs + x.size ≤ v.byteCap by dsimp only [id] at h2; omega) trivial trivial
    have g3 : v1.elemsCap = v.elemsCap := g3
    have g4 : v1.byteCap = v.byteCap := g4
    obtain ⟨v', k1, k2, k3, k4, k5, k6, k7⟩ := C15_fill_aligned hA (ys := ys) g1 (fun y hy => hw y (by simp [hy]))
      (by rw [List.length_append, List.length_singleton, g3]; omega)
      (by
        have hs : (A.stored x).size = x.size := AVec.stored_size hA x
        show totalWidth id (xs ++ [A.stored x]) + _ ≤ _
        rw [totalWidth_append, totalWidth_cons, totalWidth_nil, g4, hs]
        dsimp only [id] at h2 ⊢
        omega)
    refine ⟨v', ?_, ?_, k3.trans g2, k4.trans g3, k5.trans g4, k6.trans (congrArg Prod.fst g6), k7.trans (congrArg Prod.snd g6)⟩
    · show ((Api.push c (alignedP c A) env x) >>= fun _ => pushEach c (alignedP c A) ys) v = _
      rw [Exec.bind_ok hp]; exact k1
    · rw [List.append_assoc] at k2; exact k2

/-- C15 for any number of pushes, dynamically aligned elements. The sizes count with the padding behind each element. -/
theorem C15_fill_unaligned {G : Prop} : ∀ {ys : List (Env (Val T β) × Val T β)} {v : UVec T β} {xs : List (Val T β)},
    v.Represents G c xs → (∀ y ∈ ys, y.2.WF c ∧ y.2.align ≤ v.align) → xs.length + ys.length ≤ v.elemsCap →
    totalWidth (padTo v.align) xs + totalWidth (padTo v.align) (ys.map Prod.snd) ≤ v.byteCap →
    ∃ v', pushEach c (unalignedP c T) ys v = .ok () v' ∧ v'.Represents G c (xs ++ ys.map Prod.snd) ∧ v'.drops = v.drops ∧
      v'.elemsCap = v.elemsCap ∧ v'.byteCap = v.byteCap ∧ v'.align = v.align ∧ v'.ptr = v.ptr ∧ v'.heap.block = v.heap.block
  | [], v, xs, h, _, _, _ => ⟨v, rfl, by rw [List.map_nil, List.append_nil]; exact h, rfl, rfl, rfl, rfl, rfl, rfl⟩
  | (env, x) :: ys, v, xs, h, hw, h1, h2 => by
    rw [List.length_cons] at h1
    rw [List.map_cons, totalWidth_cons] at h2
    have hl := le_padTo h.al.pos x.size
    obtain ⟨hx, ha⟩ : x.WF c ∧ x.align ≤ v.align := hw (env, x) (by simp)
    obtain ⟨v1, hp, _, g1, g2, g3, g4, g5, g6⟩ := (UVec.impl G c T).push_idle h env hx
      (show xs.length + 1 ≤ v.elemsCap by omega) (show totalWidth (padTo v.align) xs + x.size ≤ v.byteCap by dsimp only at h2; omega)
      ha (.inr (.inl (by dsimp only at h2; omega)))
    have g3 : v1.elemsCap = v.elemsCap := g3
    have g4 : v1.byteCap = v.byteCap := g4
    have g5 : v1.align = v.align := g5
    obtain ⟨v', k1, k2, k3, k4, k5, k6, k7, k8⟩ := C15_fill_unaligned (ys := ys) (show v1.Represents G c (xs ++ [x]) from g1)
      (fun y hy => by rw [g5]; exact hw y (by simp [hy]))
      (by rw [List.length_append, List.length_singleton, g3]; omega)
      (by
        rw [totalWidth_append, totalWidth_cons, totalWidth_nil, g4, g5]
        dsimp only at h2 ⊢
        omega)
    refine ⟨v', ?_, ?_, k3.trans g2, k4.trans g3, k5.trans g4, k6.trans g5, k7.trans (congrArg Prod.fst g6), k8.trans (congrArg Prod.snd g6)⟩
    · show ((Api.push c (unalignedP c T) env x) >>= fun _ => pushEach c (unalignedP c T) ys) v = _
      rw [Exec.bind_ok hp]; exact k1
    · rw [List.append_assoc] at k2; exact k2

/-- C15 for any number of pushes, sized elements (of at least one byte). -/
theorem C15_fill_sized {sz al : Nat} (hz : 0 < sz) : ∀ {ys : List (Env (Val (sizedTy sz al) β) × Val (sizedTy sz al) β)} {v : SVec sz al β}
    {xs : List (Val (sizedTy sz al) β)}, v.Holds c xs → (∀ y ∈ ys, y.2.WF c) → xs.length + ys.length ≤ v.capacity c →
    ∃ v', pushEach c (sizedP c sz al) ys v = .ok () v' ∧ v'.Holds c (xs ++ ys.map Prod.snd) ∧ v'.capacity c = v.capacity c ∧
      v'.allocs = v.allocs
  | [], v, xs, h, _, _ => ⟨v, rfl, by rw [List.map_nil, List.append_nil]; exact h, rfl, rfl⟩
  | (env, x) :: ys, v, xs, h, hw, h1 => by
    rw [List.length_cons] at h1
    have hx : x.WF c := hw (env, x) (by simp)
    obtain ⟨v1, hp, g1, g2, g3⟩ := C15_push_sized_partial h hz env hx (by omega)
    obtain ⟨v', k1, k2, k3, k4⟩ := C15_fill_sized hz (ys := ys) g1 (fun y hy => hw y (by simp [hy]))
      (by rw [List.length_append, List.length_singleton, g2]; omega)
    refine ⟨v', ?_, ?_, k3.trans g2, k4.trans g3⟩
    · show ((Api.push c (sizedP c sz al) env x) >>= fun _ => pushEach c (sizedP c sz al) ys) v = _
      rw [Exec.bind_ok hp]; exact k1
    · rw [List.append_assoc] at k2; exact k2

/-! ## C56 -/

/-- C56, statically aligned elements: if a reservation returns, then up to as many elements as asked for, with up to as many bytes as
asked for, can be pushed without the allocator: all calls return, and the storage stays where the reservation has put it. -/
theorem C56_aligned (hA : A.Fits c) {v v1 : AVec A β} {xs : List (Val A.ty β)} (h : v.Holds c xs) {env : Env (Val A.ty β)}
    (hv : env.Valid) {q : Reservation} (hal : IsAlign c q.align) (hr : q.run c (alignedP c A) env v = .ok () v1)
    {ys : List (Env (Val A.ty β) × Val A.ty β)} (hw : ∀ y ∈ ys, y.2.WF c) (hn : ys.length ≤ q.slots)
    (hb : totalWidth id (ys.map Prod.snd) ≤ q.bytes) :
    ∃ v', pushEach c (alignedP c A) ys v1 = .ok () v' ∧ v'.Holds c (xs ++ ys.map (A.stored ∘ Prod.snd)) ∧ v'.drops = v.drops ∧
      v'.elemsCap = v1.elemsCap ∧ v'.byteCap = v1.byteCap ∧ v'.ptr = v1.ptr ∧ v'.heap.block = v1.heap.block := by
  have key := C12_run_aligned hA h hv q hal
  rw [hr] at key
  obtain ⟨h1, h2, h3, len, cap, h4, h5, h6⟩ := key
  rw [(AVec.implF hA).byteLen_eq h1] at h4
  rw [(AVec.implF hA).byteCap_eq] at h5
  cases h4
  cases h5
  have h3 : v1.elems.length + q.slots ≤ v1.elemsCap := h3
  have h6 : totalWidth id xs + q.bytes ≤ v1.byteCap := h6
  have h7 : v1.elems.length = xs.length := (AVec.implF hA).len_eq h1
  obtain ⟨v', g1, g2, g3, g4⟩ := C15_fill_aligned hA h1 hw (by omega) (by omega)
  exact ⟨v', g1, g2, g3.trans h2, g4⟩

/-- C56, dynamically aligned elements. Partial: the bytes asked for must cover the padding behind the elements
(`C56_counterexample`), and the alignment must be one that the vector has after the reservation (see C12). -/
theorem C56_unaligned_partial {G : Prop} {v v1 : UVec T β} {xs : List (Val T β)} (h : v.Represents G c xs) {env : Env (Val T β)}
    (hv : env.Valid) (he : G → env.Exact) {q : Reservation} (hal : IsAlign c q.align) (hr : q.run c (unalignedP c T) env v = .ok () v1)
    {ys : List (Env (Val T β) × Val T β)} (hw : ∀ y ∈ ys, y.2.WF c ∧ y.2.align ≤ v1.align) (hn : ys.length ≤ q.slots)
    (hb : totalWidth (padTo v1.align) (ys.map Prod.snd) ≤ q.bytes) :
    ∃ v', pushEach c (unalignedP c T) ys v1 = .ok () v' ∧ v'.Represents G c (xs ++ ys.map Prod.snd) ∧ v'.drops = v.drops ∧
      v'.elemsCap = v1.elemsCap ∧ v'.byteCap = v1.byteCap ∧ v'.align = v1.align ∧ v'.ptr = v1.ptr ∧ v'.heap.block = v1.heap.block := by
  have key := C12_run_unaligned_partial h hv he q hal
  rw [hr] at key
  obtain ⟨h1, h2, ⟨h3, len, cap, h4, h5, h6⟩, _⟩ := key
  rw [(UVec.impl G c T).byteLen_eq h1] at h4
  rw [(UVec.impl G c T).byteCap_eq] at h5
  cases h4
  cases h5
  have h3 : v1.elems.length + q.slots ≤ v1.elemsCap := h3
  have h6 : totalWidth (padTo v1.align) xs + q.bytes ≤ v1.byteCap := h6
  have h7 : v1.elems.length = xs.length := (UVec.impl G c T).len_eq h1
  obtain ⟨v', g1, g2, g3, g4⟩ := C15_fill_unaligned h1 hw (by omega) (by omega)
  exact ⟨v', g1, g2, g3.trans h2, g4⟩

/-- C56 fails of dynamically aligned elements whenever the bytes reserved do not cover the padding: if the elements fit without, but not
with it, then pushing them has made the storage grow. -/
theorem C56_unaligned_grows : ∀ {ys : List (Env (Val T β) × Val T β)} {v v' : UVec T β} {xs : List (Val T β)}, v.Holds c xs →
    (∀ y ∈ ys, (y.1.Valid ∧ y.1.Exact) ∧ y.2.WF c ∧ y.2.align ≤ v.align) → pushEach c (unalignedP c T) ys v = .ok () v' →
    v'.Holds c (xs ++ ys.map Prod.snd) ∧ v.byteCap ≤ v'.byteCap ∧
      (v.byteCap < totalWidth (padTo v.align) xs + totalWidth (padTo v.align) (ys.map Prod.snd) → v.byteCap < v'.byteCap)
  | [], v, v', xs, h, _, hr => by
    cases hr
    have := h.cap
    exact ⟨by rw [List.map_nil, List.append_nil]; exact h, Nat.le_refl _, fun h1 => by rw [List.map_nil, totalWidth_nil] at h1; omega⟩
  | (env, x) :: ys, v, v', xs, h, hw, hr => by
    obtain ⟨⟨hv, he⟩, hx, ha⟩ : (env.Valid ∧ env.Exact) ∧ x.WF c ∧ x.align ≤ v.align := hw (env, x) (by simp)
    obtain ⟨_, v1, h1, h2⟩ := Exec.bind_ok_inv
      (show ((Api.push c (unalignedP c T) env x) >>= fun _ => pushEach c (unalignedP c T) ys) v = .ok () v' from hr)
    have key := (UVec.impl True c T).push_meets h ⟨hv, fun _ => he⟩ hx (fun _ _ => ha) (fun _ => .inl (h.capDvd trivial))
    rw [h1] at key
    obtain ⟨k1, _, w, hE, _, k2, k3, _⟩ := key
    have k1 : v1.Holds c (xs ++ [x]) := k1
    have k2 : v1.byteCap = w.byteCap := k2
    have k3 : v1.align = w.align := k3
    have k4 : v.byteCap ≤ w.byteCap := hE.bytesMono
    have k5 : w.align = v.align := by
      rcases hE.alignCases with h3 | h3
      · exact h3.trans (Nat.max_eq_left ha)
      · exact h3
    have k6 : v1.align = v.align := k3.trans k5
    obtain ⟨g1, h5, g2⟩ := C56_unaligned_grows k1 (fun y hy => by rw [k6]; exact hw y (by simp [hy])) h2
    rw [List.append_assoc] at g1
    refine ⟨g1, by omega, fun h3 => ?_⟩
    rw [totalWidth_append, totalWidth_cons, totalWidth_nil, k6] at g2
    rw [List.map_cons, totalWidth_cons] at h3
    by_cases h4 : v.byteCap = v1.byteCap
    · rw [h4]; exact g2 (by rw [← h4]; dsimp only at h3 ⊢; omega)
    · omega

/-- C56, sized elements (of at least one byte): here only the number of elements counts. -/
theorem C56_sized_partial {sz al : Nat} (hz : 0 < sz) {v v1 : SVec sz al β} {xs : List (Val (sizedTy sz al) β)} (h : v.Holds c xs)
    {env : Env (Val (sizedTy sz al) β)} {q : Reservation} (hq : q.bytes ≤ c.usizeMax) (hr : q.run c (sizedP c sz al) env v = .ok () v1)
    {ys : List (Env (Val (sizedTy sz al) β) × Val (sizedTy sz al) β)} (hw : ∀ y ∈ ys, y.2.WF c) (hn : ys.length ≤ q.slots) :
    ∃ v', pushEach c (sizedP c sz al) ys v1 = .ok () v' ∧ v'.Holds c (xs ++ ys.map Prod.snd) ∧ v'.capacity c = v1.capacity c ∧
      v'.allocs = v1.allocs := by
  have key := C12_run_sized_partial h hz env q hq
  rw [hr] at key
  obtain ⟨h1, h2, ⟨h3, _⟩, _⟩ := key
  have h3 : v1.len + q.slots ≤ v1.capacity c := h3
  have h7 : v1.len = xs.length := h1.len
  exact C15_fill_sized hz h1 hw (by omega)

end

/-- C56 is false of dynamically aligned elements if the padding is not counted: room for three elements, three bytes and alignment 8 has been
reserved, and the second push of a single byte asks the allocator for more. -/
theorem C56_counterexample :
    ∃ v0 v1, Api.withCapacityBytesAlign (unalignedP c64 Dyn) env 3 3 8 = .ok () v0 ∧ v0.byteCap = 8 ∧ v0.elemsCap = 3 ∧ v0.align = 8 ∧
      Api.push c64 (unalignedP c64 Dyn) env (dyn 1 [1]) v0 = .ok () v1 ∧
      Api.push c64 (unalignedP c64 Dyn) envFull (dyn 1 [2]) v1 = .abort :=
  ⟨_, _, rfl, rfl, rfl, rfl, rfl, rfl⟩

/-- The hypotheses of the theorems are met: room for two more elements and 16 more bytes, then two pushes that would not get any memory. -/
example : ∃ v1, Reservation.run c64d (unalignedP c64d Dyn) env (.capBytesAlign 2 16 8) vecU = .ok () v1 ∧ v1.align = 8 ∧
    totalWidth (padTo v1.align) [dyn 1 [1], dyn 8 (List.range 8)] ≤ 16 ∧
    (Res.stateOr vecU (pushEach c64d (unalignedP c64d Dyn) [(envFull, dyn 1 [1]), (envFull, dyn 8 (List.range 8))] v1)).len = 4 := by
  refine ⟨_, rfl, rfl, by decide +kernel, by decide +kernel⟩

example : ∃ v1, Reservation.run c64d (alignedP c64d Bytes) env (.exactCapBytes 2 5) vecA = .ok () v1 ∧
    totalWidth id [bytes [1, 2, 3], bytes [4, 5]] ≤ 5 ∧
    (Res.stateOr vecA (pushEach c64d (alignedP c64d Bytes) [(envFull, bytes [1, 2, 3]), (envFull, bytes [4, 5])] v1)).len = 5 := by
  refine ⟨_, rfl, by decide +kernel, by decide +kernel⟩

end Verif
