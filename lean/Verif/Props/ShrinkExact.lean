import Verif.Proofs.ShrinkExact
import Verif.Props.Shrink

/-!
# C18 and C20: what shrinking does outside the covered cases
-/

namespace Verif
open Sample

section
variable {T : UTy} {β : Type} [Inhabited β] {c : Cfg}

/-! ## C18 -/

/-- C18, what really happens to a vector of two elements when its alignment is lowered: no byte is moved, but the second element
is from now on looked up where the *new* alignment would place it. So, unless the two places agree (`ShrinkOk`), its first bytes are
the former padding behind the first element. -/
theorem C18_shrink_unaligned_two {v : UVec T β} {x y : Val T β} (h : v.Holds c [x, y]) {env : Env (Val T β)} (hv : env.Valid)
    (he : env.Exact) (hi : env.infoShrink = true) (s : Shrinking) (hs : IsAlign c (s.align c))
    (hlow : v.shrunkAlign [x, y] (s.align c) < v.align) (hpos : 0 < x.size)
    (hg : env.alloc ⟨max (min (s.bytes c) v.byteCap) (padTo (v.shrunkAlign [x, y] (s.align c)) (padTo v.align x.size + y.size)),
      v.shrunkAlign [x, y] (s.align c)⟩ ≠ none) :
    ∃ v', s.run c (unalignedP c T) env v = .ok () v' ∧ v'.align = v.shrunkAlign [x, y] (s.align c) ∧
      v.observe c = some [x, ⟨y.md, (List.range y.size).map (fun i => v.heap.mem (padTo v.align x.size + i))⟩] ∧
      v'.observe c = some [x, ⟨y.md, (List.range y.size).map (fun i => v.heap.mem (padTo v'.align x.size + i))⟩] := by
  obtain ⟨⟨p, e⟩, hg⟩ := Option.ne_none_iff_exists'.1 hg
  have ha := UVec.shrunkAlign_isAlign h hs
  have hd := ha.dvd_of_le h.al (UVec.shrunkAlign_le h (s.align c))
  have helem : ∀ z ∈ [x, y], z.align ∣ v.shrunkAlign [x, y] (s.align c) := by
    intro z hz
    have h1 := UVec.le_maxAlign hz
    exact IsAlign.dvd_of_le (h.wf z hz).align_pow ha (by unfold UVec.shrunkAlign; omega)
  rw [s.run_unaligned env hs]
  refine ⟨_, UVec.shrinkTo_two h he hi _ _ hs hlow hpos hg, rfl, ?_, ?_⟩
  · rw [h.observe_eq]
    have hm := h.mem.2.1
    have hl := (h.wf y (by simp)).bytes_len
    have : y.bytes = (List.range y.size).map (fun i => v.heap.mem (padTo v.align x.size + i)) := by
      refine List.ext_getElem (by simp [hl]) (fun i h1 h2 => ?_)
      have := hm i h1
      simp only [Nat.zero_add] at this
      simp [this]
    rw [← this]
  · refine UVec.cut_observe h _ ha (hv _ _ _ ha.pos hg).2 (helem x (by simp)) (helem y (by simp)) hd ?_
    have := le_padTo ha.pos (padTo v.align x.size + y.size)
    omega

/-! ## C20 -/

/-- C20 fails on every vector whose byte capacity is not a multiple of its alignment and which gets an element that fits without
its padding but not with it (`RoomOk`, the condition of `C01_push_unaligned_stored_partial`): `push` accepts it, afterwards
`byte_len()` exceeds `byte_capacity()`, and one further `push` is undefined behaviour. -/
theorem C20_push_unaligned_overfull {v : UVec T β} {xs : List (Val T β)} (h : v.Stores c xs) (env env' : Env (Val T β)) {x : Val T β}
    (hx : x.WF c) (hal : x.align ∣ v.align) (hrec : xs.length + 2 ≤ v.elemsCap) (hbad : ¬ v.RoomOk xs x.size) :
    ∃ v', Api.push c (unalignedP c T) env x v = .ok () v' ∧ v'.byteCap = v.byteCap ∧
      (∃ n, v'.alignedByteLen c = some n ∧ v'.byteCap < n) ∧
      ∀ y : Val T β, y.WF c → Api.push c (unalignedP c T) env' y v' = .ub := by
  have hroom : totalWidth (padTo v.align) xs + x.size ≤ v.byteCap := Nat.le_of_not_lt fun h1 => hbad (.inr (.inr h1))
  have hpad : v.byteCap < totalWidth (padTo v.align) xs + padTo v.align x.size := Nat.lt_of_not_le fun h1 => hbad (.inr (.inl h1))
  have hlt := padTo_lt h.al.pos x.size
  have hmx := h.room
  have hl := UVec.pushed_byteLen h (x := x) (by omega)
  refine ⟨UVec.pushed v xs x, UVec.push_stores h env hx hal (by omega) hroom, rfl, ⟨_, hl, hpad⟩, fun y hy => ?_⟩
  refine UVec.push_overfull hl hpad env' hy ?_
  show (infosFrom id (padTo v.align) 0 (xs ++ [x])).length < v.elemsCap
  rw [infosFrom_length]
  simp
  omega

/-- C20 fails after every shrink (that keeps the contents and that the allocator grants) to a byte capacity that is not a multiple of the
alignment, with room for two more element records: an element that exactly fills the rest of the capacity is accepted,
and the push after that is undefined behaviour. -/
theorem C20_shrink_unaligned_overfull {v : UVec T β} {xs : List (Val T β)} (h : v.Holds c xs) {env : Env (Val T β)}
    (hv : env.Valid) (he : env.Exact) (hi : env.infoShrink = true) (s : Shrinking) (hs : IsAlign c (s.align c))
    (hok : v.ShrinkOk xs (s.align c)) (hcap : ¬ v.CapOk xs (s.bytes c) (s.align c))
    (hgrant : env.alloc ⟨v.shrunkCap xs (s.bytes c) (s.align c), v.shrunkAlign xs (s.align c)⟩ ≠ none)
    (h1 : xs.length + 2 ≤ v.elemsCap) (h2 : xs.length + 2 ≤ s.slots) {x y : Val T β} (hx : x.WF c) (hy : y.WF c)
    (hal : x.align ∣ v.shrunkAlign xs (s.align c))
    (hsize : totalWidth (padTo (v.shrunkAlign xs (s.align c))) xs + x.size = v.shrunkCap xs (s.bytes c) (s.align c)) :
    (∃ v' n, (do s.run c (unalignedP c T) env; Api.push c (unalignedP c T) env x) v = .ok () v' ∧
      v'.alignedByteLen c = some n ∧ v'.byteCap < n) ∧
    (do s.run c (unalignedP c T) env; Api.push c (unalignedP c T) env x; Api.push c (unalignedP c T) env y) v = .ub := by
  have hm := UVec.shrinkTo_meets h hv s.slots (s.bytes c) hs hok
  rw [← s.run_unaligned env hs] at hm
  obtain ⟨w, hw, hsh⟩ : ∃ w, s.run c (unalignedP c T) env v = .ok () w ∧ UVec.Shrunk c env v w xs s.slots (s.bytes c) (s.align c) := by
    cases hr : s.run c (unalignedP c T) env v with
    | ok u w => rw [hr] at hm; exact ⟨w, rfl, hm⟩
    | panic w => rw [hr] at hm; exact hm.elim
    | abort => rw [hr] at hm; have := hm.1; rw [hi] at this; exact absurd this (by decide)
    | ub => rw [hr] at hm; exact hm.elim
  obtain ⟨_, hbc, hba⟩ := hsh.size.resolve_left fun hn => hgrant hn.2.2
  have hbc := hbc he
  have hle := UVec.shrunkAlign_le h (s.align c)
  have hia := UVec.shrunkAlign_isAlign h hs
  have hd := hia.dvd_of_le h.al hle
  have htw := dvd_totalWidth (a := v.shrunkAlign xs (s.align c)) xs
  have hnd : ¬ v.shrunkAlign xs (s.align c) ∣ x.size := fun hdx => hcap (by
    show v.shrunkAlign xs (s.align c) ∣ v.shrunkCap xs (s.bytes c) (s.align c)
    rw [← hsize]
    exact Nat.dvd_add htw hdx)
  have hlt : x.size < padTo (v.shrunkAlign xs (s.align c)) x.size := by
    have h3 := le_padTo hia.pos x.size
    have h4 : padTo (v.shrunkAlign xs (s.align c)) x.size ≠ x.size := fun h5 => hnd (h5 ▸ dvd_padTo _ _)
    omega
  obtain ⟨w', hw', _, ⟨n, hn, hn'⟩, hub⟩ := C20_push_unaligned_overfull hsh.stores env env hx (by rw [hba]; exact hal)
    (by rw [hsh.elemsCap]; omega) (by
      unfold UVec.RoomOk
      rw [hbc, hba]
      rintro (h5 | h5 | h5)
      · exact hcap h5
      · omega
      · omega)
  refine ⟨⟨w', n, ?_, hn, hn'⟩, ?_⟩
  · rw [Exec.bind_ok hw, hw']
  · rw [Exec.bind_ok hw, Exec.bind_ok hw', hub y hy]

end

/-- A vector with alignment 8 whose first element of one byte is followed by 7 bytes of padding (which contain 99). -/
def vecGap : UVec Dyn Nat where
  ptr := 65536
  byteCap := 16
  elems := [⟨(1, 1), 1⟩, ⟨(2, 1), 10⟩]
  elemsCap := 4
  align := 8
  heap := ⟨fun i => [1, 99, 99, 99, 99, 99, 99, 99, 2, 3].getD i 0, some ⟨65536, 16, 16, 8⟩, 0⟩
  drops := []

theorem vecGap_holds : vecGap.Holds c64 [dyn 1 [1], dyn 1 [2, 3]] := by
  refine ⟨?_, ⟨3, by decide, rfl⟩, by decide, by decide, by decide, by decide, by decide,
    by decide, by refine ⟨?_, ?_, trivial⟩ <;> decide, by refine ⟨?_, ?_, ?_, ?_, ?_, ?_, ?_⟩ <;> decide, rfl⟩
  intro x hx
  simp only [List.mem_cons, List.not_mem_nil, or_false] at hx
  rcases hx with rfl | rfl
  · exact dyn_wf 0 _ (by decide) (by decide) (by decide) _ (.inl rfl)
  · exact dyn_wf 0 _ (by decide) (by decide) (by decide) _ (.inl rfl)

/-- The hypotheses of `C18_shrink_unaligned_two` can be met … -/
example : vecGap.shrunkAlign [dyn 1 [1], dyn 1 [2, 3]] (Shrinking.toFit.align c64) < vecGap.align ∧ (env : Env (Val Dyn Nat)).infoShrink = true ∧
    (env : Env (Val Dyn Nat)).alloc ⟨10, 1⟩ ≠ none := by decide

/-- … and `shrink_to_fit` replaces the elements `[1]`, `[2, 3]` by `[1]`, `[99, 99]`. -/
example : seen (Shrinking.toFit.run c64 (unalignedP c64 Dyn) env vecGap) = some [dyn 1 [1], dyn 1 [99, 99]] := by decide

/-- With four elements of one byte, `shrink_to_fit` is undefined behaviour: the computed size of the last one is negative. -/
theorem C18_counterexample_ub :
    isUb ((do
      Api.push c64 (unalignedP c64 Dyn) env (dyn 1 [1])
      Api.push c64 (unalignedP c64 Dyn) env (dyn 1 [2])
      Api.push c64 (unalignedP c64 Dyn) env (dyn 1 [3])
      Api.push c64 (unalignedP c64 Dyn) env (dyn 1 [4])
      Api.shrinkToFit (unalignedP c64 Dyn) env) (UVec.newAlignPtr c64)) = true := by decide

/-- A vector of two elements with room for four records. -/
example : ∃ x y : Val Dyn Nat, x.WF c64 ∧ y.WF c64 ∧ ¬ vecS.CapOk listS ((Shrinking.capBytes 9 21).bytes c64) ((Shrinking.capBytes 9 21).align c64) ∧
    vecS.ShrinkOk listS ((Shrinking.capBytes 9 21).align c64) ∧ listS.length + 2 ≤ vecS.elemsCap ∧
    x.align ∣ vecS.shrunkAlign listS ((Shrinking.capBytes 9 21).align c64) ∧
    totalWidth (padTo (vecS.shrunkAlign listS ((Shrinking.capBytes 9 21).align c64))) listS + x.size =
      vecS.shrunkCap listS ((Shrinking.capBytes 9 21).bytes c64) ((Shrinking.capBytes 9 21).align c64) :=
  ⟨dyn 1 [1, 2, 3, 4, 5], dyn 1 [1], dyn_wf 0 _ (by decide) (by decide) (by decide) _ (.inl rfl),
    dyn_wf 0 _ (by decide) (by decide) (by decide) _ (.inl rfl), by unfold UVec.CapOk; decide, by unfold UVec.ShrinkOk; decide, by decide,
    by decide, by decide⟩


end Verif
