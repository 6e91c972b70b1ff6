import Verif.Proofs.CostWith
import Verif.Props.CostSized

/-!
# C68: what `insert_with` and writing through a reference cost
-/

namespace Verif
open Sample

section
variable {T : UTy} {A : ATy} {β : Type} [Inhabited β] {c : Cfg} {sz al : Nat}

/-! ## insert_with -/

/-- `insert_with` has the bound of `insert`, dynamically aligned elements. -/
theorem C68_insertWith_unaligned {v : UVec T β} {xs : List (Val T β)} (h : v.Holds c xs) {env : Env (Val T β)} (hv : env.Valid) (he : env.Exact)
    {x : Val T β} (hx : x.WF c) (i : Nat) :
    CostsAtMost c (unalignedMetered c T) env (.insertWith i (.value x)) v
      (x.size + 1 + v.elemsCap + v.byteCap + raised v xs x + totalWidth (padTo (max v.align x.align)) (xs.drop i) + 2 * (xs.length - i)) := by
  have hb : x.bytes.length = x.size := hx.bytes_len
  have hr := raised_bound h hx.align_pow
  exact (UVec.Metered.insertWith_meters h ⟨hv, fun _ => he⟩ hx.align_pow i).atMost (fun _ _ _ h => by have := h.2; omega) (fun _ h => by omega)

/-- `insert_with` has the bound of `insert`, statically aligned elements. -/
theorem C68_insertWith_aligned {v : AVec A β} {xs : List (Val A.ty β)} (h : v.Holds c xs) (env : Env (Val A.ty β))
    {x : Val A.ty β} (hx : x.WF c) (i : Nat) :
    CostsAtMost c (alignedMetered c A) env (.insertWith i (.value x)) v
      (x.size + 1 + v.elemsCap + v.byteCap + totalWidth id (xs.drop i) + 2 * (xs.length - i)) := by
  have hb : x.bytes.length = x.size := hx.bytes_len
  exact (AVec.Metered.insertWith_meters env h i x).atMost (fun _ _ _ h => by have := h.2; omega) (fun _ h => by omega)

omit [Inhabited β] in
/-- `insert_with` has the bound of `insert`, sized elements. -/
theorem C68_insertWith_sized {v : SVec sz al β} {xs : List (Val (sizedTy sz al) β)} (h : v.Holds c xs) (env : Env (Val (sizedTy sz al) β))
    (i : Nat) {x : Val (sizedTy sz al) β} (hx : x.WF c) :
    CostsAtMost c (sizedMetered c sz al) env (.insertWith i (.value x)) v (sz + (xs.length - i) * sz + v.slots * sz) := by
  have hb : x.bytes.length = sz := hx.bytes_len
  have hl := h.len
  refine (SVec.Metered.insertWith_meters env i x v).atMost ?_ (fun _ h => by rw [hl] at h; omega)
  rintro _ t d rfl
  have := SVec.Metered.blockMoved_le v t
  rw [hl]
  omega

/-- But for unsized elements it costs that much every time: whenever it returns, it has copied the whole storage, even if there was room for
the element. Dynamically aligned elements. -/
theorem C68_insertWith_lower_unaligned {v : UVec T β} {xs : List (Val T β)} (h : v.Holds c xs) {env : Env (Val T β)} (hv : env.Valid) (he : env.Exact)
    {x : Val T β} (hx : x.WF c) (h0 : 0 < x.size) (i : Nat) :
    CostsAtLeast c (unalignedMetered c T) env (.insertWith i (.value x)) v v.byteCap :=
  (UVec.Metered.insertWith_meters h ⟨hv, fun _ => he⟩ hx.align_pow i).atLeast fun _ _ _ h => h.1 h0

/-- `insert_with` copies the whole storage every time, and then what is behind the place once more, statically aligned elements. -/
theorem C68_insertWith_lower_aligned {v : AVec A β} {xs : List (Val A.ty β)} (h : v.Holds c xs) (env : Env (Val A.ty β))
    {x : Val A.ty β} (h0 : 0 < x.size) (i : Nat) :
    CostsAtLeast c (alignedMetered c A) env (.insertWith i (.value x)) v (v.byteCap + totalWidth id (xs.drop i)) :=
  (AVec.Metered.insertWith_meters env h i x).atLeast fun _ _ _ h => h.1 h0

/-! ## Writing through a reference -/

/-- Writing to an element through `get_mut` copies what is written, and nothing else. -/
theorem C68_set_unaligned (env : Env (Val T β)) (v : UVec T β) (i : Nat) (bs : List β) :
    CostsAtMost c (unalignedMetered c T) env (.set i bs) v bs.length :=
  (set_meters i bs fun _ => .paying (n := bs.length) (Q := fun _ _ d => d ≤ bs.length) (E := fun d => d ≤ bs.length)
    (fun _ _ _ => Nat.le_refl _) fun _ _ => Nat.le_refl _).atMost (fun _ _ _ h => h) fun _ h => h

/-- The same for statically aligned elements. -/
theorem C68_set_aligned (env : Env (Val A.ty β)) (v : AVec A β) (i : Nat) (bs : List β) :
    CostsAtMost c (alignedMetered c A) env (.set i bs) v bs.length :=
  (set_meters i bs fun _ => .paying (n := bs.length) (Q := fun _ _ d => d ≤ bs.length) (E := fun d => d ≤ bs.length)
    (fun _ _ _ => Nat.le_refl _) fun _ _ => Nat.le_refl _).atMost (fun _ _ _ h => h) fun _ h => h

omit [Inhabited β] in
/-- The same for sized elements. -/
theorem C68_set_sized (env : Env (Val (sizedTy sz al) β)) (v : SVec sz al β) (i : Nat) (bs : List β) :
    CostsAtMost c (sizedMetered c sz al) env (.set i bs) v bs.length :=
  (set_meters i bs fun _ => .paying (n := bs.length) (Q := fun _ _ d => d ≤ bs.length) (E := fun d => d ≤ bs.length)
    (fun _ _ _ => Nat.le_refl _) fun _ _ => Nat.le_refl _).atMost (fun _ _ _ h => h) fun _ h => h

end

/-- The hypotheses can be met, and the lower bounds are meaningful: there is room for the element, `insert` costs 14, `insert_with` costs 38,
and the storage has 24 bytes. -/
example : vecU.Holds c64 listU ∧ (env : Env (Val Dyn Nat)).Valid ∧ (env : Env (Val Dyn Nat)).Exact ∧ (dyn 1 [7, 8, 9]).WF c64 ∧ 0 < (dyn 1 [7, 8, 9]).size ∧
    (dyn 1 [7, 8, 9]).size ≤ vecU.spare listU ∧ vecU.byteCap = 24 ∧
    ((Op.insert 1 (dyn 1 [7, 8, 9])).exec c64 (unalignedMetered c64 Dyn) env (vecU, 0)).meter = some 14 ∧
    ((Op.insertWith 1 (.value (dyn 1 [7, 8, 9]))).exec c64 (unalignedMetered c64 Dyn) env (vecU, 0)).meter = some 38 :=
  ⟨vecU_holds _ (.inl rfl), env_valid, env_exact, dyn_wf 0 _ (by decide) (by decide) (by decide) _ (.inl rfl), by decide, by decide, rfl,
    by decide +kernel, by decide +kernel⟩

/-- The same for statically aligned and for sized elements: `insert_with` costs 23 (`insert` costs 13) and 8 (as much as `insert`); writing two
bytes costs 2. -/
example : vecA.Holds c64 listA ∧ (bytes [7, 8, 9]).WF c64 ∧ 0 < (bytes [7, 8, 9]).size ∧ vecP.Holds c64 listP ∧ (pair 7 8).WF c64 ∧
    ((Op.insertWith 1 (.value (bytes [7, 8, 9]))).exec c64 (alignedMetered c64 Bytes) env (vecA, 0)).meter = some 23 ∧
    ((Op.insertWith 0 (.value (pair 7 8))).exec c64 (sizedMetered c64 2 2) env (vecP, 0)).meter = some 8 ∧
    ((Op.set 1 [7, 8]).exec c64 (alignedMetered c64 Bytes) env (vecA, 0)).meter = some 2 :=
  ⟨vecA_holds _ (.inl rfl), bytes_wf _ (by decide) _ (.inl rfl), by decide, vecP_holds _ (.inl rfl), pair_wf _ _ _ (.inl rfl),
    by decide +kernel, by decide +kernel, by decide +kernel⟩

end Verif
