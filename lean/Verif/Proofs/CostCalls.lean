import Verif.Spec.Cost
import Verif.Proofs.CostUOps
import Verif.Proofs.CostA
import Verif.Proofs.GrowthStep

/-!
# What the calls cost
-/

namespace Verif
open Exec

section
variable {V : Type} {T : UTy} {β : Type} {c : Cfg} {M : Machine (V × Nat) T β} {env : Env (Val T β)} {op : Op T β} {v : V} {B : Nat}

theorem Exec.Meters.atMost {Q : Out T β → V → Nat → Prop} {E : Nat → Prop} (h : (op.exec c M env).Meters v Q E)
    (hQ : ∀ a t d, Q a t d → d ≤ B) (hE : ∀ d, E d → d ≤ B) : CostsAtMost c M env op v B := by
  intro n
  have := h n
  revert this
  cases op.exec c M env (v, n) <;> dsimp only
  · rintro ⟨d, h1, h2⟩; have := hQ _ _ _ h2; omega
  · rintro ⟨d, h1, h2⟩; have := hE _ h2; omega
  · exact id
  · exact id

theorem Exec.Meters.atLeast {Q : Out T β → V → Nat → Prop} {E : Nat → Prop} (h : (op.exec c M env).Meters v Q E)
    (hQ : ∀ a t d, Q a t d → B ≤ d) : CostsAtLeast c M env op v B := by
  intro n
  have := h n
  revert this
  cases op.exec c M env (v, n) <;> dsimp only
  · rintro ⟨d, h1, h2⟩; have := hQ _ _ _ h2; omega
  · exact fun _ => trivial
  · exact id
  · exact id

/-- If the function without the meter returns, the function with the meter returns the same. -/
theorem Exec.Meters.returns {α : Type} {m : Exec (V × Nat) α} {m0 : Exec V α} {Q : α → V → Nat → Prop} {E : Nat → Prop}
    (h : m.Meters v Q E) (ho : m.Over Prod.fst Eq m0) {a : α} {t : V} (h0 : m0 v = .ok a t) (n : Nat) :
    ∃ d, m (v, n) = .ok a (t, n + d) ∧ Q a t d := by
  have h1 := h n
  have h2 := ho (v, n)
  revert h1 h2
  dsimp only
  rw [h0]
  cases m (v, n) with
  | ok a' t' =>
    simp only [Res.Over]
    rintro ⟨d, e1, e2⟩ ⟨rfl, rfl⟩
    obtain ⟨t', k⟩ := t'
    dsimp only at e1
    subst e1
    exact ⟨d, rfl, e2⟩
  | panic t' => simp only [Res.Over, false_implies, implies_true]
  | abort => simp only [Res.Over, false_implies, implies_true]
  | ub => simp only [Res.Over, false_implies, implies_true]

theorem Res.Over.unmetered {α : Type} {r : Res (V × Nat) α} {r0 : Res V α} (h : r.Over Prod.fst Eq r0) : r.unmetered = r0 := by
  cases r <;> cases r0 <;> simp only [Res.Over] at h <;> try exact h.elim
  · obtain ⟨rfl, rfl⟩ := h; rfl
  · subst h; rfl
  · rfl
  · rfl

/-! ## Reading -/

theorem get_meters (i : Nat) : ((Op.get i).exec c M env).Meters v (fun _ _ d => d = 0) (· = 0) := by
  refine .get_bind fun _ => .orUb_bind fun o _ => ?_
  cases o <;> exact .pure rfl

theorem index_meters (i : Nat) : ((Op.index i).exec c M env).Meters v (fun _ _ d => d = 0) (· = 0) := by
  refine .bind (Exec.Meters.get_bind fun _ => .orUb_bind fun o _ => ?_)
  cases o
  · exact .panic rfl
  · exact .pure (.get_bind fun _ => .pure rfl)

theorem len_meters : ((Op.len).exec c M env).Meters v (fun _ _ d => d = 0) (· = 0) := .get_bind fun _ => .pure rfl

theorem set_meters (i : Nat) (bs : List β) (h : ∀ r, (M.store r bs).Meters v (fun _ _ d => d ≤ bs.length) (fun d => d ≤ bs.length)) :
    ((Op.set i bs).exec c M env).Meters v (fun _ _ d => d ≤ bs.length) (fun d => d ≤ bs.length) := by
  refine .get_bind fun _ => .orUb_bind fun o _ => ?_
  cases o with
  | none => exact .pure (Nat.zero_le _)
  | some r => exact .bind ((h r).mono (fun _ _ d h => .pure (by omega)) fun _ h => h)

/-! ## Taking values out -/

theorem pop_meters_none (h : ∀ n, M.P.len (v, n) = 0) (d : Dst) : ((Op.pop d).exec c M env).Meters v (fun _ _ d => d = 0) (· = 0) := by
  refine .get_bind fun n => ?_
  have : Api.popInto M.P env (v, n) = none := if_neg (fun e => e (h n))
  rw [this]
  exact .pure rfl

theorem pop_meters (d : Dst) (h : (M.P.popIntoUnchecked env).Meters v (fun st t d => d = 0 ∧ st.Ends t B) (fun d => d = 0)) :
    ((Op.pop d).exec c M env).Meters v (fun _ _ k => k ≤ B) (fun k => k ≤ B) := by
  refine .get_bind fun n => ?_
  unfold Api.popInto
  split
  · rename_i he
    split at he
    · cases he
    · exact .pure (Nat.zero_le _)
  · rename_i he
    split at he
    · cases he
      exact .bind ((exchange_meters h d).mono (fun _ _ k h => .pure h) fun _ h => h)
    · cases he

theorem remove_meters (i : Nat) (d : Dst)
    (h : (∃ n, i < M.P.len (v, n)) → (M.P.removeIntoUnchecked env i).Meters v (fun st t d => d = 0 ∧ st.Ends t B) (fun d => d = 0)) :
    ((Op.remove i d).exec c M env).Meters v (fun _ _ k => k ≤ B) (fun k => k ≤ B) := by
  refine .bind ((exchange_meters (B := B) ?_ d).mono (fun _ _ k h => .pure h) fun _ h => h)
  refine .get_bind fun n => .assert_bind rfl fun hi => h ⟨n, hi⟩

end

/-! ## Putting values in: dynamically aligned elements -/

section
variable {T : UTy} {β : Type} [Inhabited β] {c : Cfg}
open UVec.Metered

theorem UVec.Metered.push_meters (env : Env (Val T β)) {x : Val T β} (hx : IsAlign c x.align) (v : UVec T β) :
    ((Op.push x).exec c (unalignedMetered c T) env).Meters v
      (fun o t d => o = .done ∧ stdReserve c.infoMax v.elemsCap v.len 1 env.infoGrow = .ok t.elemsCap ∧
        d ≤ recordsMoved v t + attempt v x.align + blockMoved c v t x.align + x.bytes.length + 1 ∧ x.bytes.length + 1 ≤ d ∧
        (IsAlign c v.align → v.align < x.align → 0 < v.byteCap → 1 < v.len →
          v.byteCap + raising c v x.align + x.bytes.length + 1 ≤ d ∧ (realignUpOffsets c v.align x.align v.elems 0).isSome))
      (fun d => d ≤ v.elemsCap + attempt v x.align + (v.byteCap + if v.align < x.align then raising c v x.align else 0) + x.bytes.length + 1) := by
  refine .bind ((giving_meters (fun _ _ => rfl) (Q := fun _ t d => stdReserve c.infoMax v.elemsCap v.len 1 env.infoGrow = .ok t.elemsCap ∧
    d ≤ recordsMoved v t + attempt v x.align + blockMoved c v t x.align + x.bytes.length + 1 ∧ x.bytes.length + 1 ≤ d ∧
        (IsAlign c v.align → v.align < x.align → 0 < v.byteCap → 1 < v.len →
          v.byteCap + raising c v x.align + x.bytes.length + 1 ≤ d ∧ (realignUpOffsets c v.align x.align v.elems 0).isSome)) ?_).mono ?_ fun _ h => h)
  · refine .bind ((reserve_cost env 1 x.size hx v).mono ?_ fun _ h => by omega)
    rintro _ u d ⟨h1, h2, h3, h6⟩
    refine (pushUnchecked_meters x u).mono ?_ ?_
    · rintro _ t k ⟨h4, h5, rfl⟩
      have e1 : recordsMoved v t = recordsMoved v u := by unfold recordsMoved; rw [h4]
      have e2 : blockMoved c v t x.align = blockMoved c v u x.align := by unfold blockMoved; rw [h5]
      rw [h4, e1, e2]
      exact ⟨h2, by omega, by omega, fun i1 i2 i3 i4 => ⟨by have := (h6 i1 i2 i3 i4).1; omega, (h6 i1 i2 i3 i4).2⟩⟩
    · intro k h4
      have e1 : recordsMoved v u ≤ v.elemsCap := by unfold recordsMoved; split <;> omega
      have e2 : blockMoved c v u x.align ≤ v.byteCap + if v.align < x.align then raising c v x.align else 0 := by
        unfold blockMoved; split
        · omega
        · split <;> omega
      omega
  · rintro _ t d ⟨h1, h2⟩
    exact .pure ⟨rfl, h1, h2⟩

theorem UVec.Metered.push_room_meters {G : Prop} {v : UVec T β} {xs : List (Val T β)} (h : v.Represents G c xs) (env : Env (Val T β)) {x : Val T β}
    (hx : x.WF c) (h1 : xs.length < v.elemsCap) (h2 : x.size ≤ v.spare xs) (h3 : x.align ≤ v.align) :
    ((Op.push x).exec c (unalignedMetered c T) env).Meters v (fun _ _ d => d ≤ x.size + 1) (fun d => d ≤ x.size + 1) := by
  have hc := h.cap
  unfold UVec.spare at h2
  have hi : Api.reserveCapacityBytesAlign c (unalignedP c T) env 1 x.size x.align v = .ok () v :=
    (UVec.impl G c T).reserveCapacityBytesAlign_idle h env 1 x.size hx.align_pow h1 (show totalWidth (padTo v.align) xs + x.size ≤ v.byteCap by omega) h3
  have hb : x.bytes.length = x.size := hx.bytes_len
  refine .bind ((giving_meters (fun _ _ => rfl) ?_ (Q := fun _ _ d => d ≤ x.size + 1)).mono (fun _ _ _ h => .pure h) fun _ h => h)
  have ho : (Api.reserveCapacityBytesAlign c (unalignedMetered c T).P env 1 x.size x.align).Over Prod.fst Eq
      (Api.reserveCapacityBytesAlign c (unalignedP c T) env 1 x.size x.align) :=
    Provider.Over.unwrap ((unaligned_over T).P.tryReserveCapacityBytesAlign 1 x.size x.align)
  refine .bind (((reserve_cost env 1 x.size hx.align_pow v).over ho).mono ?_ ?_)
  · rintro _ u d ⟨⟨_, _, h5, _⟩, h6⟩
    rw [hi] at h6
    cases h6
    have e1 : recordsMoved v v = 0 := if_pos rfl
    have e2 : attempt v x.align = 0 := if_neg (Nat.not_lt.mpr h3)
    have e3 : blockMoved c v v x.align = 0 := (if_neg (Nat.not_lt.mpr h3)).trans (if_pos rfl)
    exact (pushUnchecked_meters x v).mono (fun _ _ _ h => by omega) (fun _ h => by omega)
  · rintro d ⟨_, t, h6⟩
    rw [hi] at h6
    cases h6

theorem UVec.Metered.insert_meters {G : Prop} {v : UVec T β} {xs : List (Val T β)} (h : v.Represents G c xs) {env : Env (Val T β)}
    (he : env.Valid ∧ (G → env.Exact)) {x : Val T β} (hx : IsAlign c x.align) (i : Nat) :
    ((Op.insert i x).exec c (unalignedMetered c T) env).Meters v
      (fun _ _ d => d ≤ v.elemsCap + attempt v x.align + (v.byteCap + if v.align < x.align then raising c v x.align else 0) +
        (totalWidth (padTo (max v.align x.align)) (xs.drop i) + x.bytes.length + 2 * (xs.length - i) + 1))
      (fun d => d ≤ v.elemsCap + attempt v x.align + (v.byteCap + if v.align < x.align then raising c v x.align else 0) +
        (totalWidth (padTo (max v.align x.align)) (xs.drop i) + x.bytes.length + 2 * (xs.length - i) + 1)) := by
  refine .bind ((giving_meters (fun _ _ => rfl) ?_ (Q := fun _ _ d => d ≤ v.elemsCap + attempt v x.align +
    (v.byteCap + if v.align < x.align then raising c v x.align else 0) +
        (totalWidth (padTo (max v.align x.align)) (xs.drop i) + x.bytes.length + 2 * (xs.length - i) + 1))).mono (fun _ _ _ h => .pure h) fun _ h => h)
  have hl : v.len = xs.length := by unfold UVec.len; rw [h.infos, infosFrom_length]
  refine .get_bind fun n => .assert_bind (Nat.zero_le _) fun hi => ?_
  have hi : i ≤ xs.length := by have hi : i ≤ v.len := hi; omega
  have ho : (Api.reserveCapacityBytesAlign c (unalignedMetered c T).P env 1 x.size x.align).Over Prod.fst Eq
      (Api.reserveCapacityBytesAlign c (unalignedP c T) env 1 x.size x.align) :=
    Provider.Over.unwrap ((unaligned_over T).P.tryReserveCapacityBytesAlign 1 x.size x.align)
  have key := (UVec.impl G c T).reserveCapacityBytesAlign_meets h he 1 x.size hx
  refine .bind (((reserve_cost env 1 x.size hx v).over ho).mono ?_ fun _ h => by omega)
  rintro _ t d ⟨⟨h1, _, h3, _⟩, h4⟩
  rw [h4] at key
  have ht : t.Represents G c xs := key.holds
  have hm : IsAlign c (max v.align x.align) := by
    rcases Nat.le_total v.align x.align with hle | hle
    · rw [Nat.max_eq_right hle]; exact hx
    · rw [Nat.max_eq_left hle]; exact h.al
  have hta : t.align ≤ max v.align x.align := by
    rcases key.alignCases with e | e
    · exact Nat.le_of_eq e
    · exact Nat.le_trans (Nat.le_of_eq e) (Nat.le_max_left _ _)
  have hmono := totalWidth_mono_align ht.al.pos hm.pos (ht.al.dvd_of_le hm hta) (xs.drop i)
  have e1 : recordsMoved v t ≤ v.elemsCap := by unfold recordsMoved; split <;> omega
  have e2 : blockMoved c v t x.align ≤ v.byteCap + if v.align < x.align then raising c v x.align else 0 := by
    unfold blockMoved; split
    · omega
    · split <;> omega
  refine (insertUnchecked_meters (B := totalWidth (padTo (max v.align x.align)) (xs.drop i)) i x t ?_).mono
    (fun _ _ _ h => by rw [h1, hl] at h; omega) (fun _ h => by rw [h1, hl] at h; omega)
  intro start hs
  rw [UVec.startOffset_eq ht i hi] at hs
  cases hs
  have := UVec.unalignedByteLen_le ht
  have := totalWidth_take_drop (padTo t.align) xs i
  omega

theorem UVec.Metered.pushWith_op_meters (env : Env (Val T β)) {x : Val T β} (hx : IsAlign c x.align) {v : UVec T β} (hv : IsAlign c v.align) :
    ((Op.pushWith (.value x)).exec c (unalignedMetered c T) env).Meters v
      (fun o t d => o = .done ∧ IsAlign c t.align ∧ v.byteCap + x.size ≤ t.byteCap ∧ (0 < x.size → v.byteCap ≤ d) ∧
        d ≤ v.elemsCap + v.byteCap + (if v.align < x.align then raising c v x.align else 0) + x.bytes.length + 1)
      (fun d => d ≤ v.elemsCap + v.byteCap + (if v.align < x.align then raising c v x.align else 0) + x.bytes.length + 1) :=
  .bind ((onRight_value_meters (UVec.Metered.pushWith_meters env x hx v hv)).mono
    (fun _ _ _ h => .pure ⟨rfl, h⟩) fun _ h => h)

end

/-! ## Putting values in: statically aligned elements -/

section
variable {A : ATy} {β : Type} [Inhabited β] {c : Cfg}
open AVec.Metered

theorem AVec.Metered.push_meters (env : Env (Val A.ty β)) (x : Val A.ty β) (v : AVec A β) :
    ((Op.push x).exec c (alignedMetered c A) env).Meters v
      (fun o t d => o = .done ∧ stdReserve c.infoMax v.elemsCap v.len 1 env.infoGrow = .ok t.elemsCap ∧
        d ≤ recordsMoved v t + blockMoved v t + x.bytes.length + 1)
      (fun d => d ≤ v.elemsCap + v.byteCap + x.bytes.length + 1) := by
  refine .bind ((giving_meters (fun _ _ => rfl) (Q := fun _ t d => stdReserve c.infoMax v.elemsCap v.len 1 env.infoGrow = .ok t.elemsCap ∧
    d ≤ recordsMoved v t + blockMoved v t + x.bytes.length + 1) ?_).mono ?_ fun _ h => h)
  · refine .bind ((reserve_cost env 1 x.size x.align v).mono ?_ fun _ h => by omega)
    rintro _ u d ⟨h1, h2, h3⟩
    refine (pushUnchecked_meters x u).mono ?_ ?_
    · rintro _ t k ⟨h4, h5, rfl⟩
      have e1 : recordsMoved v t = recordsMoved v u := by unfold recordsMoved; rw [h4]
      have e2 : blockMoved v t = blockMoved v u := by unfold blockMoved; rw [h5]
      rw [h4, e1, e2]
      exact ⟨h2, by omega⟩
    · intro k h4
      have e1 : recordsMoved v u ≤ v.elemsCap := by unfold recordsMoved; split <;> omega
      have e2 : blockMoved v u ≤ v.byteCap := by unfold blockMoved; split <;> omega
      omega
  · rintro _ t d ⟨h1, h2⟩
    exact .pure ⟨rfl, h1, h2⟩

theorem AVec.Metered.push_room_meters (hA : A.Fits c) {v : AVec A β} {xs : List (Val A.ty β)} (h : v.Holds c xs) (env : Env (Val A.ty β)) {x : Val A.ty β}
    (hx : x.WF c) (h1 : xs.length < v.elemsCap) (h2 : x.size ≤ v.spare xs) :
    ((Op.push x).exec c (alignedMetered c A) env).Meters v (fun _ _ d => d ≤ x.size + 1) (fun d => d ≤ x.size + 1) := by
  have hc := h.cap
  unfold AVec.spare at h2
  have hi : Api.reserveCapacityBytesAlign c (alignedP c A) env 1 x.size x.align v = .ok () v :=
    (AVec.implF hA).reserveCapacityBytesAlign_idle h env 1 x.size hx.align_pow h1 (show totalWidth id xs + x.size ≤ v.byteCap by omega) trivial
  have hb : x.bytes.length = x.size := hx.bytes_len
  refine .bind ((giving_meters (fun _ _ => rfl) ?_ (Q := fun _ _ d => d ≤ x.size + 1)).mono (fun _ _ _ h => .pure h) fun _ h => h)
  have ho : (Api.reserveCapacityBytesAlign c (alignedMetered c A).P env 1 x.size x.align).Over Prod.fst Eq
      (Api.reserveCapacityBytesAlign c (alignedP c A) env 1 x.size x.align) :=
    Provider.Over.unwrap ((aligned_over A).P.tryReserveCapacityBytesAlign 1 x.size x.align)
  refine .bind (((reserve_cost env 1 x.size x.align v).over ho).mono ?_ ?_)
  · rintro _ u d ⟨⟨_, _, h5⟩, h6⟩
    rw [hi] at h6
    cases h6
    have e1 : recordsMoved v v = 0 := if_pos rfl
    have e3 : blockMoved v v = 0 := if_pos rfl
    exact (pushUnchecked_meters x v).mono (fun _ _ _ h => by omega) (fun _ h => by omega)
  · rintro d ⟨_, t, h6⟩
    rw [hi] at h6
    cases h6

theorem AVec.Metered.insert_meters (hA : A.Fits c) {v : AVec A β} {xs : List (Val A.ty β)} (h : v.Holds c xs) {env : Env (Val A.ty β)}
    (he : env.Valid) {x : Val A.ty β} (hx : IsAlign c x.align) (i : Nat) :
    ((Op.insert i x).exec c (alignedMetered c A) env).Meters v
      (fun _ _ d => d ≤ v.elemsCap + v.byteCap + (totalWidth id (xs.drop i) + x.bytes.length + 2 * (xs.length - i) + 1))
      (fun d => d ≤ v.elemsCap + v.byteCap + (totalWidth id (xs.drop i) + x.bytes.length + 2 * (xs.length - i) + 1)) := by
  refine .bind ((giving_meters (fun _ _ => rfl) ?_ (Q := fun _ _ d => d ≤ v.elemsCap + v.byteCap +
        (totalWidth id (xs.drop i) + x.bytes.length + 2 * (xs.length - i) + 1))).mono (fun _ _ _ h => .pure h) fun _ h => h)
  have hl : v.len = xs.length := by unfold AVec.len; rw [h.infos, infosFrom_length]
  refine .get_bind fun n => .assert_bind (Nat.zero_le _) fun hi => ?_
  have hi : i ≤ xs.length := by have hi : i ≤ v.len := hi; omega
  have ho : (Api.reserveCapacityBytesAlign c (alignedMetered c A).P env 1 x.size x.align).Over Prod.fst Eq
      (Api.reserveCapacityBytesAlign c (alignedP c A) env 1 x.size x.align) :=
    Provider.Over.unwrap ((aligned_over A).P.tryReserveCapacityBytesAlign 1 x.size x.align)
  have key := (AVec.implF hA).reserveCapacityBytesAlign_meets h he 1 x.size hx
  refine .bind (((reserve_cost env 1 x.size x.align v).over ho).mono ?_ fun _ h => by omega)
  rintro _ t d ⟨⟨h1, _, h3⟩, h4⟩
  rw [h4] at key
  have ht : t.Holds c xs := key.holds
  have h1 : t.len = v.len := congrArg List.length h1
  have e1 : recordsMoved v t ≤ v.elemsCap := by unfold recordsMoved; split <;> omega
  have e2 : blockMoved v t ≤ v.byteCap := by unfold blockMoved; split <;> omega
  refine (insertUnchecked_meters (B := totalWidth id (xs.drop i)) i x t ?_).mono
    (fun _ _ _ h => by rw [h1, hl] at h; omega) (fun _ h => by rw [h1, hl] at h; omega)
  intro start hs
  rw [AVec.startOffset_eq ht i hi] at hs
  cases hs
  have := AVec.byteLen_eq ht
  have := totalWidth_take_drop id xs i
  omega

theorem AVec.Metered.pushWith_op_meters (env : Env (Val A.ty β)) (x : Val A.ty β) (v : AVec A β) :
    ((Op.pushWith (.value x)).exec c (alignedMetered c A) env).Meters v
      (fun o t d => o = .done ∧ v.byteCap + x.size ≤ t.byteCap ∧ (0 < x.size → v.byteCap ≤ d) ∧
        d ≤ v.elemsCap + v.byteCap + x.bytes.length + 1)
      (fun d => d ≤ v.elemsCap + v.byteCap + x.bytes.length + 1) :=
  .bind ((onRight_value_meters (AVec.Metered.pushWith_meters env x v)).mono
    (fun _ _ _ h => .pure ⟨rfl, h⟩) fun _ h => h)

end
end Verif
