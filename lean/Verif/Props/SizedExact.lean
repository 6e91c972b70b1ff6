import Verif.Props.Sized

/-!
# C12, C13, C14, C27 for sized elements: what happens outside the covered cases

For every vector, not just for one example: which byte reservations are ignored, when a failing reservation has raised the
capacity, when debug builds panic, and that an element whose destructor panics on removal is destroyed twice.
-/

namespace Verif
open Sample

section
variable {β : Type} [Inhabited β] {c : Cfg} {sz al : Nat} {v : SVec sz al β} {xs : List (Val (sizedTy sz al) β)}

/-- C27: if the destructor of an element other than the last panics while the emplacable returned by `remove_into` is dropped, the
vector still holds the element, but no longer the last one. Dropping the vector destroys the element a second time, and the last
one never. -/
theorem C27_removeInto_sized_twice (h : v.Holds c xs) (env env' : Env (Val (sizedTy sz al) β)) {i : Nat} (hi : i + 1 < xs.length)
    (hd : env.dropPanics xs[i] = true) (hd' : ∀ x ∈ xs, env'.dropPanics x = false) :
    ∃ v' v'', run (Api.removeInto (sizedP c sz al) env i) Sink.dropping (v, ()) = .panic (v', ()) ∧ v'.Holds c xs.dropLast ∧
      v'.drops = v.drops ++ [xs[i]] ∧ xs[i] ∈ xs.dropLast ∧ SVec.drop env' v' = .ok () v'' ∧
      v''.drops = v.drops ++ [xs[i]] ++ xs.dropLast := by
  have := C05_removeInto_sized h env (i := i) (by omega) Sink.dropping ()
  rw [given_run_drop, if_pos hd] at this
  obtain ⟨v', h1, h2, h3⟩ := this.panic
  have h4 := C21_drop_sized h2 env'
  have hm : ∀ x ∈ xs.dropLast, env'.dropPanics x = false := fun x hx => hd' x (List.dropLast_subset _ hx)
  have hin : xs[i] ∈ xs.dropLast := by
    have : xs.dropLast[i]'(by simp; omega) = xs[i] := by simp
    rw [← this]; exact List.getElem_mem _
  cases hr : SVec.drop env' v' with
  | ok u v'' => rw [hr] at h4; exact ⟨v', v'', h1, h2, h3, hin, hr, by rw [h4.1.1, h3]⟩
  | panic v'' =>
    rw [hr] at h4
    obtain ⟨⟨_, x, hx, hp⟩, _⟩ := h4
    rw [hm x hx] at hp; cases hp
  | abort =>
    rw [hr] at h4
    obtain ⟨k, j, hk, hj, _, hp, _⟩ := h4
    rw [hm _ (List.getElem_mem hk)] at hp; cases hp
  | ub => rw [hr] at h4; exact h4.elim

/-- C13: whenever a `try_reserve…` method returns an error although the elements asked for could be had, the capacity has been
raised to hold them. So if they did not fit before, the failed call has changed the capacity. -/
theorem C13_try_sized_raised (h : v.Holds c xs) (hz : 0 < sz) (env : Env (Val (sizedTy sz al) β)) (q : Reservation)
    (hg : ∀ e, ¬ SVec.Fails c sz env xs.length q.slots e) {e : TRE} {v' : SVec sz al β}
    (hr : q.attempt c (sizedP c sz al) env v = .ok (.error e) v') : xs.length + q.slots ≤ v'.capacity c := by
  have h1 := SVec.attempt_meets h hz env q
  rw [hr] at h1
  rcases h1 with ⟨h2, _⟩ | ⟨_, _, hk, _⟩
  · cases h2
  · exact hk.raised hg

/-- C13: such errors exist for every vector: ask for any number of elements that can be had and for `usize::MAX` bytes. -/
theorem C13_try_sized_always (h : v.Holds c xs) (hz : 0 < sz) (env : Env (Val (sizedTy sz al) β)) {n : Nat}
    (hg : ∀ e, ¬ SVec.Fails c sz env xs.length n e) (hroom : v.capacity c < xs.length + n) :
    ∃ v', Reservation.attempt c (sizedP c sz al) env (.exactCapBytes n c.usizeMax) v = .ok (.error .capacityOverflow) v' ∧
      v'.Holds c xs ∧ v.capacity c < v'.capacity c := by
  show ∃ v', Api.tryReserveExactCapacityBytesAlign (sizedP c sz al) env n c.usizeMax 1 v = _ ∧ _
  unfold Api.tryReserveExactCapacityBytesAlign
  rcases SVec.tryReserve_cases h env n with ⟨v1, h1, hg1⟩ | ⟨e, _, hf, _⟩
  · refine ⟨v1, ?_, hg1.holds, Nat.lt_of_lt_of_le hroom hg1.room⟩
    rw [Exec.bind_ok (show (sizedP c sz al).tryReserve env n v = _ from h1)]
    show SVec.tryReserveAdditionalBytes c env c.usizeMax v1 = _
    rw [SVec.tryReserveAdditionalBytes_eq hg1.holds hz]
    have hfree := hg1.holds.free_eq
    have hcap := hg1.holds.cap
    have hmax := hg1.holds.capMax
    have hM : SVec.maxSlots c sz = c.isizeMax / sz := by unfold SVec.maxSlots; rw [if_neg (by omega)]
    have hbits : 0 < c.bits := by
      rcases Nat.eq_zero_or_pos c.bits with h0 | h0
      · refine absurd (.inl ⟨rfl, ?_⟩) (hg .capacityOverflow)
        have : c.isizeMax = 0 := by unfold Cfg.isizeMax; rw [h0]
        rw [hM, this, Nat.zero_div]; omega
      · exact h0
    have hu : c.usizeMax = 2 * c.isizeMax + 1 := by
      unfold Cfg.usizeMax Cfg.isizeMax
      obtain ⟨k, hk⟩ : ∃ k, c.bits = k + 1 := ⟨c.bits - 1, by omega⟩
      rw [hk, Nat.add_sub_cancel, Nat.pow_succ]
      have := Nat.pow_pos (n := k) (show 0 < 2 by decide)
      omega
    have hfM : v1.capacity c ≤ c.isizeMax / sz := (Nat.le_div_iff_mul_le hz).2 hmax
    have hex : c.isizeMax / sz + 1 + xs.length ≤ v1.extra c c.usizeMax := by
      unfold SVec.extra saturatingAdd
      rw [Nat.min_eq_right (by omega)]
      have : 2 * (c.isizeMax / sz) + 1 ≤ (c.usizeMax + sz - 1) / sz := by
        rw [Nat.le_div_iff_mul_le hz]
        have := Nat.div_mul_le_self c.isizeMax sz
        rw [Nat.add_mul, Nat.mul_assoc]
        omega
      omega
    unfold SVec.tryReserve
    rw [Exec.get_bind]
    have hl := hg1.holds.len
    unfold stdReserve
    rw [if_neg (by omega), if_pos (by rw [hM]; omega)]
    rfl
  · exact absurd hf (hg e)

/-- C12: a request for more bytes than are free is ignored if it is small enough in comparison with the number of free slots:
the call returns `Ok` and changes nothing, although the bytes asked for are not there. -/
theorem C12_exact_sized_ignored (h : v.Holds c xs) (hz : 0 < sz) (env : Env (Val (sizedTy sz al) β)) {n b : Nat}
    (hn : xs.length + n ≤ v.capacity c) (hb : b + v.free c ≤ 2 * (v.free c * sz)) (hlack : v.free c * sz < b) :
    Reservation.attempt c (sizedP c sz al) env (.exactCapBytes n b) v = .ok (.ok ()) v ∧
      ¬ Reservation.Roomy (sizedP c sz al) v n b := by
  refine ⟨?_, ?_⟩
  · show Api.tryReserveExactCapacityBytesAlign (sizedP c sz al) env n b 1 v = _
    unfold Api.tryReserveExactCapacityBytesAlign
    have hid : ∀ k, xs.length + k ≤ v.capacity c → SVec.tryReserve c env k v = .ok (.ok ()) v := by
      intro k hk
      rcases SVec.tryReserve_cases h env k with ⟨v1, h1, hg1⟩ | ⟨e, _, _, hlt⟩
      · rw [h1, hg1.idle hk]
      · omega
    rw [Exec.bind_ok (show (sizedP c sz al).tryReserve env n v = _ from hid n hn)]
    show SVec.tryReserveAdditionalBytes c env b v = _
    rw [SVec.tryReserveAdditionalBytes_eq h hz]
    refine hid _ ?_
    have hfree := h.free_eq
    have hcap := h.cap
    have : v.extra c b ≤ v.free c := by
      unfold SVec.extra
      have h1 : saturatingAdd c b (v.free c) ≤ b + v.free c := Nat.min_le_left _ _
      have : (saturatingAdd c b (v.free c) + sz - 1) / sz ≤ v.free c + v.free c := by
        rw [Nat.div_le_iff_le_mul_add_pred hz, Nat.mul_add, Nat.mul_comm sz]
        omega
      omega
    omega
  · rintro ⟨_, l, k, hl, hk, hle⟩
    have e1 : l = xs.length * sz := by
      have : some l = some (xs.length * sz) := hl.symm.trans (SVec.byteLen_eq h)
      injection this
    have e2 : k = v.capacity c * sz := by
      have : some k = some (v.capacity c * sz) := hk.symm.trans (SVec.byteCapacity_eq h)
      injection this
    have hfree := h.free_eq
    have : v.capacity c * sz = xs.length * sz + v.free c * sz := by
      rw [← Nat.add_mul]; congr 1; have := h.cap; omega
    omega

/-- C12: in every vector of elements of at least two bytes with at least two free slots, a reservation of one slot's bytes more
than there are is ignored. -/
theorem C12_exact_sized_oneMore (h : v.Holds c xs) (hz : 2 ≤ sz) (env : Env (Val (sizedTy sz al) β)) (hf : 2 ≤ v.free c) :
    Reservation.attempt c (sizedP c sz al) env (.exactCapBytes 0 ((v.free c + 1) * sz)) v = .ok (.ok ()) v ∧
      ¬ Reservation.Roomy (sizedP c sz al) v 0 ((v.free c + 1) * sz) := by
  refine C12_exact_sized_ignored h (by omega) env h.cap ?_ ?_
  · obtain ⟨f, hf'⟩ : ∃ f, v.free c = f + 2 := ⟨v.free c - 2, by omega⟩
    obtain ⟨s, hs'⟩ : ∃ s, sz = s + 2 := ⟨sz - 2, by omega⟩
    rw [hf', hs']
    simp only [Nat.add_mul, Nat.mul_add]
    generalize f * s = p
    omega
  · rw [Nat.add_mul]; omega

/-- C14: in debug builds `try_reserve_capacity_bytes` panics on every vector that has a free slot, when asked for at least as many
bytes as would double it, unless the allocator gives more than it was asked for. This is so even if the memory is granted. -/
theorem C14_debug_sized_panics (h : v.Holds c xs) (hz : 0 < sz) (hd : c.debug = true) (env : Env (Val (sizedTy sz al) β))
    (hx : ∀ m k, env.infoGrow m = .ok k → k = 0) (hf : 0 < v.free c) {n b : Nat} (hn : xs.length + n ≤ v.capacity c)
    (hb : v.capacity c * sz + v.free c * sz ≤ b) :
    ∃ v', Reservation.attempt c (sizedP c sz al) env (.capBytes n b) v = .panic v' ∧ v'.Holds c xs := by
  show ∃ v', Api.tryReserveCapacityBytesAlign c (sizedP c sz al) env n b 1 v = _ ∧ _
  unfold Api.tryReserveCapacityBytesAlign Api.tryReserve
  have hfree := h.free_eq
  have hcap := h.cap
  have h1 : SVec.tryReserve c env n v = .ok (.ok ()) v := by
    rcases SVec.tryReserve_cases h env n with ⟨v1, h1, hg1⟩ | ⟨e, _, _, hlt⟩
    · rw [h1, hg1.idle hn]
    · omega
  rw [Exec.bind_ok (show (sizedP c sz al).tryReserve env n v = _ from h1)]
  dsimp only
  rw [Exec.get_bind, Exec.debugAssert_bind (by show _ ≥ v.len + n; rw [h.len]; exact hn)]
  unfold Api.toAlign
  show ∃ v', ((Exec.orUb ((sizedP c sz al).byteCapacity v) >>= _ : Exec _ _) v) = _ ∧ _
  rw [Exec.orUb_bind (show (sizedP c sz al).byteCapacity v = _ from SVec.byteCapacity_eq h)]
  have hmul : v.capacity c * sz = xs.length * sz + v.free c * sz := by rw [← Nat.add_mul]; congr 1; omega
  have hun : Api.unusedByteCap (sizedP c sz al) v = some (v.free c * sz) := by
    unfold Api.unusedByteCap uncheckedSub
    rw [show (sizedP c sz al).byteCapacity v = _ from SVec.byteCapacity_eq h,
      show (sizedP c sz al).byteLen v = _ from SVec.byteLen_eq h]
    simp only [Option.bind_eq_bind, Option.bind_some, if_pos (Nat.mul_le_mul_right sz hcap)]
    congr 1; omega
  rw [Exec.orUb_bind hun]
  generalize hneed : b - v.free c * sz = needed
  have hfs : 0 < v.free c * sz := Nat.mul_pos hf hz
  rw [if_pos (show needed > 0 by omega), if_neg (show ¬ max needed (v.capacity c * sz) > needed by omega)]
  unfold Api.reserveNeeded
  have hbad : ∀ v' : SVec sz al β, v'.Holds c xs → v'.capacity c * sz < xs.length * sz + b →
      Api.byteCapAssert c (sizedP c sz al) b v' = .panic v' := by
    intro v' h' hlt
    rcases SVec.byteCapAssert_cases h' b with h2 | ⟨h2, _⟩
    · exfalso
      unfold Api.byteCapAssert at h2
      rw [Exec.get_bind, Exec.orUb_bind (show (sizedP c sz al).byteCapacity v' = _ from SVec.byteCapacity_eq h'),
        Exec.orUb_bind (show (sizedP c sz al).byteLen v' = _ from SVec.byteLen_eq h')] at h2
      unfold Exec.debugAssert at h2
      rw [if_pos ⟨hd, by omega⟩] at h2
      cases h2
    · exact h2
  have hstep : ∃ r v', SVec.tryReserveAdditionalBytes c env needed v = .ok r v' ∧ v'.Holds c xs ∧
      v'.capacity c * sz < xs.length * sz + b := by
    rw [SVec.tryReserveAdditionalBytes_eq h hz]
    rcases SVec.tryReserve_cases h env (v.extra c needed) with ⟨v1, h2, hg1⟩ | ⟨e, h2, _, _⟩
    rotate_left
    · exact ⟨_, v, h2, h, by omega⟩
    · refine ⟨_, v1, h2, hg1.holds, ?_⟩
      by_cases hroom : xs.length + v.extra c needed ≤ v.capacity c
      · rw [hg1.idle hroom]; omega
      · have hc1 : v1.capacity c ≤ xs.length + v.extra c needed := by
          unfold SVec.tryReserve at h2
          rw [Exec.get_bind] at h2
          unfold stdReserve at h2
          rw [h.len, if_neg (show ¬ v.extra c needed ≤ v.capacity c - xs.length by omega)] at h2
          by_cases hm : SVec.maxSlots c sz < xs.length + v.extra c needed
          · rw [if_pos hm] at h2; cases h2
          · rw [if_neg hm] at h2
            cases hgr : env.infoGrow (xs.length + v.extra c needed) with
            | error e => rw [hgr] at h2; cases h2
            | ok k =>
              rw [hgr] at h2
              have hk := hx _ _ hgr
              subst hk
              dsimp only at h2
              rw [if_neg (show ¬ v.extra c needed ≤ v.capacity c - xs.length by omega)] at h2
              injection h2 with _ h2
              rw [← h2]
              show SVec.capacity c _ ≤ _
              unfold SVec.capacity
              dsimp only
              rw [if_neg (by omega)]
              exact Nat.min_le_left _ _
        have hext : v.extra c needed * sz + v.free c * sz ≤ needed + v.free c + (sz - 1) := by
          unfold SVec.extra
          have h3 : saturatingAdd c needed (v.free c) ≤ needed + v.free c := Nat.min_le_left _ _
          have h4 := Nat.div_mul_le_self (saturatingAdd c needed (v.free c) + sz - 1) sz
          have h5 : v.free c ≤ (saturatingAdd c needed (v.free c) + sz - 1) / sz := by
            unfold SVec.extra at hroom; omega
          rw [← Nat.add_mul, Nat.sub_add_cancel h5]
          omega
        have h6 := Nat.mul_le_mul_right sz hc1
        rw [Nat.add_mul] at h6
        have h7 : v.free c + sz ≤ 1 + v.free c * sz := by
          obtain ⟨f, hf'⟩ : ∃ f, v.free c = f + 1 := ⟨v.free c - 1, by omega⟩
          obtain ⟨s, hs'⟩ : ∃ s, sz = s + 1 := ⟨sz - 1, by omega⟩
          rw [hf', hs']
          simp only [Nat.add_mul, Nat.mul_add]
          generalize f * s = p
          omega
        omega
  obtain ⟨r, v', h2, h3, h4⟩ := hstep
  refine ⟨v', ?_, h3⟩
  rw [Exec.bind_ok (show (sizedP c sz al).tryReserveAdditionalBytesAlign env needed _ v = _ from h2)]
  exact Exec.bind_panic (hbad v' h3 h4)

end

/-! ## Examples -/

/-- The hypotheses of the theorems are met by a vector of three pairs with two free slots. -/
example : vecP.Holds c64 listP ∧ 0 + 1 < listP.length ∧ (envPanics : Env (Val (sizedTy 2 2) Nat)).dropPanics listP[0] = true ∧
    ∀ x ∈ listP, (env : Env (Val (sizedTy 2 2) Nat)).dropPanics x = false :=
  ⟨vecP_holds _ (.inl rfl), by decide, rfl, fun _ _ => rfl⟩
example : vecP.Holds c64 listP ∧ 2 ≤ vecP.free c64 ∧ vecP.capacity c64 < listP.length + 4 ∧
    ∀ e, ¬ SVec.Fails c64 2 (env : Env (Val (sizedTy 2 2) Nat)) listP.length 4 e := by
  refine ⟨vecP_holds _ (.inl rfl), by decide, by decide, ?_⟩
  rintro e (⟨_, h⟩ | h)
  · exact absurd h (by decide)
  · cases h
example : vecP.Holds c64d listP ∧ 0 < vecP.free c64d ∧ vecP.capacity c64d * 2 + vecP.free c64d * 2 ≤ 14 ∧
    ∀ m k, (env : Env (Val (sizedTy 2 2) Nat)).infoGrow m = .ok k → k = 0 :=
  ⟨vecP_holds _ (.inr rfl), by decide, by decide, fun _ _ h => by cases h; rfl⟩

end Verif
