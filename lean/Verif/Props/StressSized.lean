import Verif.Props.SizedExact
import Verif.Props.Stress

/-!
# C65 for sized elements

`Vec` decides on the capacity. If it takes no more than it is asked for, as `try_reserve_exact` does with the global allocator,
the capacity after an exact reservation is known. It is not what was asked for: the free slots, counted in elements, are added
to the number of bytes.
-/

namespace Verif

section
variable {c : Cfg} {sz al : Nat} {β : Type} [Inhabited β] {v v' : SVec sz al β} {xs : List (Val (sizedTy sz al) β)}

theorem SVec.tryReserve_exactly (h : v.Holds c xs) (hz : 0 < sz) {env : Env (Val (sizedTy sz al) β)}
    (hx : ∀ m k, env.infoGrow m = .ok k → k = 0) {n : Nat} (hr : SVec.tryReserve c env n v = .ok (.ok ()) v') :
    v'.Holds c xs ∧ v'.drops = v.drops ∧ v'.capacity c = max (v.capacity c) (xs.length + n) ∧
      (v.capacity c < xs.length + n → xs.length + n ≤ c.isizeMax / sz) := by
  rcases SVec.tryReserve_cases h env n with ⟨v1, h1, hg⟩ | ⟨e, h1, _, _⟩
  rotate_left
  · rw [h1] at hr; cases hr
  have hv : v1 = v' := by rw [h1] at hr; cases hr; rfl
  subst hv
  refine ⟨hg.holds, hg.drops, ?_⟩
  by_cases hroom : xs.length + n ≤ v.capacity c
  · rw [hg.idle hroom]; omega
  · have hcap := h.cap
    unfold SVec.tryReserve at hr
    rw [Exec.get_bind] at hr
    unfold stdReserve at hr
    rw [h.len, if_neg (show ¬ n ≤ v.capacity c - xs.length by omega)] at hr
    by_cases hm : SVec.maxSlots c sz < xs.length + n
    · rw [if_pos hm] at hr; cases hr
    · rw [if_neg hm] at hr
      have hm' : xs.length + n ≤ c.isizeMax / sz := by
        unfold SVec.maxSlots at hm; rw [if_neg (by omega)] at hm; omega
      cases hg' : env.infoGrow (xs.length + n) with
      | error e => rw [hg'] at hr; cases hr
      | ok k =>
        rw [hg', hx _ _ hg'] at hr
        dsimp only at hr
        rw [if_neg (show ¬ n ≤ v.capacity c - xs.length by omega)] at hr
        cases hr
        refine ⟨?_, fun _ => hm'⟩
        unfold SVec.capacity at hcap hroom ⊢
        rw [if_neg (by omega)] at hcap hroom
        rw [if_neg (by omega), if_neg (by omega)]
        show min (xs.length + n + 0) _ = _
        omega

/-- The slots asked for if `b` more bytes are reserved while `free` slots are free (src/inner/sized.rs:72–77): enough for
`b + free` bytes, without the free ones. -/
def slotsFor (sz b free : Nat) : Nat := (b + free + sz - 1) / sz - free

/-- C65, sized elements: the capacity after `reserve_exact_capacity_bytes_align(n, b, _)`. -/
theorem C65_reserve_exact_sized (h : v.Holds c xs) (hz : 0 < sz) {env : Env (Val (sizedTy sz al) β)}
    (hx : ∀ m k, env.infoGrow m = .ok k → k = 0) {n b a : Nat} (hb : b ≤ c.usizeMax)
    (hr : Api.reserveExactCapacityBytesAlign (sizedP c sz al) env n b a v = .ok () v') :
    v'.Holds c xs ∧ v'.drops = v.drops ∧
      v'.capacity c = max (max (v.capacity c) (xs.length + n))
        (xs.length + slotsFor sz b (max (v.capacity c) (xs.length + n) - xs.length)) := by
  have h0 := unwrapped hr
  unfold Api.tryReserveExactCapacityBytesAlign at h0
  obtain ⟨r, v1, h1, h2⟩ := Exec.bind_ok_inv h0
  cases r with
  | error e => cases h2
  | ok u =>
    obtain ⟨g1, g2, g3, g4⟩ := SVec.tryReserve_exactly h hz hx h1
    have h5 : SVec.tryReserveAdditionalBytes c env b v1 = .ok (.ok ()) v' := h2
    rw [SVec.tryReserveAdditionalBytes_eq g1 hz] at h5
    obtain ⟨k1, k2, k3, _⟩ := SVec.tryReserve_exactly g1 hz hx h5
    refine ⟨k1, k2.trans g2, ?_⟩
    rw [k3, ← g3, ← g1.free_eq]
    suffices hs : b + v1.free c ≤ c.usizeMax by
      unfold slotsFor SVec.extra saturatingAdd
      rw [Nat.min_eq_left hs]
    refine Nat.le_of_not_lt fun hlt => ?_
    have hf : v1.free c * sz ≤ c.isizeMax := Nat.le_trans (Nat.mul_le_mul_right _ (by unfold SVec.free; omega)) g1.capMax
    have he : v1.extra c b * sz ≤ c.isizeMax := Nat.le_trans (Nat.mul_le_mul_right _ (by rw [k3]; omega)) k1.capMax
    have hsum : c.usizeMax ≤ v1.extra c b * sz + v1.free c * sz := by
      rw [← Nat.add_mul]
      have h6 : (c.usizeMax + sz - 1) / sz ≤ v1.extra c b + v1.free c := by
        unfold SVec.extra saturatingAdd
        rw [Nat.min_eq_right (by omega)]
        omega
      refine Nat.le_trans ?_ (Nat.mul_le_mul_right sz h6)
      have := Nat.div_add_mod (c.usizeMax + sz - 1) sz
      have := Nat.mod_lt (c.usizeMax + sz - 1) hz
      rw [Nat.mul_comm]
      omega
    have hU : (c.usizeMax = 0 ∧ c.isizeMax = 0) ∨ c.usizeMax = 2 * c.isizeMax + 1 := by
      unfold Cfg.usizeMax Cfg.isizeMax
      rcases c.bits with _ | k
      · exact .inl ⟨rfl, rfl⟩
      · right
        rw [Nat.pow_succ, Nat.add_sub_cancel]
        have := Nat.two_pow_pos k
        omega
    rcases hU with ⟨h6, h7⟩ | h6
    · have : v1.free c * sz = 0 := by omega
      rcases Nat.mul_eq_zero.1 this with h7 | h7 <;> omega
    · omega

/-- C65, sized elements: `with_capacity_bytes(0, b)` gives room for `b` bytes and less than one element more. -/
theorem C65_with_capacity_sized_partial (hz : 0 < sz) {env : Env (Val (sizedTy sz al) β)}
    (hx : ∀ m k, env.infoGrow m = .ok k → k = 0) {b a : Nat} (hb : b ≤ c.usizeMax) {v : SVec sz al β}
    (hr : Api.withCapacityBytesAlign (sizedP c sz al) env 0 b a = .ok () v) :
    v.Holds c [] ∧ ∃ k, (sizedP c sz al).byteCapacity v = some k ∧ b ≤ k ∧ k < b + sz ∧ sz ∣ k := by
  have h0 : (SVec.new : SVec sz al β).Holds c [] := SVec.new_holds
  obtain ⟨h1, _, h2⟩ := C65_reserve_exact_sized h0 hz hx hb hr
  have hc : (SVec.new : SVec sz al β).capacity c = 0 := by unfold SVec.capacity SVec.new; rw [if_neg (by omega)]
  rw [hc] at h2
  simp only [List.length_nil, Nat.add_zero, Nat.max_self, Nat.zero_add, Nat.sub_self, slotsFor, Nat.sub_zero, Nat.zero_max] at h2
  refine ⟨h1, v.capacity c * sz, SVec.byteCapacity_eq h1, ?_, ?_, Nat.dvd_mul_left _ _⟩
  all_goals
    rw [h2]
    have := Nat.div_add_mod (b + sz - 1) sz
    have := Nat.mod_lt (b + sz - 1) hz
    rw [Nat.mul_comm]
    omega

/-- C65 is false of sized elements, for all requests that ask for at least two elements, and for the bytes of more: the byte
capacity is less than what was asked for. -/
theorem C65_with_capacity_sized_short (hz : 2 ≤ sz) {env : Env (Val (sizedTy sz al) β)}
    (hx : ∀ m k, env.infoGrow m = .ok k → k = 0) {n k a : Nat} (hn : 2 ≤ n) (hk : n < k) (hb : k * sz ≤ c.usizeMax)
    {v : SVec sz al β} (hr : Api.withCapacityBytesAlign (sizedP c sz al) env n (k * sz) a = .ok () v) :
    v.Holds c [] ∧ ∃ m, (sizedP c sz al).byteCapacity v = some m ∧ m < k * sz := by
  have h0 : (SVec.new : SVec sz al β).Holds c [] := SVec.new_holds
  obtain ⟨h1, _, h2⟩ := C65_reserve_exact_sized h0 (by omega) hx hb hr
  have hc : (SVec.new : SVec sz al β).capacity c = 0 := by unfold SVec.capacity SVec.new; rw [if_neg (by omega)]
  rw [hc] at h2
  simp only [List.length_nil, Nat.zero_add, slotsFor, Nat.sub_zero, Nat.zero_max] at h2
  refine ⟨h1, v.capacity c * sz, SVec.byteCapacity_eq h1, Nat.mul_lt_mul_of_pos_right ?_ (by omega)⟩
  rw [h2]
  have h3 : (k * sz + n + sz - 1) / sz = k + (n + sz - 1) / sz := by
    rw [show k * sz + n + sz - 1 = n + sz - 1 + k * sz by omega, Nat.add_mul_div_right _ _ (by omega)]
    omega
  have h4 : (n + sz - 1) / sz < n := by
    rw [Nat.div_lt_iff_lt_mul (by omega)]
    obtain ⟨s, rfl⟩ : ∃ s, sz = s + 2 := ⟨sz - 2, by omega⟩
    obtain ⟨m, rfl⟩ : ∃ m, n = m + 2 := ⟨n - 2, by omega⟩
    simp only [Nat.add_mul, Nat.mul_add]
    generalize m * s = p
    omega
  rw [h3]
  omega

end

open Sample

/-- C65 is false of sized elements: `with_capacity_bytes(4, 20)` for elements of two bytes gives a byte capacity of 16. -/
theorem C65_counterexample_sized :
    ∃ v, Api.withCapacityBytes (sizedP c64 2 2) (env : Env (Val (sizedTy 2 2) Nat)) 4 20 = .ok () v ∧
      (sizedP c64 2 2).byteCapacity v = some 16 := ⟨_, rfl, rfl⟩

/-- The hypotheses of the theorems can be met. -/
example : (∀ m k, (env : Env (Val (sizedTy 2 2) Nat)).infoGrow m = .ok k → k = 0) ∧
    (∃ v, Api.withCapacityBytesAlign (sizedP c64 2 2) (env : Env (Val (sizedTy 2 2) Nat)) 4 (10 * 2) 1 = .ok () v) ∧
    (∃ v, Api.withCapacityBytesAlign (sizedP c64 2 2) (env : Env (Val (sizedTy 2 2) Nat)) 0 19 1 = .ok () v ∧
      (sizedP c64 2 2).byteCapacity v = some 20) :=
  ⟨fun _ _ h => by cases h; rfl, ⟨_, rfl⟩, ⟨_, rfl, rfl⟩⟩

example : slotsFor 2 20 4 = 8 ∧ slotsFor 2 20 0 = 10 ∧ slotsFor 8 20 2 = 1 := by decide

end Verif
