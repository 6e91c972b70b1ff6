import Verif.Proofs.CostSSeq
import Verif.Props.Cost
import Verif.Props.Sized

/-!
# C68: what the calls cost, sized elements

`UnsizedVec<T>` for `T: Sized` is a `Vec<T>`. All elements have `sz` bytes here.
-/

namespace Verif
open Sample

section
variable {β : Type} [Inhabited β] {c : Cfg} {sz al : Nat}

omit [Inhabited β] in
/-- Indexing, `get` and `len` copy nothing and have no loops. -/
theorem C68_index_sized (env : Env (Val (sizedTy sz al) β)) (v : SVec sz al β) (i : Nat) :
    CostsAtMost c (sizedMetered c sz al) env (.index i) v 0 ∧ CostsAtMost c (sizedMetered c sz al) env (.get i) v 0 ∧
      CostsAtMost c (sizedMetered c sz al) env .len v 0 :=
  ⟨(index_meters i).atMost (fun _ _ _ h => Nat.le_of_eq h) fun _ h => Nat.le_of_eq h,
    (get_meters i).atMost (fun _ _ _ h => Nat.le_of_eq h) fun _ h => Nat.le_of_eq h,
    len_meters.atMost (fun _ _ _ h => Nat.le_of_eq h) fun _ h => Nat.le_of_eq h⟩

omit [Inhabited β] in
/-- `pop_into` copies at most one element. -/
theorem C68_pop_sized (env : Env (Val (sizedTy sz al) β)) (v : SVec sz al β) (d : Dst) : CostsAtMost c (sizedMetered c sz al) env (.pop d) v sz :=
  (pop_meters d (SVec.Metered.popIntoUnchecked_meters env v)).atMost (fun _ _ _ h => h) fun _ h => h

omit [Inhabited β] in
/-- `remove_into` copies at most the element and everything behind. -/
theorem C68_remove_sized {v : SVec sz al β} {xs : List (Val (sizedTy sz al) β)} (h : v.Holds c xs) (env : Env (Val (sizedTy sz al) β)) (i : Nat) (d : Dst) :
    CostsAtMost c (sizedMetered c sz al) env (.remove i d) v ((xs.length - i) * sz) := by
  refine (remove_meters i d (B := (xs.length - i) * sz) fun ⟨_, hi⟩ => ?_).atMost (fun _ _ _ h => h) fun _ h => h
  have hi : i < v.len := hi
  have hl := h.len
  refine (SVec.Metered.removeIntoUnchecked_meters env i v).mono ?_ fun _ h => h
  rintro st t k ⟨hk, he⟩
  refine ⟨hk, he.mono ?_⟩
  rw [hl, show xs.length - i = xs.length - 1 - i + 1 by omega, Nat.add_mul]
  omega

/-- `push` with a free slot copies the element, and nothing else. -/
theorem C68_push_room_sized (hz : 0 < sz) {v : SVec sz al β} {xs : List (Val (sizedTy sz al) β)} (h : v.Holds c xs) (hroom : xs.length < v.capacity c)
    (env : Env (Val (sizedTy sz al) β)) {x : Val (sizedTy sz al) β} (hx : x.WF c) :
    CostsAtMost c (sizedMetered c sz al) env (.push x) v sz ∧ CostsAtMost c (sizedMetered c sz al) env (.pushWith (.value x)) v sz := by
  have hb : x.bytes.length = sz := hx.bytes_len
  have hno : ¬ v.NoSlot c env := fun ⟨h1, _⟩ => by have := h.len; omega
  have idle : ∀ t : SVec sz al β, stdReserve (SVec.maxSlots c sz) v.slots v.len 1 env.infoGrow = .ok t.slots → SVec.Metered.blockMoved v t = 0 := by
    intro t ht
    rw [SVec.Metered.capacity_pos hz] at hroom
    unfold stdReserve at ht
    rw [if_pos (by rw [h.len]; omega)] at ht
    injection ht with ht
    exact if_pos ht.symm
  have key : ∀ op, Adds op → ((op x).exec c (sizedMetered c sz al) env).Meters v
      (fun o t d => o = .done ∧ stdReserve (SVec.maxSlots c sz) v.slots v.len 1 env.infoGrow = .ok t.slots ∧
        d = SVec.Metered.blockMoved v t + x.bytes.length) (fun d => d ≤ v.slots * sz + x.bytes.length) →
      CostsAtMost c (sizedMetered c sz al) env (op x) v sz := by
    intro op hop hm n
    obtain ⟨v1, h1, _⟩ := SVec.adds_return hop hz h hx hno
    obtain ⟨d, h5, _, h6, h7⟩ := hm.returns ((sized_over sz al).exec (op x)) h1 n
    rw [h5]
    have := idle _ h6
    dsimp only
    omega
  exact ⟨key _ (.inl rfl) (SVec.Metered.push_meters hz env x v), key _ (.inr rfl) (SVec.Metered.pushWith_op_meters hz env x v)⟩

/-- `push` and `push_with` in any case: apart from the element, at most the storage is copied, once. -/
theorem C68_push_sized (hz : 0 < sz) (env : Env (Val (sizedTy sz al) β)) (v : SVec sz al β) {x : Val (sizedTy sz al) β} (hx : x.WF c) :
    CostsAtMost c (sizedMetered c sz al) env (.push x) v (sz + v.slots * sz) ∧
      CostsAtMost c (sizedMetered c sz al) env (.pushWith (.value x)) v (sz + v.slots * sz) := by
  have hb : x.bytes.length = sz := hx.bytes_len
  constructor
  · refine (SVec.Metered.push_meters hz env x v).atMost ?_ (fun _ h => by omega)
    rintro _ t d ⟨_, _, rfl⟩
    have := SVec.Metered.blockMoved_le v t
    omega
  · refine (SVec.Metered.pushWith_op_meters hz env x v).atMost ?_ (fun _ h => by omega)
    rintro _ t d ⟨_, _, rfl⟩
    have := SVec.Metered.blockMoved_le v t
    omega

/-- `insert` copies the element, everything behind its place, and at most once the storage. -/
theorem C68_insert_sized (hz : 0 < sz) {v : SVec sz al β} {xs : List (Val (sizedTy sz al) β)} (h : v.Holds c xs) (env : Env (Val (sizedTy sz al) β))
    (i : Nat) {x : Val (sizedTy sz al) β} (hx : x.WF c) :
    CostsAtMost c (sizedMetered c sz al) env (.insert i x) v (sz + (xs.length - i) * sz + v.slots * sz) := by
  have hb : x.bytes.length = sz := hx.bytes_len
  have hl := h.len
  refine (SVec.Metered.insert_meters hz env i x v).atMost ?_ (fun _ h => by rw [hl] at h; omega)
  rintro _ t d rfl
  have := SVec.Metered.blockMoved_le v t
  rw [hl]
  omega

/-- Filling a new vector, with `push` or with `push_with`, costs at most three times the bytes and four elements, if the `Vec` doubles its
capacity. Unlike for unsized elements, this holds for `push_with`, too: compare `C68_pushesWith_lower_aligned`. -/
theorem C68_pushes_sized (hz : 0 < sz) {env : Env (Val (sizedTy sz al) β)} (hi : ∀ n, ∃ k, env.infoGrow n = .ok k ∧ n - 2 ≤ k ∧ k ≤ n + 4)
    {xs : List (Val (sizedTy sz al) β)} (hx : ∀ x ∈ xs, x.WF c) (hlen : 2 * xs.length ≤ c.isizeMax / sz) :
    (∃ v' n, runOps c (sizedMetered c sz al) (xs.map fun x => (env, .push x)) (SVec.new, 0) = .ok (xs.map fun _ => .done) (v', n) ∧
      v'.Holds c xs ∧ n ≤ (3 * xs.length + 4) * sz) ∧
    ∃ v' n, runOps c (sizedMetered c sz al) (xs.map fun x => (env, .pushWith (.value x))) (SVec.new, 0) = .ok (xs.map fun _ => .done) (v', n) ∧
      v'.Holds c xs ∧ n ≤ (3 * xs.length + 4) * sz := by
  have hm : 2 * xs.length ≤ SVec.maxSlots c sz := by unfold SVec.maxSlots; rw [if_neg (by omega)]; exact hlen
  exact ⟨SVec.adds_cost (.inl rfl) hz hi hx hm, SVec.adds_cost (.inr rfl) hz hi hx hm⟩

end

/-- The hypotheses can be met: a vector of three pairs with capacity 5. A `push` shows 2, a `pop` 2, removing the first element 6, inserting in
front 8. -/
example : vecP.Holds c64 listP ∧ listP.length < vecP.capacity c64 ∧ (pair 7 8).WF c64 ∧
    ((Op.push (pair 7 8)).exec c64 (sizedMetered c64 2 2) env (vecP, 0)).meter = some 2 ∧
    ((Op.pushWith (.value (pair 7 8))).exec c64 (sizedMetered c64 2 2) env (vecP, 0)).meter = some 2 ∧
    ((Op.pop .take).exec c64 (sizedMetered c64 2 2) env (vecP, 0)).meter = some 2 ∧
    ((Op.remove 0 .take).exec c64 (sizedMetered c64 2 2) env (vecP, 0)).meter = some 6 ∧
    ((Op.insert 0 (pair 7 8)).exec c64 (sizedMetered c64 2 2) env (vecP, 0)).meter = some 8 :=
  ⟨vecP_holds _ (.inl rfl), by decide, pair_wf _ _ _ (.inl rfl), by decide +kernel, by decide +kernel, by decide +kernel, by decide +kernel, by decide +kernel⟩

/-- Ten pairs, pushed: 20 bytes for the pairs, 24 for growing from 4 to 8 and then to 16. The bound is 68. -/
example : (∀ n, ∃ k, (envDoubles : Env (Val (sizedTy 2 2) Nat)).infoGrow n = .ok k ∧ n - 2 ≤ k ∧ k ≤ n + 4) ∧
    (∀ x ∈ List.replicate 10 (pair 1 2), x.WF c64) ∧ 2 * (List.replicate 10 (pair 1 2)).length ≤ c64.isizeMax / 2 ∧
    (runOps c64 (sizedMetered c64 2 2) ((List.replicate 10 (pair 1 2)).map fun x => (envDoubles, .push x)) (SVec.new, 0)).meter = some 44 ∧
    (runOps c64 (sizedMetered c64 2 2) ((List.replicate 10 (pair 1 2)).map fun x => (envDoubles, .pushWith (.value x))) (SVec.new, 0)).meter = some 44 :=
  ⟨fun n => ⟨_, rfl, by omega, by omega⟩, fun x hx => (List.eq_of_mem_replicate hx) ▸ pair_wf _ _ _ (.inl rfl), by decide, by decide +kernel, by decide +kernel⟩

end Verif
