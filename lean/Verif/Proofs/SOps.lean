import Verif.Spec.Sized
import Verif.Proofs.Impl
import Verif.Proofs.Observe

/-!
# Vectors of sized elements: the operations
-/

namespace Verif
namespace SVec
variable {sz al : Nat} {β : Type} [Inhabited β] {c : Cfg} {v : SVec sz al β} {xs : List (Val (sizedTy sz al) β)}

set_option linter.unusedSectionVars false

theorem capacity_congr {v w : SVec sz al β} (h : w.slots = v.slots) : w.capacity c = v.capacity c := by
  unfold capacity; rw [h]

theorem Holds.capacity_le (h : v.Holds c xs) : v.capacity c ≤ c.usizeMax := by
  have h1 := h.capMax
  have h2 := c.isizeMax_le_usizeMax
  unfold capacity at h1 ⊢
  split
  · exact Nat.le_refl _
  · next hz =>
    rw [if_neg hz] at h1
    have := Nat.le_mul_of_pos_right v.slots (Nat.pos_of_ne_zero hz)
    omega

theorem new_holds : (SVec.new : SVec sz al β).Holds c [] := by
  refine ⟨fun _ h => absurd h List.not_mem_nil, rfl, fun i h => absurd h (Nat.not_lt_zero _), fun _ => Nat.zero_le _, Nat.zero_le _, ?_⟩
  unfold SVec.capacity
  split
  · next h => simp [h]
  · exact Nat.zero_mul _ ▸ Nat.zero_le _

theorem maxSlots_mul_le (c : Cfg) (sz : Nat) : maxSlots c sz * sz ≤ c.isizeMax := by
  unfold maxSlots
  split
  · next h => rw [h]; exact Nat.zero_le _
  · exact Nat.div_mul_le_self _ _

theorem slot_eq (h : v.Holds c xs) {i : Nat} (hi : i < xs.length) : v.slot i = xs[i] := by
  unfold slot
  rw [h.mem i hi]
  rfl

theorem Holds.len_eq (h : v.Holds c xs) : v.len = xs.length := h.len

theorem Holds.observe_eq (h : v.Holds c xs) : v.observe = some xs := by
  unfold observe
  rw [h.len]
  refine mapM_range_eq (fun i hi => ?_)
  unfold getUnchecked
  rw [if_pos (by rw [h.len]; exact hi), slot_eq h hi]

theorem Holds.withDrops (h : v.Holds c xs) (ds : List (Val (sizedTy sz al) β)) : ({ v with drops := ds } : SVec sz al β).Holds c xs :=
  ⟨h.wf, h.len, h.mem, h.slotLen, h.cap, h.capMax⟩

theorem byteLen_eq (h : v.Holds c xs) : v.byteLen c = some (xs.length * sz) := by
  unfold byteLen uncheckedMul
  have h1 := h.capMax
  have h2 := Nat.mul_le_mul_right sz h.cap
  have h3 := c.isizeMax_le_usizeMax
  rw [h.len, if_pos (by omega)]

theorem byteCapacity_eq (h : v.Holds c xs) : v.byteCapacity c = some (v.capacity c * sz) := by
  unfold byteCapacity uncheckedMul
  have h1 := h.capMax
  have h3 := c.isizeMax_le_usizeMax
  rw [if_pos (by omega)]

/-! ## reservation -/

/-- The effect of a successful reservation of `n` elements. -/
structure Grown (c : Cfg) (v v' : SVec sz al β) (xs : List (Val (sizedTy sz al) β)) (n : Nat) : Prop where
  holds : v'.Holds c xs
  drops : v'.drops = v.drops
  room : xs.length + n ≤ v'.capacity c
  mono : v.capacity c ≤ v'.capacity c
  idle : xs.length + n ≤ v.capacity c → v' = v

theorem tryReserve_cases (h : v.Holds c xs) (env : Env (Val (sizedTy sz al) β)) (n : Nat) :
    (∃ v', tryReserve c env n v = .ok (.ok ()) v' ∧ Grown c v v' xs n) ∨
    (∃ e, tryReserve c env n v = .ok (.error e) v ∧ Fails c sz env xs.length n e ∧ v.capacity c < xs.length + n) := by
  have hcap := h.cap
  have hlen := h.len
  unfold tryReserve
  rw [Exec.get_bind]
  unfold stdReserve
  by_cases hroom : n ≤ v.capacity c - v.len
  · rw [if_pos hroom]
    left
    refine ⟨v, ?_, h, rfl, by omega, Nat.le_refl _, fun _ => rfl⟩
    dsimp only
    rw [if_pos hroom]
    rfl
  · rw [if_neg hroom]
    by_cases hmax : maxSlots c sz < v.len + n
    · rw [if_pos hmax]
      right
      exact ⟨.capacityOverflow, rfl, .inl ⟨rfl, by rw [← hlen]; exact hmax⟩, by omega⟩
    · rw [if_neg hmax]
      cases hg : env.infoGrow (v.len + n) with
      | error e => exact .inr ⟨e, rfl, .inr (by rw [← hlen]; exact hg), by omega⟩
      | ok extra =>
        left
        have hz : sz ≠ 0 := by
          intro hz
          unfold maxSlots at hmax
          unfold capacity at hroom hcap
          rw [if_pos hz] at hmax hroom hcap
          omega
        have hc : ∀ w : SVec sz al β, w.capacity c = w.slots := fun w => by unfold capacity; rw [if_neg hz]
        have hm : c.isizeMax / sz = maxSlots c sz := by unfold maxSlots; rw [if_neg hz]
        refine ⟨{ v with slots := min (v.len + n + extra) (maxSlots c sz), allocs := v.allocs + 1 }, ?_, ⟨h.wf, h.len, h.mem, h.slotLen, ?_, ?_⟩, rfl, ?_, ?_, ?_⟩
        · dsimp only
          rw [if_neg hroom]
          rfl
        · rw [hc]; show _ ≤ min _ _; omega
        · rw [hc]
          exact Nat.le_trans (Nat.mul_le_mul_right _ (Nat.min_le_right _ _)) (maxSlots_mul_le c sz)
        · rw [hc]; show _ ≤ min _ _; omega
        · rw [hc v] at hroom ⊢; rw [hc]; show _ ≤ min _ _; omega
        · intro h1; omega

/-- `usize::div_ceil` by a positive number. -/
theorem divCeil_eq {σ : Type} {x y : Nat} (hy : 0 < y) (s : σ) : divCeil x y s = .ok ((x + y - 1) / y) s := by
  unfold divCeil
  rw [Exec.assert_bind (by omega)]
  rfl

theorem divCeil_zero {σ : Type} (x : Nat) (s : σ) : divCeil x 0 s = .panic s := by
  unfold divCeil
  rw [Exec.assert_bind_neg (by simp)]

/-- How many elements `try_reserve_additional_bytes_align` reserves. -/
def extra (c : Cfg) (v : SVec sz al β) (bytes : Nat) : Nat :=
  (saturatingAdd c bytes (v.free c) + sz - 1) / sz - v.free c

theorem tryReserveAdditionalBytes_eq (h : v.Holds c xs) (hz : 0 < sz) (env : Env (Val (sizedTy sz al) β)) (b : Nat) :
    tryReserveAdditionalBytes c env b v = tryReserve c env (v.extra c b) v := by
  have h1 : uncheckedSub (v.capacity c) v.len = some (v.free c) := by
    unfold uncheckedSub free
    rw [if_pos (by rw [h.len]; exact h.cap)]
  unfold tryReserveAdditionalBytes
  rw [Exec.get_bind, Exec.orUb_bind h1, Exec.bind_ok (divCeil_eq hz v)]
  rfl

theorem tryReserveAdditionalBytes_zst {v : SVec 0 al β} {xs : List (Val (sizedTy 0 al) β)} (h : v.Holds c xs)
    (env : Env (Val (sizedTy 0 al) β)) (b : Nat) :
    tryReserveAdditionalBytes c env b v = .panic v := by
  have h1 : uncheckedSub (v.capacity c) v.len = some (v.free c) := by
    unfold uncheckedSub free
    rw [if_pos (by rw [h.len]; exact h.cap)]
  unfold tryReserveAdditionalBytes
  rw [Exec.get_bind, Exec.orUb_bind h1]
  exact Exec.bind_panic (divCeil_zero _ _)

theorem extra_zero (h : v.Holds c xs) (hz : 0 < sz) : v.extra c 0 = 0 := by
  have h1 := h.capacity_le
  have h2 : v.free c ≤ c.usizeMax := by unfold free; omega
  unfold extra saturatingAdd
  rw [Nat.zero_add, Nat.min_eq_left h2]
  have : (v.free c + sz - 1) / sz ≤ v.free c := by
    rw [Nat.div_le_iff_le_mul_add_pred hz]
    have := Nat.le_mul_of_pos_left (v.free c) hz
    omega
  omega

theorem noAdd (h : v.Holds c xs) (hz : 0 < sz) (env : Env (Val (sizedTy sz al) β)) :
    tryReserveAdditionalBytes c env 0 v = .ok (.ok ()) v := by
  rw [tryReserveAdditionalBytes_eq h hz, extra_zero h hz]
  rcases tryReserve_cases h env 0 with ⟨v', h1, hg⟩ | ⟨e, _, _, h2⟩
  · rw [h1, hg.idle (by have := h.cap; omega)]
  · have := h.cap; omega

/-! ## moving elements -/

theorem size_eq (x : Val (sizedTy sz al) β) : x.size = sz := rfl
theorem align_eq (x : Val (sizedTy sz al) β) : x.align = al := rfl

theorem memwrite_eq {v : SVec sz al β} {i : Nat} {bs : List β} (hi : i < v.capacity c) (hb : bs.length ≤ sz) :
    memwrite c i bs v = .ok () { v with mem := fun j => if j = i then bs ++ (v.mem i).drop bs.length else v.mem j } := by
  unfold memwrite
  rw [Exec.get_bind, Exec.require_bind ⟨by omega, hb⟩]
  rfl

theorem memmove_eq {v : SVec sz al β} {src dst n : Nat} (h1 : src + n ≤ v.capacity c) (h2 : dst + n ≤ v.capacity c) :
    memmove c src dst n v =
      .ok () { v with mem := fun i => if dst ≤ i ∧ i < dst + n then v.mem (src + (i - dst)) else v.mem i } := by
  unfold memmove
  rw [Exec.get_bind, Exec.require_bind ⟨h1, h2⟩]
  rfl

theorem setLen_eq {v : SVec sz al β} {n : Nat} (h : n ≤ v.capacity c) : setLen c n v = .ok () { v with len := n } := by
  unfold setLen
  rw [Exec.get_bind, Exec.require_bind h]
  rfl

/-- Overwriting a whole slot. -/
theorem overwrite {bs old : List β} (hb : bs.length = sz) (ho : old.length ≤ sz) : bs ++ old.drop bs.length = bs := by
  rw [List.drop_eq_nil_of_le (by omega), List.append_nil]

theorem scribble_len {bs old : List β} (hb : bs.length ≤ sz) (ho : old.length ≤ sz) : (bs ++ old.drop bs.length).length ≤ sz := by
  rw [List.length_append, List.length_drop]; omega

/-- The contents are determined by the first slots. -/
theorem Holds.congr (h : v.Holds c xs) {w : SVec sz al β} (hs : w.slots = v.slots) (hl : w.len = v.len)
    (hm : ∀ i, i < xs.length → w.mem i = v.mem i) (hsl : ∀ i, (w.mem i).length ≤ sz) : w.Holds c xs :=
  ⟨h.wf, by rw [hl, h.len], fun i hi => by rw [hm i hi, h.mem i hi], hsl, by rw [capacity_congr hs]; exact h.cap,
    by rw [capacity_congr hs]; exact h.capMax⟩

/-- The vector after inserting bytes at slot `k`. -/
def inserted (v : SVec sz al β) (k : Nat) (bs : List β) : SVec sz al β :=
  { v with mem := fun i => if i < k then v.mem i else if i = k then bs else if i ≤ v.len then v.mem (i - 1) else v.mem i
           len := v.len + 1 }

theorem inserted_holds (h : v.Holds c xs) {x : Val (sizedTy sz al) β} (hx : x.WF c) {k : Nat} (hk : k ≤ xs.length)
    (hroom : xs.length < v.capacity c) : (v.inserted k x.bytes).Holds c (xs.take k ++ x :: xs.drop k) := by
  have hlen := h.len
  refine ⟨?_, ?_, ?_, ?_, ?_, h.capMax⟩
  · intro y hy
    rw [List.mem_append, List.mem_cons] at hy
    rcases hy with hy | rfl | hy
    · exact h.wf y (List.mem_of_mem_take hy)
    · exact hx
    · exact h.wf y (List.mem_of_mem_drop hy)
  · simp [inserted]; omega
  · intro i hi
    have hi' : i < xs.length + 1 := by simp at hi; omega
    unfold inserted
    dsimp only
    by_cases h1 : i < k
    · rw [if_pos h1, h.mem i (by omega), List.getElem_append_left (by simp; omega), List.getElem_take]
    · rw [if_neg h1, List.getElem_append_right (by simp; omega)]
      by_cases h2 : i = k
      · rw [if_pos h2]
        have : i - (xs.take k).length = 0 := by simp; omega
        simp only [this, List.getElem_cons_zero]
      · rw [if_neg h2, if_pos (by omega), h.mem (i - 1) (by omega)]
        have h3 : i - (xs.take k).length = (i - k - 1) + 1 := by simp; omega
        simp only [h3, List.getElem_cons_succ, List.getElem_drop]
        congr 2; omega
  · intro i
    unfold inserted
    dsimp only
    split
    · exact h.slotLen _
    · split
      · rw [hx.bytes_len]; exact Nat.le_refl _
      · split <;> exact h.slotLen _
  · show _ ≤ v.capacity c
    simp; omega

theorem pushUnchecked_eq (h : v.Holds c xs) {x : Val (sizedTy sz al) β} (hx : x.WF c) (hroom : xs.length < v.capacity c) :
    ∃ v', pushUnchecked c x v = .ok () v' ∧ v'.Holds c (xs ++ [x]) ∧ v'.drops = v.drops ∧ v'.slots = v.slots ∧
      v'.allocs = v.allocs := by
  have hlen := h.len
  have hle := h.capacity_le
  have hb : x.bytes.length = sz := hx.bytes_len
  refine ⟨v.inserted xs.length x.bytes, ?_, ?_, rfl, rfl, rfl⟩
  · unfold pushUnchecked
    rw [Exec.get_bind, Exec.debugAssert_bind (by omega), Exec.require_bind (by omega),
      Exec.bind_ok (memwrite_eq (by omega) (by omega))]
    rw [Exec.orUb_bind (show uncheckedAdd c v.len 1 = some (v.len + 1) by unfold uncheckedAdd; rw [if_pos (by omega)])]
    rw [setLen_eq (by show _ ≤ v.capacity c; omega)]
    congr 1
    unfold inserted
    congr 1
    funext i
    rw [overwrite hb (h.slotLen _)]
    dsimp only
    by_cases h1 : i < xs.length
    · rw [if_neg (by omega), if_pos h1]
    · rw [if_neg h1]
      by_cases h2 : i = xs.length
      · rw [if_pos h2, if_pos (by omega)]
      · rw [if_neg h2, if_neg (by omega), if_neg (by omega)]
  · have := inserted_holds h hx (Nat.le_refl xs.length) hroom
    simpa using this

theorem insertUnchecked_eq (h : v.Holds c xs) {x : Val (sizedTy sz al) β} (hx : x.WF c) (hroom : xs.length < v.capacity c) {k : Nat}
    (hk : k ≤ xs.length) :
    ∃ v', insertUnchecked c k x v = .ok () v' ∧ v'.Holds c (xs.take k ++ x :: xs.drop k) ∧ v'.drops = v.drops ∧ v'.slots = v.slots ∧
      v'.allocs = v.allocs := by
  have hlen := h.len
  have hle := h.capacity_le
  have hb : x.bytes.length = sz := hx.bytes_len
  refine ⟨v.inserted k x.bytes, ?_, inserted_holds h hx hk hroom, rfl, rfl, rfl⟩
  unfold insertUnchecked
  rw [Exec.get_bind, Exec.debugAssert_bind (by omega),
    Exec.orUb_bind (show uncheckedSub v.len k = some (v.len - k) by unfold uncheckedSub; rw [if_pos (by omega)]),
    Exec.require_bind ⟨by omega, by omega⟩, Exec.bind_ok (memmove_eq (by omega) (by omega)),
    Exec.bind_ok (memwrite_eq (by show _ < v.capacity c; omega) (by omega))]
  rw [Exec.orUb_bind (show uncheckedAdd c v.len 1 = some (v.len + 1) by unfold uncheckedAdd; rw [if_pos (by omega)])]
  rw [setLen_eq (by show _ ≤ v.capacity c; omega)]
  congr 1
  unfold inserted
  congr 1
  funext i
  dsimp only
  rw [if_neg (show ¬ (k + 1 ≤ k ∧ k < k + 1 + (v.len - k)) by omega), overwrite hb (h.slotLen _)]
  by_cases h1 : i < k
  · rw [if_pos h1, if_neg (by omega), if_neg (by omega)]
  · rw [if_neg h1]
    by_cases h2 : i = k
    · rw [if_pos h2, if_pos h2]
    · rw [if_neg h2, if_neg h2]
      by_cases h3 : i ≤ v.len
      · rw [if_pos (by omega), if_pos h3]
        congr 1; omega
      · rw [if_neg (by omega), if_neg h3]

/-! ## emplacing -/

theorem Meta.eq_unit (md : (sizedTy sz al).Meta) : md = () := rfl

/-- `unwrapReserve` after `tryReserve 1`. -/
theorem reserveOne_meets (h : v.Holds c xs) (env : Env (Val (sizedTy sz al) β)) :
    ((do let r ← tryReserve c env 1; unwrapReserve r : Exec (SVec sz al β) Unit) v).Meets
      (fun _ v' => Grown c v v' xs 1) (fun v' => v' = v ∧ v.NoSlot c env) (v.NoSlot c env) := by
  rcases tryReserve_cases h env 1 with ⟨v', h1, hg⟩ | ⟨e, h1, hf, hlt⟩
  · rw [Exec.bind_ok h1]; exact hg
  · rw [Exec.bind_ok h1]
    have hno : v.NoSlot c env := by
      have := h.cap
      unfold NoSlot
      rw [h.len]
      exact ⟨by omega, _, hf⟩
    cases e
    · exact ⟨rfl, hno⟩
    · exact hno

theorem pushWith_meets (h : v.Holds c xs) (env : Env (Val (sizedTy sz al) β)) (hmd : MetaOk (T := sizedTy sz al) c ()) :
    (pushWith c env ⟨sz, al⟩ () v).Meets
      (fun p v1 => p.Places v1 sz (fun v' => v'.Holds c xs ∧ v'.drops = v.drops)
        (fun bs v' => v'.Holds c (xs ++ [⟨(), bs⟩]) ∧ v'.drops = v.drops))
      (fun v' => v' = v ∧ v.NoSlot c env) (v.NoSlot c env) := by
  have hlen := h.len
  unfold pushWith
  rw [← Exec.bind_assoc_apply]
  refine (reserveOne_meets h env).bind ?_
  intro _ v1 hg
  have h1 := hg.holds
  have hlen1 := h1.len
  have hroom := hg.room
  have hle := h1.capacity_le
  rw [Exec.get_bind, Exec.require_bind (by omega)]
  refine ⟨_, _, _, rfl, ?_, ?_⟩
  · intro bs hbs
    refine ⟨_, _, (Exec.require_bind hbs _ _).trans (memwrite_eq (by omega) hbs), rfl, ?_⟩
    · refine ⟨h1.congr rfl rfl ?_ ?_, hg.drops⟩
      · intro i hi
        dsimp only
        rw [if_neg (by omega)]
      · intro i
        dsimp only
        split
        · exact scribble_len hbs (h1.slotLen _)
        · exact h1.slotLen _
  · intro bs hbs
    have hx : Val.WF (T := sizedTy sz al) c ⟨(), bs⟩ := hmd.wf hbs
    refine ⟨_, v1.inserted xs.length bs, by rw [Exec.require_bind (by simp only; omega), memwrite_eq (by omega) (by omega)], ?_, ?_, hg.drops⟩
    · rw [Exec.get_bind, Exec.orUb_bind (show uncheckedAdd c v1.len 1 = some (v1.len + 1) by unfold uncheckedAdd; rw [if_pos (by omega)]),
        setLen_eq (by show _ ≤ v1.capacity c; omega)]
      congr 1
      unfold inserted
      congr 1
      funext i
      rw [overwrite hbs (h1.slotLen _)]
      dsimp only
      by_cases h2 : i < xs.length
      · rw [if_neg (by omega), if_pos h2]
      · rw [if_neg h2]
        by_cases h3 : i = xs.length
        · rw [if_pos h3, if_pos (by omega)]
        · rw [if_neg h3, if_neg (by omega), if_neg (by omega)]
    · have := inserted_holds h1 hx (Nat.le_refl xs.length) (by omega)
      simpa using this

theorem insertWith_meets (h : v.Holds c xs) (env : Env (Val (sizedTy sz al) β)) (hmd : MetaOk (T := sizedTy sz al) c ()) {k : Nat}
    (hk : k ≤ xs.length) :
    (insertWithUnchecked c env k ⟨sz, al⟩ () v).Meets
      (fun p v1 => p.Places v1 sz (fun v' => v'.Holds c xs ∧ v'.drops = v.drops)
        (fun bs v' => v'.Holds c (xs.take k ++ ⟨(), bs⟩ :: xs.drop k) ∧ v'.drops = v.drops))
      (fun v' => v' = v ∧ v.NoSlot c env) (v.NoSlot c env) := by
  have hlen := h.len
  unfold insertWithUnchecked
  rw [← Exec.bind_assoc_apply]
  refine (reserveOne_meets h env).bind ?_
  intro _ v1 hg
  have h1 := hg.holds
  have hlen1 := h1.len
  have hroom := hg.room
  have hle := h1.capacity_le
  rw [Exec.get_bind, Exec.require_bind (by omega),
    Exec.orUb_bind (show uncheckedSub v1.len k = some (v1.len - k) by unfold uncheckedSub; rw [if_pos (by omega)]),
    Exec.require_bind (by omega), Exec.bind_ok (memmove_eq (by omega) (by omega))]
  refine ⟨_, _, _, rfl, ?_, ?_⟩
  · intro bs hbs
    refine ⟨_, _, (Exec.require_bind hbs _ _).trans (memwrite_eq (by show _ < v1.capacity c; omega) hbs),
      memmove_eq (by show _ ≤ v1.capacity c; omega) (by show _ ≤ v1.capacity c; omega), ?_⟩
    · refine ⟨h1.congr rfl rfl ?_ ?_, hg.drops⟩
      · intro i hi
        dsimp only
        by_cases h2 : k ≤ i
        · rw [if_pos (by omega), if_neg (by omega), if_pos (by omega)]
          congr 1; omega
        · rw [if_neg (by omega), if_neg (by omega), if_neg (by omega)]
      · have hs : ∀ i, (if k + 1 ≤ i ∧ i < k + 1 + (v1.len - k) then v1.mem (k + (i - (k + 1))) else v1.mem i).length ≤ sz := by
          intro i
          split <;> exact h1.slotLen _
        have hs' : ∀ i, (if i = k then bs ++ (if k + 1 ≤ k ∧ k < k + 1 + (v1.len - k) then v1.mem (k + (k - (k + 1))) else v1.mem k).drop bs.length
            else if k + 1 ≤ i ∧ i < k + 1 + (v1.len - k) then v1.mem (k + (i - (k + 1))) else v1.mem i).length ≤ sz := by
          intro i
          by_cases hik : i = k
          · rw [if_pos hik]; exact scribble_len hbs (hs k)
          · rw [if_neg hik]; exact hs i
        intro i
        dsimp only
        by_cases h3 : k ≤ i ∧ i < k + (v1.len - k)
        · rw [if_pos h3]; exact hs' _
        · rw [if_neg h3]; exact hs' _
  · intro bs hbs
    have hx : Val.WF (T := sizedTy sz al) c ⟨(), bs⟩ := hmd.wf hbs
    refine ⟨_, v1.inserted k bs, by
      rw [Exec.require_bind (by simp only; omega), memwrite_eq (by show _ < v1.capacity c; omega) (by omega)], ?_, inserted_holds h1 hx hk (by omega), hg.drops⟩
    rw [Exec.get_bind, Exec.orUb_bind (show uncheckedAdd c _ 1 = some (v1.len + 1) by unfold uncheckedAdd; rw [if_pos (by dsimp only; omega)]),
      setLen_eq (by show _ ≤ v1.capacity c; omega)]
    congr 1
    unfold inserted
    congr 1
    funext i
    dsimp only
    rw [if_neg (show ¬ (k + 1 ≤ k ∧ k < k + 1 + (v1.len - k)) by omega), overwrite hbs (h1.slotLen _)]
    by_cases h2 : i < k
    · rw [if_pos h2, if_neg (by omega), if_neg (by omega)]
    · rw [if_neg h2]
      by_cases h3 : i = k
      · rw [if_pos h3, if_pos h3]
      · rw [if_neg h3, if_neg h3]
        by_cases h4 : i ≤ v1.len
        · rw [if_pos (by omega), if_pos h4]
          congr 1; omega
        · rw [if_neg (by omega), if_neg h4]

/-! ## removal -/

theorem dropInPlace_eq {v : SVec sz al β} (env : Env (Val (sizedTy sz al) β)) {i : Nat} (hi : i < v.capacity c) :
    dropInPlace c env i v = (if env.dropPanics (v.slot i) then Res.panic { v with drops := v.drops ++ [v.slot i] }
      else .ok () { v with drops := v.drops ++ [v.slot i] }) := by
  unfold dropInPlace
  rw [Exec.get_bind, Exec.require_bind (by omega), Exec.modify_bind]
  split <;> rfl

/-- A vector whose length has been reduced by one. -/
theorem Holds.shorter (h : v.Holds c xs) : ({ v with len := xs.length - 1 } : SVec sz al β).Holds c xs.dropLast := by
  refine ⟨fun x hx => h.wf x (List.dropLast_subset _ hx), by simp, ?_, h.slotLen, ?_, h.capMax⟩
  · intro i hi
    rw [List.getElem_dropLast]
    exact h.mem i (by simp at hi; omega)
  · have := h.cap
    show _ ≤ v.capacity c
    simp; omega

/-- Closing the gap after a removal. -/
theorem Holds.closed (h : v.Holds c xs) {k : Nat} (hk : k < xs.length) {w : SVec sz al β} (hs : w.slots = v.slots)
    (hl : w.len = xs.length - 1) (hm : ∀ i, w.mem i = if k ≤ i ∧ i < k + (xs.length - 1 - k) then v.mem (k + 1 + (i - k)) else v.mem i) :
    w.Holds c (xs.eraseIdx k) := by
  have hcap := h.cap
  have hlen : (xs.eraseIdx k).length = xs.length - 1 := by rw [List.length_eraseIdx, if_pos hk]
  refine ⟨fun x hx => h.wf x (List.mem_of_mem_eraseIdx hx), by rw [hl, hlen], ?_, ?_, ?_, ?_⟩
  · intro i hi
    rw [hlen] at hi
    rw [hm i, List.getElem_eraseIdx]
    by_cases h1 : i < k
    · rw [if_neg (by omega), dif_pos h1]
      exact h.mem i (by omega)
    · rw [if_pos (by omega), dif_neg h1]
      have : k + 1 + (i - k) = i + 1 := by omega
      rw [this]
      exact h.mem (i + 1) (by omega)
  · intro i
    rw [hm i]
    split <;> exact h.slotLen _
  · rw [capacity_congr hs, hlen]; omega
  · rw [capacity_congr hs]; exact h.capMax

theorem popIntoUnchecked_gives {x : Val (sizedTy sz al) β} (h : v.Holds c (xs ++ [x])) (env : Env (Val (sizedTy sz al) β)) :
    ∃ st v1, popIntoUnchecked c env v = .ok st v1 ∧ Gives (Holds c) SVec.drops env st v v1 x x.align xs xs := by
  have hlen := h.len
  have hcap := h.cap
  have hle := h.capacity_le
  simp only [List.length_append, List.length_cons, List.length_nil] at hlen hcap
  have hslot : v.slot xs.length = x := by rw [slot_eq h (by simp)]; simp
  have hsh := h.shorter
  simp only [List.length_append, List.length_cons, List.length_nil, Nat.add_sub_cancel, Nat.zero_add, List.dropLast_concat] at hsh
  refine ⟨⟨⟨sz, al⟩, (), copyOut c xs.length, dropInPlace c env xs.length, pure ()⟩, { v with len := xs.length }, ?_, rfl, rfl, ⟨hsh, rfl⟩, ?_, ?_, ?_⟩
  · unfold popIntoUnchecked
    rw [Exec.get_bind, Exec.debugAssert_bind (by omega),
      Exec.orUb_bind (show uncheckedSub v.len 1 = some xs.length by unfold uncheckedSub; rw [if_pos (by omega)]; congr 1; omega),
      Exec.bind_ok (setLen_eq (by omega)), Exec.require_bind (by omega)]
    rfl
  · show copyOut c xs.length _ = _
    unfold copyOut
    rw [if_pos (by show _ ≤ v.capacity c; omega)]
    congr 1
    have := congrArg Val.bytes hslot
    exact this
  · exact ⟨_, rfl, hsh, rfl⟩
  · refine ⟨{ v with len := xs.length, drops := v.drops ++ [x] }, ?_, hsh.withDrops _, rfl, _, rfl, hsh.withDrops _, rfl⟩
    show dropInPlace c env xs.length _ = _
    rw [dropInPlace_eq env (by show _ < v.capacity c; omega)]
    have : ({ v with len := xs.length } : SVec sz al β).slot xs.length = x := hslot
    rw [this]

theorem removeIntoUnchecked_gives (h : v.Holds c xs) (env : Env (Val (sizedTy sz al) β)) {k : Nat} (hk : k < xs.length) :
    ∃ st v1, removeIntoUnchecked c env k v = .ok st v1 ∧
      Gives (Holds c) SVec.drops env st v v1 xs[k] xs[k].align xs.dropLast (xs.eraseIdx k) := by
  have hlen := h.len
  have hcap := h.cap
  have hle := h.capacity_le
  have hslot : v.slot k = xs[k] := slot_eq h hk
  have hsh := h.shorter
  have hfin : ∀ ds, (do Exec.require (k + 1 ≤ v.capacity c); memmove c (k + 1) k (xs.length - 1 - k) : Exec (SVec sz al β) Unit)
      ({ v with len := xs.length - 1, drops := ds } : SVec sz al β) = .ok ()
      ({ v with len := xs.length - 1, drops := ds,
                mem := fun i => if k ≤ i ∧ i < k + (xs.length - 1 - k) then v.mem (k + 1 + (i - k)) else v.mem i } : SVec sz al β) := by
    intro ds
    rw [Exec.require_bind (by omega), memmove_eq (by show _ ≤ v.capacity c; omega) (by show _ ≤ v.capacity c; omega)]
  refine ⟨⟨⟨sz, al⟩, (), copyOut c k, dropInPlace c env k,
      do Exec.require (k + 1 ≤ v.capacity c); memmove c (k + 1) k (xs.length - 1 - k)⟩,
    { v with len := xs.length - 1 }, ?_, rfl, rfl, ⟨hsh, rfl⟩, ?_, ?_, ?_⟩
  · unfold removeIntoUnchecked
    rw [Exec.get_bind, Exec.debugAssert_bind (by omega),
      Exec.orUb_bind (show uncheckedSub v.len 1 = some (xs.length - 1) by unfold uncheckedSub; rw [if_pos (by omega)]; congr 1; omega),
      Exec.bind_ok (setLen_eq (by omega)), Exec.require_bind (by omega),
      Exec.orUb_bind (show uncheckedSub (xs.length - 1) k = some (xs.length - 1 - k) by unfold uncheckedSub; rw [if_pos (by omega)])]
    rfl
  · show copyOut c k _ = _
    unfold copyOut
    rw [if_pos (by show _ ≤ v.capacity c; omega)]
    congr 1
    exact congrArg Val.bytes hslot
  · exact ⟨_, hfin v.drops, h.closed hk rfl rfl (fun _ => rfl), rfl⟩
  · refine ⟨{ v with len := xs.length - 1, drops := v.drops ++ [xs[k]] }, ?_, hsh.withDrops _, rfl, _, hfin _, h.closed hk rfl rfl (fun _ => rfl), rfl⟩
    show dropInPlace c env k _ = _
    rw [dropInPlace_eq env (by show _ < v.capacity c; omega)]
    have : ({ v with len := xs.length - 1 } : SVec sz al β).slot k = xs[k] := hslot
    rw [this]

end SVec
end Verif
