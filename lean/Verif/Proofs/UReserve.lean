import Verif.Proofs.Realign
import Verif.Spec.Guards

/-!
# Dynamically aligned vectors: offsets and reservation
-/

namespace Verif
variable {T : UTy} {β : Type}

/-- The info of the last element. -/
theorem infosFrom_getLast? {R : Type} (enc : T.Meta → R) (w : Nat → Nat) (xs : List (Val T β)) (x : Val T β) :
    (infosFrom enc w 0 (xs ++ [x])).getLast? = some ⟨enc x.md, totalWidth w xs + x.size⟩ := by
  rw [infosFrom_concat]; simp

namespace UVec
variable {G : Prop} {c : Cfg} {v : UVec T β} {xs : List (Val T β)}

theorem Represents.length (h : v.Represents G c xs) : v.elems.length = xs.length := by rw [h.infos, infosFrom_length]
theorem Represents.len_eq (h : v.Represents G c xs) : v.len = xs.length := h.length

theorem Represents.capMax (h : v.Represents G c xs) : v.byteCap ≤ c.isizeMax := by have := h.room; omega

theorem Represents.width_le (h : v.Represents G c xs) (i : Nat) : totalWidth (padTo v.align) (xs.take i) ≤ c.isizeMax :=
  Nat.le_trans (totalWidth_take_le _ _ _) (Nat.le_trans h.cap h.capMax)

theorem Represents.total_le (h : v.Represents G c xs) : totalWidth (padTo v.align) xs ≤ c.isizeMax :=
  Nat.le_trans h.cap h.capMax

theorem Represents.elem_le (h : v.Represents G c xs) (i : Nat) (hi : i < xs.length) :
    totalWidth (padTo v.align) (xs.take i) + xs[i].size ≤ totalWidth (padTo v.align) xs := by
  have h1 := totalWidth_take_succ (padTo v.align) xs i hi
  have h2 := totalWidth_take_le (padTo v.align) xs (i + 1)
  have h3 := le_padTo h.al.pos xs[i].size
  omega

theorem unalignedByteLen_le (h : v.Represents G c xs) : v.unalignedByteLen ≤ totalWidth (padTo v.align) xs := by
  unfold unalignedByteLen lastEnd
  rw [h.infos]
  rcases List.eq_nil_or_concat xs with rfl | ⟨ys, x, rfl⟩
  · simp
  · rw [List.concat_eq_append, infosFrom_getLast?]
    have := le_padTo h.al.pos x.size
    simp; omega

theorem padTo_unalignedByteLen (h : v.Represents G c xs) :
    padTo v.align v.unalignedByteLen = totalWidth (padTo v.align) xs := by
  unfold unalignedByteLen lastEnd
  rw [h.infos]
  rcases List.eq_nil_or_concat xs with rfl | ⟨ys, x, rfl⟩
  · simp
  · rw [List.concat_eq_append, infosFrom_getLast?]
    simp only [totalWidth_append]
    rw [padTo_add h.al.pos (dvd_totalWidth ys)]
    simp

theorem alignedByteLen_eq (h : v.Represents G c xs) : v.alignedByteLen c = some (totalWidth (padTo v.align) xs) := by
  have h1 := unalignedByteLen_le h
  have h2 := h.total_le
  unfold alignedByteLen
  rw [VSU.uncheckedPadTo_eq h.al (by omega) (by rw [padTo_unalignedByteLen h]; exact h2), padTo_unalignedByteLen h]

theorem startOffset_eq (h : v.Represents G c xs) (i : Nat) (hi : i ≤ xs.length) :
    v.startOffset c i = some (totalWidth (padTo v.align) (xs.take i)) := by
  unfold startOffset
  cases i with
  | zero => simp
  | succ i =>
    have hi' : i < xs.length := by omega
    have h1 := totalWidth_take_succ (padTo v.align) xs i hi'
    have h2 := h.width_le (i + 1)
    have h3 := le_padTo h.al.pos xs[i].size
    dsimp only
    rw [h.infos, infosFrom_getElem?, List.getElem?_eq_getElem hi']
    simp only [Option.map_some, Nat.zero_add]
    rw [VSU.uncheckedPadTo_eq h.al (by omega) (by rw [padTo_add h.al.pos (dvd_totalWidth _)]; omega),
      padTo_add h.al.pos (dvd_totalWidth _), h1]

/-- Changing only the record capacity keeps the representation. -/
theorem Represents.withElemsCap (h : v.Represents G c xs) {n : Nat} (hn : xs.length ≤ n) :
    ({ v with elemsCap := n } : UVec T β).Represents G c xs :=
  ⟨h.wf, h.al, h.elemAl, h.infos, hn, h.cap, h.capDvd, h.room, h.mem, h.block, h.leaks⟩

theorem tryReserve_spec (h : v.Represents G c xs) (env : Env (Val T β)) (n : Nat) :
    (∃ cap, tryReserve c env n v = .ok (.ok ()) { v with elemsCap := cap } ∧ xs.length + n ≤ cap ∧ v.elemsCap ≤ cap ∧
      (xs.length + n ≤ v.elemsCap → cap = v.elemsCap)) ∨
    (∃ e, tryReserve c env n v = .ok (.error e) v ∧
      ((e = .capacityOverflow ∧ c.infoMax < xs.length + n) ∨ env.infoGrow (xs.length + n) = .error e) ∧
      v.elemsCap < xs.length + n) := by
  have hr := h.recs
  have hl : v.len = xs.length := h.length
  unfold tryReserve
  rw [Exec.get_bind]
  unfold stdReserve
  by_cases h1 : n ≤ v.elemsCap - v.len
  · left
    refine ⟨v.elemsCap, ?_, by omega, by omega, fun _ => rfl⟩
    rw [if_pos h1]; rfl
  · by_cases h2 : c.infoMax < v.len + n
    · right
      refine ⟨.capacityOverflow, ?_, .inl ⟨rfl, by omega⟩, by omega⟩
      rw [if_neg h1, if_pos h2]; rfl
    · rw [if_neg h1, if_neg h2]
      cases hg : env.infoGrow (v.len + n) with
      | error e => right; exact ⟨e, rfl, .inr (hl ▸ hg), by omega⟩
      | ok extra =>
        left
        exact ⟨min (v.len + n + extra) c.infoMax, rfl, by omega, by omega, by omega⟩

/-- The effect of a successful byte reservation: contents unchanged, room for `add` more bytes. -/
structure Reserved (G : Prop) (c : Cfg) (env : Env (Val T β)) (v v' : UVec T β) (xs : List (Val T β)) (add al : Nat) : Prop where
  holds : v'.Represents G c xs
  spare : v.byteCap + totalWidth (padTo v'.align) xs + add ≤ v'.byteCap + totalWidth (padTo v.align) xs
  mono : v.byteCap ≤ v'.byteCap
  align : v'.align = max v.align al ∨ (v'.byteCap = 0 ∧ v'.align = v.align)
  elemsCap : v'.elemsCap = v.elemsCap
  drops : v'.drops = v.drops
  tight : env.Exact → v'.byteCap = v.byteCap ∨ v'.byteCap = (request v xs add al).size
  fresh : 0 < add → v'.heap.block ≠ v.heap.block
  whole : v' = v ∨ ∀ n, n + totalWidth (padTo v.align) xs ≤ v.byteCap + add →
    totalWidth (padTo v'.align) xs + padTo v'.align n ≤ v'.byteCap

/-- The storage has been replaced by one with at least `n` bytes more; no more than was asked for, if the allocator grants no more. -/
structure Grown (env : Env (Val T β)) (v v' : UVec T β) (xs : List (Val T β)) (n al : Nat) : Prop where
  le : v.byteCap + n ≤ v'.byteCap
  fresh : 0 < n → v'.heap.block ≠ v.heap.block
  align : v'.align = max v.align al
  tight : env.Exact → v'.byteCap = v.byteCap ∨ v'.byteCap = (request v xs n al).size

theorem Reserved.room {env : Env (Val T β)} {v' : UVec T β} {add al : Nat} (h : v.Represents G c xs) (hr : Reserved G c env v v' xs add al) :
    totalWidth (padTo v'.align) xs + add ≤ v'.byteCap := by
  have := hr.spare
  have := h.cap
  omega

theorem Reserved.grows {env : Env (Val T β)} {v' : UVec T β} {add al : Nat} (h : v.Represents G c xs) (hr : Reserved G c env v v' xs add al) :
    v.byteCap + add ≤ v'.byteCap := by
  have := hr.spare
  have hal : v.align ≤ v'.align := by rcases hr.align with h | ⟨_, h⟩ <;> omega
  have := totalWidth_mono_align h.al.pos hr.holds.al.pos (h.al.dvd_of_le hr.holds.al hal) xs
  omega

variable [Inhabited β]

theorem realignUp_spec {b : Nat} (hb : IsAlign c b) (hlt : v.align < b) (hlen : v.elems.length > 1)
    (hwf : ∀ x ∈ xs, x.WF c) (ha : IsAlign c v.align)
    (hinf : v.elems = infosFrom id (padTo v.align) 0 xs)
    (hmem : MemAt v.heap.mem (padTo v.align) 0 xs)
    (hle : totalWidth (padTo b) xs ≤ c.isizeMax) (hsp : totalWidth (padTo b) xs ≤ v.heap.span v.ptr) :
    ∃ mem', realignUp c b v =
        .ok () { v with elems := infosFrom id (padTo b) 0 xs, heap := { v.heap with mem := mem' } } ∧
      MemAt mem' (padTo b) 0 xs := by
  have hd : v.align ∣ b := ha.dvd_of_le hb (by omega)
  have h1 := realignUpOffsets_eq (T := T) ha hb hd xs 0 0 (by simp) (by simpa using hle)
  obtain ⟨mem', h2, h3, _⟩ := realignUpMove_eq (p := v.ptr) ha hb hd xs.length xs rfl v.heap
    (fun x hx => (hwf x hx).bytes_len) hle hsp hmem
  refine ⟨mem', ?_, h3⟩
  unfold realignUp
  rw [Exec.get_bind, Exec.debugAssert_bind ⟨hlen, hlt⟩]
  rw [← hinf] at h1
  simp only [Nat.zero_add] at h1
  rw [Exec.orUb_bind h1]
  dsimp only
  rw [Exec.orUb_bind h2, Exec.modify_apply]

/-- Why a byte reservation fails. -/
def ReserveFailure (c : Cfg) (env : Env (Val T β)) (v : UVec T β) (xs : List (Val T β)) (add al : Nat) (e : TRE) : Prop :=
  (e = .capacityOverflow ∧ BytesTooLarge c v xs add al) ∨
  (e = .allocError ∧ env.alloc (request v xs add al) = none)

theorem checkedAddPad2 {b oldCap cost add : Nat} (hb : IsAlign c b) :
    newByteCap c oldCap cost add b =
      some (if padTo b (padTo b (oldCap + cost) + add) ≤ c.isizeMax then some (padTo b (padTo b (oldCap + cost) + add))
        else none) := by
  unfold newByteCap
  rw [VSU.checkedAddPad_eq hb]
  by_cases h : padTo b (oldCap + cost) ≤ c.isizeMax
  · rw [if_pos h]
    simp only [Option.bind_eq_bind, Option.bind_some]
    exact VSU.checkedAddPad_eq hb
  · rw [if_neg h]
    simp only [Option.bind_eq_bind, Option.bind_some]
    rw [if_neg]
    · rfl
    · have := le_padTo hb.pos (padTo b (oldCap + cost) + add)
      omega

/-- The memory obtained from the allocator when the reservation grows the storage. -/
theorem grow_spec (h : v.Represents G c xs) {env : Env (Val T β)} (hv : env.Valid)
    {newCap b : Nat} (hb0 : 0 < b) (hle : v.byteCap ≤ newCap) :
    let newLayout : Layout := ⟨newCap, b⟩
    ∃ res, v.growStorage c env newLayout = some res ∧
      (res = none ∧ env.alloc newLayout = none ∨
       ∃ p x mem, res = some (⟨mem, some ⟨p, newCap, newCap + x, b⟩, 0⟩, p, newCap + x) ∧ 0 < p ∧ b ∣ p ∧
        (∀ i, i < v.byteCap → mem i = v.heap.mem i) ∧ (env.Exact → x = 0)) := by
  intro newLayout
  unfold growStorage
  by_cases h0 : v.byteCap = 0
  · simp only [if_pos h0]
    refine ⟨_, rfl, ?_⟩
    unfold Heap.allocate
    cases ha : env.alloc newLayout with
    | none => left; simp
    | some r =>
      right
      obtain ⟨p, x⟩ := r
      have hvv := hv _ _ _ hb0 ha
      have hb := h.block
      rw [h0] at hb
      have hn := hb.none_of_zero
      refine ⟨p, x, fun _ => default, ?_, hvv.1, hvv.2, fun i hi => by omega, fun he => he _ _ _ ha⟩
      simp [Heap.fresh, hn, h.leaks, newLayout]
  · simp only [if_neg h0]
    have hl : layoutUnchecked c v.byteCap v.align = some ⟨v.byteCap, v.align⟩ :=
      layoutUnchecked_eq h.al (h.room)
    rw [hl]
    simp only [Option.bind_eq_bind, Option.bind_some]
    unfold Heap.grow
    rw [if_pos ⟨h.block.fits (by omega), hle⟩]
    cases ha : env.alloc newLayout with
    | none => exact ⟨none, rfl, by simp⟩
    | some r =>
      obtain ⟨p, x⟩ := r
      have hvv := hv _ _ _ hb0 ha
      refine ⟨_, rfl, .inr ⟨p, x, fun i => if i < v.byteCap then v.heap.mem i else default, ?_, hvv.1,
        hvv.2, ?_, fun he => he _ _ _ ha⟩⟩
      · simp [Heap.fresh, h.leaks, newLayout]
      · intro i hi; simp [hi]

theorem reserveCommit_spec (h : v.Represents G c xs) {env : Env (Val T β)} (hv : env.Valid) (he : G → env.Exact)
    {al : Nat} (hal : IsAlign c al) (add : Nat)
    (hfit : totalWidth (padTo (max v.align al)) xs ≤ c.isizeMax) :
    let b := max v.align al
    let cost := totalWidth (padTo b) xs - totalWidth (padTo v.align) xs
    (∃ v', reserveCommit c env add b cost v = .ok (.ok ()) v' ∧ Reserved G c env v v' xs add al) ∨
    (∃ e, reserveCommit c env add b cost v = .ok (.error e) v ∧ ReserveFailure c env v xs add al e) := by
  intro b cost
  have hb : IsAlign c b := h.al.max hal
  have hab : v.align ∣ b := h.al.dvd_of_le hb (Nat.le_max_left _ _)
  have hmono := totalWidth_mono_align h.al.pos hb.pos hab xs
  have hp1 := le_padTo hb.pos (v.byteCap + cost)
  have hp2 := le_padTo hb.pos (padTo b (v.byteCap + cost) + add)
  have hcap := h.cap
  have hcost : cost = totalWidth (padTo b) xs - totalWidth (padTo v.align) xs := rfl
  unfold reserveCommit
  rw [Exec.get_bind]
  dsimp only
  rw [Exec.orUb_bind (checkedAddPad2 hb)]
  by_cases hov : padTo b (padTo b (v.byteCap + cost) + add) ≤ c.isizeMax
  rotate_left
  · rw [if_neg hov]
    right
    exact ⟨.capacityOverflow, rfl, .inl ⟨rfl, Nat.lt_of_not_le hov⟩⟩
  rw [if_pos hov]
  dsimp only
  generalize hN : padTo b (padTo b (v.byteCap + cost) + add) = newCap at *
  have hbN : b ∣ newCap := hN ▸ dvd_padTo _ _
  by_cases hgrow : v.align < b ∨ v.byteCap < newCap
  rotate_left
  · -- nothing to do
    rw [if_neg hgrow]
    left
    have hb' : b = v.align := by have := Nat.le_max_left v.align al; omega
    have hcost0 : cost = 0 := by rw [hcost, hb']; omega
    have hadd : add = 0 := by omega
    refine ⟨v, rfl, h, by omega, by omega, .inl hb'.symm, rfl, rfl, fun _ => .inl rfl, fun h1 => by omega, .inl rfl⟩
  rw [if_pos hgrow]
  by_cases hN0 : newCap > 0
  rotate_left
  · -- zero capacity: only the dangling pointer changes
    rw [if_neg hN0, Exec.modify_bind]
    left
    refine ⟨{ v with ptr := b }, rfl, ?_, ?_, ?_, .inr ⟨?_, rfl⟩, rfl, rfl, fun _ => .inl rfl, fun h1 => by omega, .inr fun n hn => ?_⟩
    · refine ⟨h.wf, h.al, h.elemAl, h.infos, h.recs, h.cap, h.capDvd, h.room, h.mem, ?_, h.leaks⟩
      have := h.block
      have h0 : v.byteCap = 0 := by omega
      rw [h0] at this
      refine ⟨hb.pos, hab, ?_⟩
      simp only [this.none_of_zero, h0]
    · simp only; omega
    · simp
    · simp only; omega
    · simp only
      rw [show n = 0 by omega, padTo_of_dvd h.al.pos (Nat.dvd_zero _)]
      omega
  rw [if_pos hN0]
  have hroom := hb.room hbN hov
  rw [Exec.orUb_bind (layoutUnchecked_eq hb hroom)]
  obtain ⟨res, hres, hcase⟩ := grow_spec (b := b) h hv (newCap := newCap) hb.pos (by omega)
  rw [Exec.orUb_bind hres]
  rcases hcase with ⟨rfl, hrefuse⟩ | ⟨p, x, mem, rfl, hp0, hpb, hmem, hx⟩
  · right
    exact ⟨.allocError, rfl, .inr ⟨rfl, by unfold request; rw [hN]; exact hrefuse⟩⟩
  dsimp only
  rw [Exec.orUb_bind (VSU.newSquishedTo_eq hb), Exec.modify_bind]
  generalize hM : min (newCap + x) (c.isizeMax - (b - 1)) = cap' at *
  have hb1 := hb.sub_one_le
  have hge : newCap ≤ cap' := by omega
  have hroom' : cap' + (b - 1) ≤ c.isizeMax := by omega
  have hexact : env.Exact → cap' = newCap := fun he => by have := hx he; omega
  have hdvd' : G → b ∣ cap' := fun hG => by rw [hexact (he hG)]; exact hbN
  have htight : env.Exact → cap' = v.byteCap ∨ cap' = (request v xs add al).size := fun he => .inr ((hexact he).trans hN.symm)
  have hwhole : ∀ n, n + totalWidth (padTo v.align) xs ≤ v.byteCap + add → totalWidth (padTo b) xs + padTo b n ≤ cap' := by
    intro n hn
    have hp : totalWidth (padTo b) xs + padTo b n ≤ newCap := by
      rw [← padTo_add hb.pos (dvd_totalWidth xs)]
      exact padTo_least hb.pos hbN (by omega)
    omega
  have hmem' : MemAt mem (padTo v.align) 0 xs := by
    refine MemAt.congr (fun x hx => by rw [(h.wf x hx).bytes_len]; exact le_padTo h.al.pos _) h.mem ?_
    intro i hi
    simp only [Nat.zero_add]
    exact hmem i (by omega)
  have hblock : ∀ mem', BlockOk (⟨mem', some ⟨p, newCap, newCap + x, b⟩, 0⟩ : Heap β) p cap' b :=
    fun _ => ⟨hp0, hpb, by omega, rfl, rfl, hge, by dsimp only; omega⟩
  left
  by_cases hal' : v.align < b
  rotate_left
  · -- same alignment
    rw [if_neg hal']
    have hb' : b = v.align := by have := Nat.le_max_left v.align al; omega
    refine ⟨_, rfl, ?_, ?_, ?_, .inl hb'.symm, rfl, rfl, htight, fun _ => (h.block.block_ne (by dsimp only; omega)).symm, .inr ?_⟩
    · exact ⟨h.wf, h.al, h.elemAl, h.infos, h.recs, by simp only; omega, fun hG => by simpa [hb'] using hdvd' hG, by simpa [hb'] using hroom', hmem',
        by simpa [hb'] using hblock mem, rfl⟩
    · simp only; rw [hb'] at hcost; omega
    · simp only; omega
    · simpa [hb'] using hwhole
  rw [if_pos hal']
  have helem : ∀ x ∈ xs, x.align ∣ b := fun x hx => Nat.dvd_trans (h.elemAl x hx) hab
  have hlen := h.length
  by_cases hlen1 : v.len > 1
  · rw [if_pos hlen1]
    obtain ⟨mem', hrun, hmem''⟩ := realignUp_spec
        (v := { v with byteCap := cap', ptr := p, heap := ⟨mem, some ⟨p, newCap, newCap + x, b⟩, 0⟩ }) hb hal' hlen1 h.wf h.al h.infos hmem' hfit
        (by simp [Heap.span]; omega)
    rw [Exec.bind_ok hrun, Exec.modify_bind]
    refine ⟨_, rfl, ?_, ?_, ?_, .inl rfl, rfl, rfl, htight, fun _ => (h.block.block_ne (by dsimp only; omega)).symm, .inr ?_⟩
    · exact ⟨h.wf, hb, helem, rfl, h.recs, by simp only; omega, hdvd', hroom', hmem'', hblock mem', rfl⟩
    · simp only; omega
    · simp only; omega
    · exact hwhole
  · rw [if_neg hlen1]
    refine ⟨_, rfl, ?_, ?_, ?_, .inl rfl, rfl, rfl, htight, fun _ => (h.block.block_ne (by dsimp only; omega)).symm, .inr ?_⟩
    · have hsmall : xs.length ≤ 1 := by unfold len at hlen1; omega
      have hone : infosFrom (R := T.Meta) id (padTo v.align) 0 xs = infosFrom id (padTo b) 0 xs ∧
          (MemAt mem (padTo v.align) 0 xs → MemAt mem (padTo b) 0 xs) := by
        match xs, hsmall with
        | [], _ => exact ⟨rfl, fun h => h⟩
        | [x], _ => exact ⟨rfl, fun h => ⟨h.1, trivial⟩⟩
      exact ⟨h.wf, hb, helem, h.infos.trans hone.1, h.recs, by simp only; omega, hdvd', hroom', hone.2 hmem', hblock mem, rfl⟩
    · simp only; omega
    · simp only; omega
    · exact hwhole

theorem tryReserveAdditionalBytesAlign_spec (h : v.Represents G c xs) {env : Env (Val T β)} (hv : env.Valid) (he : G → env.Exact)
    {al : Nat} (hal : IsAlign c al) (add : Nat) :
    (∃ v', tryReserveAdditionalBytesAlign c env add al v = .ok (.ok ()) v' ∧ Reserved G c env v v' xs add al ∧
      (add = 0 → al ≤ v.align → v' = v)) ∨
    (∃ e, tryReserveAdditionalBytesAlign c env add al v = .ok (.error e) v ∧ ReserveFailure c env v xs add al e ∧
      ¬ (add = 0 ∧ al ≤ v.align)) := by
  have hb : IsAlign c (max v.align al) := h.al.max hal
  have hab : v.align ∣ max v.align al := h.al.dvd_of_le hb (Nat.le_max_left _ _)
  have hmono := totalWidth_mono_align h.al.pos hb.pos hab xs
  have hcap := h.cap
  unfold tryReserveAdditionalBytesAlign
  rw [Exec.get_bind, Exec.orUb_bind (alignedByteLen_eq h)]
  by_cases hlt : v.align < max v.align al
  · rw [if_pos hlt, Exec.debugAssert_bind (Nat.le_of_lt hlt)]
    have hlen : v.lenAfterRealignUp c (max v.align al) =
        some (if totalWidth (padTo (max v.align al)) xs ≤ c.isizeMax then some (totalWidth (padTo (max v.align al)) xs)
          else none) := by
      have := lenAfterRealignUpGo_eq (T := T) h.al hb hab xs 0 0 (by simp) (by simp)
      unfold lenAfterRealignUp
      rw [h.infos]
      simpa using this
    rw [Exec.orUb_bind hlen]
    by_cases hfit : totalWidth (padTo (max v.align al)) xs ≤ c.isizeMax
    · rw [if_pos hfit]
      dsimp only
      rw [Exec.orUb_bind (VSU.uncheckedSub_eq hmono (by omega))]
      rcases reserveCommit_spec h hv he hal add hfit with ⟨v', h1, h2⟩ | ⟨e, h1, h2⟩
      · exact .inl ⟨v', h1, h2, fun _ h' => by omega⟩
      · exact .inr ⟨e, h1, h2, fun h' => by omega⟩
    · rw [if_neg hfit]
      right
      refine ⟨.capacityOverflow, rfl, .inl ⟨rfl, ?_⟩, fun h' => by omega⟩
      have hp1 := le_padTo hb.pos (v.byteCap + (totalWidth (padTo (max v.align al)) xs - totalWidth (padTo v.align) xs))
      have hp2 := le_padTo hb.pos (padTo (max v.align al) (v.byteCap + (totalWidth (padTo (max v.align al)) xs - totalWidth (padTo v.align) xs)) + add)
      unfold BytesTooLarge request
      dsimp only
      omega
  · rw [if_neg hlt]
    have hbe : max v.align al = v.align := by have := Nat.le_max_left v.align al; omega
    by_cases h0 : add = 0
    · rw [if_pos h0]
      left
      exact ⟨v, rfl, ⟨h, by omega, by omega, .inl hbe.symm, rfl, rfl, fun _ => .inl rfl, fun h1 => by omega, .inl rfl⟩, fun _ _ => rfl⟩
    · rw [if_neg h0, Exec.orUb_bind (VSU.uncheckedSub_eq (Nat.le_refl _) (by omega))]
      have hfit : totalWidth (padTo (max v.align al)) xs ≤ c.isizeMax := by rw [hbe]; exact h.total_le
      have := reserveCommit_spec h hv he hal add hfit
      dsimp only at this
      rw [show totalWidth (padTo (max v.align al)) xs - totalWidth (padTo v.align) xs =
        totalWidth (padTo v.align) xs - totalWidth (padTo v.align) xs by rw [hbe]] at this
      rcases this with ⟨v', h1, h2⟩ | ⟨e, h1, h2⟩
      · exact .inl ⟨v', h1, h2, fun h' => absurd h' h0⟩
      · exact .inr ⟨e, h1, h2, fun h' => h0 h'.1⟩

theorem tryReserveAdditionalBytesAlign_idle (h : v.Represents G c xs) (env : Env (Val T β)) {al : Nat} (hal : al ≤ v.align) :
    tryReserveAdditionalBytesAlign c env 0 al v = .ok (.ok ()) v := by
  unfold tryReserveAdditionalBytesAlign
  rw [Exec.get_bind, Exec.orUb_bind (alignedByteLen_eq h), if_neg (by omega), if_pos rfl]
  rfl

end UVec
end Verif
