import Verif.Proofs.CostSeq
import Verif.Proofs.SApi

/-!
# What the calls cost: sized elements
-/

namespace Verif
namespace SVec.Metered
variable {sz al : Nat} {β : Type} [Inhabited β] {c : Cfg}

/-- What growing the `Vec` costs. -/
def blockMoved (v t : SVec sz al β) : Nat := if t.slots = v.slots then 0 else v.slots * sz

omit [Inhabited β] in
theorem blockMoved_le (v t : SVec sz al β) : blockMoved v t ≤ v.slots * sz := by
  unfold blockMoved; split <;> omega

omit [Inhabited β] in
theorem capacity_pos (hz : 0 < sz) (v : SVec sz al β) : v.capacity c = v.slots := if_neg (by omega)

/-- The `Vec` after a reservation of `n` elements. -/
def Reserved (c : Cfg) (env : Env (Val (sizedTy sz al) β)) (n : Nat) (v t : SVec sz al β) : Prop :=
  t.len = v.len ∧ ∃ cap, stdReserve (maxSlots c sz) (v.capacity c) v.len n env.infoGrow = .ok cap ∧
    t = if n ≤ v.capacity c - v.len then v else { v with slots := cap, allocs := v.allocs + 1 }

omit [Inhabited β] in
theorem tryReserve_meters (env : Env (Val (sizedTy sz al) β)) (n : Nat) (v : SVec sz al β) :
    (tryReserve c env n).Meters v
      (fun r t d => (∀ e, r = .error e → t = v ∧ d = 0) ∧ (r = .ok () → Reserved c env n v t ∧ d = blockMoved v t))
      (fun _ => False) := by
  unfold tryReserve
  refine .look_bind ?_
  split
  · exact .pure ⟨fun _ _ => ⟨rfl, rfl⟩, nofun⟩
  · rename_i cap hc
    refine .count_bind (.lift_bind (fun _ t ht => ?_) (fun t ht => by cases ht))
    cases ht
    refine .pure ⟨nofun, fun _ => ⟨⟨?_, cap, hc, rfl⟩, ?_⟩⟩
    · split <;> rfl
    · rcases stdReserve_grows hc with ⟨h1, rfl⟩ | ⟨h1, h2⟩
      · rw [if_pos h1, if_pos h1]; exact (if_pos rfl).symm
      · rw [if_neg (by omega), if_neg (by omega)]
        unfold blockMoved
        by_cases hz : sz = 0
        · simp [hz]
        · have := capacity_pos (c := c) (Nat.pos_of_ne_zero hz) v
          rw [if_neg (show ¬ cap = v.slots by omega)]; rfl

omit [Inhabited β] in
/-- Reserving no bytes does nothing. -/
theorem addBytes_idle (env : Env (Val (sizedTy sz al) β)) (v : SVec sz al β) :
    (tryReserveAdditionalBytes c env 0).Meters v (fun r t d => r = .ok () ∧ t = v ∧ d = 0) (· = 0) := by
  unfold tryReserveAdditionalBytes
  refine .look_bind (.orUb_bind fun free hf => ?_)
  unfold divCeil
  refine .bind (Exec.Meters.assert_bind rfl fun hz => .pure ?_)
  have hle : (saturatingAdd c 0 free + sz - 1) / sz - free = 0 := by
    have h1 : saturatingAdd c 0 free ≤ free := by unfold saturatingAdd; omega
    have h2 : (saturatingAdd c 0 free + sz - 1) / sz < free + 1 := by
      rw [Nat.div_lt_iff_lt_mul (by omega), Nat.add_mul]
      have := Nat.le_mul_of_pos_right free (show 0 < sz by omega)
      omega
    omega
  rw [hle]
  unfold tryReserve
  refine .look_bind ?_
  rw [show stdReserve (maxSlots c sz) (v.capacity c) v.len 0 env.infoGrow = .ok (v.capacity c) from if_pos (Nat.zero_le _)]
  dsimp only
  rw [if_pos (Nat.zero_le _), if_pos (Nat.zero_le _)]
  refine .count_bind (.lift_bind (fun _ t ht => ?_) (fun t ht => by cases ht))
  cases ht
  exact .pure ⟨rfl, rfl, rfl⟩

omit [Inhabited β] in
/-- The reservation of a `push`. -/
theorem reserve_cost (hz : 0 < sz) (env : Env (Val (sizedTy sz al) β)) (v : SVec sz al β) :
    (Api.reserveCapacityBytesAlign c (sizedMetered c sz al).P env 1 sz al).Meters v
      (fun _ t d => Reserved c env 1 v t ∧ d = blockMoved v t) (fun d => d ≤ v.slots * sz) := by
  unfold Api.reserveCapacityBytesAlign Api.tryReserveCapacityBytesAlign
  refine .bind (.bind ((tryReserve_meters env 1 v).mono ?_ fun _ h => h.elim))
  rintro r t d ⟨h1, h2⟩
  match r with
  | .error e =>
    obtain ⟨_, rfl⟩ := h1 e rfl
    exact .pure (.unwrap nofun fun _ => Nat.zero_le _)
  | .ok () =>
    obtain ⟨ht, rfl⟩ := h2 rfl
    have hb := blockMoved_le v t
    refine .get_bind fun _ => .debugAssert_bind hb (.bind (.pure (.orUb_bind fun bc hbc => .orUb_bind fun un hun => ?_)))
    have hct : t.capacity c = t.slots := capacity_pos hz t
    have hcv : v.capacity c = v.slots := capacity_pos hz v
    have hroom : 1 ≤ t.capacity c - t.len := by
      obtain ⟨hl, cap, hc, e⟩ := ht
      by_cases hq : 1 ≤ v.capacity c - v.len
      · rw [if_pos hq] at e; rw [e]; exact hq
      · rw [if_neg hq] at e
        unfold stdReserve at hc
        rw [if_neg hq] at hc
        split at hc
        · cases hc
        · split at hc
          · cases hc
          · injection hc with hc
            rw [hct, hl, e]
            dsimp only
            omega
    have hbc : uncheckedMul c (t.capacity c) sz = some bc := hbc
    have hbc : bc = t.capacity c * sz := by unfold uncheckedMul at hbc; split at hbc <;> cases hbc; rfl
    have hun : (do let cap ← uncheckedMul c (t.capacity c) sz; let len ← uncheckedMul c t.len sz; Verif.uncheckedSub cap len) = some un := hun
    have hun : un = t.capacity c * sz - t.len * sz := by
      unfold uncheckedMul Verif.uncheckedSub at hun
      simp only [Option.bind_eq_bind, Option.bind_eq_some_iff] at hun
      obtain ⟨_, h3, _, h4, h5⟩ := hun
      split at h3 <;> cases h3
      split at h4 <;> cases h4
      split at h5 <;> cases h5
      rfl
    have hneed : sz - un = 0 := by
      rw [hun, ← Nat.sub_mul]
      have := Nat.le_mul_of_pos_left sz hroom
      omega
    dsimp only
    rw [hneed, if_neg (by simp)]
    unfold Api.reserveNeeded Api.byteCapAssert
    refine .bind ((addBytes_idle env t).mono ?_ fun k h => by omega)
    rintro r u k ⟨rfl, rfl, rfl⟩
    refine .bind (Exec.Meters.get_bind fun _ => .orUb_bind fun _ _ => .orUb_bind fun _ _ => .debugAssert_last (by omega) (.pure ?_))
    exact .unwrap (fun _ => ⟨ht, rfl⟩) nofun

/-! ## Adding elements -/

omit [Inhabited β] in
theorem memwrite_meters (i : Nat) (bs : List β) (v : SVec sz al β) {Q : Unit → SVec sz al β → Nat → Prop} {E : Nat → Prop}
    (h : ∀ m, Q () { v with mem := m } bs.length) : (memwrite c i bs).Meters v Q E := by
  have key : ∀ r, SVec.memwrite c i bs v = r → (∃ m, r = .ok () { v with mem := m }) ∨ r = .ub := by
    rintro r rfl
    unfold SVec.memwrite
    rw [Exec.get_bind]
    by_cases hq : i + 1 ≤ v.capacity c ∧ bs.length ≤ sz
    · rw [Exec.bind_ok (Exec.require_pos hq _)]; exact .inl ⟨_, rfl⟩
    · exact .inr (Exec.bind_ub (Exec.require_neg hq _))
  refine .paying (fun _ t ht => ?_) (fun t ht => ?_)
  · rcases key _ ht with ⟨m, h3⟩ | h3
    · cases h3; exact h m
    · cases h3
  · rcases key _ ht with ⟨m, h3⟩ | h3 <;> cases h3

omit [Inhabited β] in
theorem memmove_meters (a b n : Nat) (v : SVec sz al β) {Q : Unit → SVec sz al β → Nat → Prop} {E : Nat → Prop}
    (h : ∀ m, Q () { v with mem := m } (n * sz)) : (memmove c a b n).Meters v Q E := by
  have key : ∀ r, SVec.memmove c a b n v = r → (∃ m, r = .ok () { v with mem := m }) ∨ r = .ub := by
    rintro r rfl
    unfold SVec.memmove
    rw [Exec.get_bind]
    by_cases hq : a + n ≤ v.capacity c ∧ b + n ≤ v.capacity c
    · rw [Exec.bind_ok (Exec.require_pos hq _)]; exact .inl ⟨_, rfl⟩
    · exact .inr (Exec.bind_ub (Exec.require_neg hq _))
  refine .paying (fun _ t ht => ?_) (fun t ht => ?_)
  · rcases key _ ht with ⟨m, h3⟩ | h3
    · cases h3; exact h m
    · cases h3
  · rcases key _ ht with ⟨m, h3⟩ | h3 <;> cases h3

omit [Inhabited β] in
theorem setLen_meters (n : Nat) (v : SVec sz al β) {Q : Unit → SVec sz al β → Nat → Prop} {E : Nat → Prop}
    (h : Q () { v with len := n } 0) : (liftL (setLen c n)).Meters v Q E := by
  have key : ∀ r, setLen c n v = r → r = .ok () { v with len := n } ∨ r = .ub := by
    rintro r rfl
    unfold setLen
    rw [Exec.get_bind]
    by_cases hq : n ≤ v.capacity c
    · rw [Exec.bind_ok (Exec.require_pos hq _)]; exact .inl rfl
    · exact .inr (Exec.bind_ub (Exec.require_neg hq _))
  refine .lift (fun _ t ht => ?_) (fun t ht => ?_)
  · rcases key _ ht with h3 | h3 <;> cases h3
    exact h
  · rcases key _ ht with h3 | h3 <;> cases h3

omit [Inhabited β] in
theorem pushUnchecked_meters (x : Val (sizedTy sz al) β) (v : SVec sz al β) :
    (pushUnchecked c x).Meters v (fun _ t d => t.slots = v.slots ∧ d = x.bytes.length) (fun d => d ≤ x.bytes.length) := by
  unfold pushUnchecked
  refine .look_bind (.debugAssert_bind (Nat.zero_le _) (.require_bind fun _ => .bind (memwrite_meters _ _ _ fun m => .orUb_bind fun _ _ =>
    setLen_meters _ _ ⟨rfl, rfl⟩)))

omit [Inhabited β] in
theorem insertUnchecked_meters (i : Nat) (x : Val (sizedTy sz al) β) (v : SVec sz al β) :
    (insertUnchecked c i x).Meters v (fun _ t d => t.slots = v.slots ∧ d = (v.len - i) * sz + x.bytes.length) (fun d => d ≤ (v.len - i) * sz + x.bytes.length) := by
  unfold insertUnchecked
  refine .look_bind (.debugAssert_bind (Nat.zero_le _) (.orUb_bind fun n hn => .require_bind fun _ => .bind (memmove_meters _ _ _ _ fun m =>
    .bind (memwrite_meters _ _ _ fun m => .orUb_bind fun _ _ => setLen_meters _ _ ⟨rfl, ?_⟩))))
  unfold Verif.uncheckedSub at hn
  split at hn <;> cases hn
  rfl

/-! ## Removing elements -/

omit [Inhabited β] in
theorem copyOut_meters (i : Nat) (v : SVec sz al β) {Q : List β → SVec sz al β → Nat → Prop} {E : Nat → Prop} (h : ∀ bs, Q bs v sz) :
    (writing (copyOut c i)).Meters v Q E := by
  intro m
  unfold writing copyOut
  dsimp only
  by_cases hq : i + 1 ≤ v.capacity c
  · rw [if_pos hq]; exact ⟨sz, rfl, h _⟩
  · rw [if_neg hq]; trivial

omit [Inhabited β] in
theorem dropInPlace_meters (env : Env (Val (sizedTy sz al) β)) (i : Nat) (v : SVec sz al β) {Q : Unit → SVec sz al β → Nat → Prop} {E : Nat → Prop}
    (h : ∀ ds, Q () { v with drops := ds } 0) (hE : E 0) : (liftL (dropInPlace c env i)).Meters v Q E := by
  refine .lift (fun _ t ht => ?_) (fun _ _ => hE)
  unfold dropInPlace at ht
  rw [Exec.get_bind] at ht
  by_cases hq : i + 1 ≤ v.capacity c
  · rw [Exec.bind_ok (Exec.require_pos hq _), Exec.modify_bind] at ht
    by_cases hd : env.dropPanics (v.slot i) = true
    · rw [if_pos hd] at ht; cases ht
    · rw [if_neg hd] at ht; cases ht; exact h _
  · rw [Exec.bind_ub (Exec.require_neg hq _)] at ht; cases ht

omit [Inhabited β] in
theorem popIntoUnchecked_meters (env : Env (Val (sizedTy sz al) β)) (v : SVec sz al β) :
    (popIntoUnchecked c env).Meters v (fun st t d => d = 0 ∧ st.Ends t sz) (fun d => d = 0) := by
  unfold popIntoUnchecked
  refine .look_bind (.debugAssert_bind rfl (.orUb_bind fun n _ => .bind (setLen_meters _ _ (.require_bind fun _ => .pure ⟨rfl, ?_⟩))))
  exact ⟨copyOut_meters _ _ fun _ => .pure (Nat.le_refl _), dropInPlace_meters _ _ _ (fun _ => .pure (Nat.zero_le _)) (Nat.zero_le _), .pure (Nat.zero_le _)⟩

omit [Inhabited β] in
theorem removeIntoUnchecked_meters (env : Env (Val (sizedTy sz al) β)) (k : Nat) (v : SVec sz al β) :
    (removeIntoUnchecked c env k).Meters v (fun st t d => d = 0 ∧ st.Ends t (sz + (v.len - 1 - k) * sz)) (fun d => d = 0) := by
  unfold removeIntoUnchecked
  refine .look_bind (.debugAssert_bind rfl (.orUb_bind fun n hn => .bind (setLen_meters _ _ (.require_bind fun _ => .orUb_bind fun m hm => .pure ⟨rfl, ?_⟩))))
  unfold Verif.uncheckedSub at hn hm
  split at hn <;> cases hn
  split at hm <;> cases hm
  exact ⟨copyOut_meters _ _ fun _ => .require_bind fun _ => memmove_meters _ _ _ _ fun _ => Nat.le_refl _,
    dropInPlace_meters _ _ _ (fun _ => .require_bind fun _ => memmove_meters _ _ _ _ fun _ => by omega) (Nat.zero_le _),
    .require_bind fun _ => memmove_meters _ _ _ _ fun _ => by omega⟩

/-! ## `push_with` -/

omit [Inhabited β] in
theorem pushWith_meters (env : Env (Val (sizedTy sz al) β)) (x : Val (sizedTy sz al) β) (v : SVec sz al β) :
    (pushWith c env ⟨x.size, x.align⟩ x.md).Meters v
      (fun p t d => ∃ s cm rb, p = .place s cm rb ∧ (s x.bytes >>= fun _ => cm).Meters t
        (fun _ u k => (∃ w, Reserved c env 1 v w ∧ u.slots = w.slots) ∧ d + k = blockMoved v u + x.bytes.length)
        (fun k => d + k ≤ v.slots * sz + x.bytes.length))
      (fun d => d ≤ v.slots * sz + x.bytes.length) := by
  unfold pushWith
  refine .bind ((tryReserve_meters env 1 v).mono ?_ fun _ h => h.elim)
  rintro r u d ⟨h1, h2⟩
  refine .bind (.unwrap (fun hr => ?_) (fun hr => ?_))
  · obtain ⟨hw, rfl⟩ := h2 hr
    refine .look_bind (.require_bind fun _ => .pure ⟨_, _, _, rfl, ?_⟩)
    refine .bind (.require_bind fun _ => memwrite_meters _ _ _ fun _ => .look_bind (.orUb_bind fun _ _ => setLen_meters _ _ ⟨⟨u, hw, rfl⟩, ?_⟩))
    show blockMoved v u + 0 + 0 + (_ + 0) = blockMoved v u + _
    omega
  · obtain ⟨_, rfl⟩ := h1 _ hr
    omega

/-! ## The calls -/

omit [Inhabited β] in
theorem Reserved.slots {env : Env (Val (sizedTy sz al) β)} {n : Nat} {v t : SVec sz al β} (h : Reserved c env n v t) (hz : 0 < sz) :
    stdReserve (maxSlots c sz) v.slots v.len n env.infoGrow = .ok t.slots := by
  obtain ⟨_, cap, h1, h2⟩ := h
  rw [capacity_pos hz] at h1 h2
  rw [h1]
  rcases stdReserve_grows h1 with ⟨h3, rfl⟩ | ⟨h3, _⟩
  · rw [if_pos h3] at h2; rw [h2]
  · rw [if_neg (by omega)] at h2; rw [h2]

omit [Inhabited β] in
theorem push_meters (hz : 0 < sz) (env : Env (Val (sizedTy sz al) β)) (x : Val (sizedTy sz al) β) (v : SVec sz al β) :
    ((Op.push x).exec c (sizedMetered c sz al) env).Meters v
      (fun o t d => o = .done ∧ stdReserve (maxSlots c sz) v.slots v.len 1 env.infoGrow = .ok t.slots ∧ d = blockMoved v t + x.bytes.length)
      (fun d => d ≤ v.slots * sz + x.bytes.length) := by
  refine .bind ((giving_meters (fun _ _ => rfl) (Q := fun _ t d => stdReserve (maxSlots c sz) v.slots v.len 1 env.infoGrow = .ok t.slots ∧
    d = blockMoved v t + x.bytes.length) ?_).mono ?_ fun _ h => h)
  · refine .bind ((reserve_cost hz env v).mono ?_ fun _ h => by omega)
    rintro _ u d ⟨h1, rfl⟩
    have h2 := h1.slots hz
    have := blockMoved_le v u
    refine (pushUnchecked_meters x u).mono ?_ fun _ h => by omega
    rintro _ t k ⟨h4, rfl⟩
    refine ⟨by rw [h4]; exact h2, ?_⟩
    unfold blockMoved; rw [h4]
  · rintro _ t d ⟨h1, h2⟩
    exact .pure ⟨rfl, h1, h2⟩

omit [Inhabited β] in
theorem insert_meters (hz : 0 < sz) (env : Env (Val (sizedTy sz al) β)) (i : Nat) (x : Val (sizedTy sz al) β) (v : SVec sz al β) :
    ((Op.insert i x).exec c (sizedMetered c sz al) env).Meters v
      (fun _ t d => d = blockMoved v t + ((v.len - i) * sz + x.bytes.length))
      (fun d => d ≤ v.slots * sz + ((v.len - i) * sz + x.bytes.length)) := by
  refine .bind ((giving_meters (fun _ _ => rfl) (Q := fun _ t d => d = blockMoved v t + ((v.len - i) * sz + x.bytes.length)) ?_).mono
    (fun _ _ _ h => .pure h) fun _ h => h)
  refine .get_bind fun n => .assert_bind (Nat.zero_le _) fun hi => .bind ((reserve_cost hz env v).mono ?_ fun _ h => by omega)
  rintro _ u d ⟨h1, rfl⟩
  have := blockMoved_le v u
  refine (insertUnchecked_meters i x u).mono ?_ fun _ h => by rw [h1.1] at h; omega
  rintro _ t k ⟨h4, rfl⟩
  rw [h1.1]
  unfold blockMoved; rw [h4]

omit [Inhabited β] in
theorem pushWith_op_meters (hz : 0 < sz) (env : Env (Val (sizedTy sz al) β)) (x : Val (sizedTy sz al) β) (v : SVec sz al β) :
    ((Op.pushWith (.value x)).exec c (sizedMetered c sz al) env).Meters v
      (fun o t d => o = .done ∧ stdReserve (maxSlots c sz) v.slots v.len 1 env.infoGrow = .ok t.slots ∧ d = blockMoved v t + x.bytes.length)
      (fun d => d ≤ v.slots * sz + x.bytes.length) := by
  refine .bind ((onRight_value_meters (P := fun u k => (∃ w, Reserved c env 1 v w ∧ u.slots = w.slots) ∧ k = blockMoved v u + x.bytes.length)
    (R := fun k => k ≤ v.slots * sz + x.bytes.length) (pushWith_meters env x v)).mono ?_ fun _ h => h)
  rintro _ t d ⟨⟨w, h1, h2⟩, h3⟩
  exact .pure ⟨rfl, by rw [h2]; exact h1.slots hz, h3⟩

end SVec.Metered
end Verif
