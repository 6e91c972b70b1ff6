import Verif.Proofs.CostApi
import Verif.Proofs.CostUOps
import Verif.Proofs.AImpl

/-!
# What the calls cost: statically aligned unsized elements
-/

namespace Verif
namespace AVec.Metered
variable {A : ATy} {β : Type} [Inhabited β] {c : Cfg}

/-- What growing `elems_info` costs. -/
def recordsMoved (v t : AVec A β) : Nat := if t.elemsCap = v.elemsCap then 0 else v.elemsCap

/-- What a new block costs. -/
def blockMoved (v t : AVec A β) : Nat := if t.byteCap = v.byteCap then 0 else v.byteCap

omit [Inhabited β] in
theorem tryReserve_meters (env : Env (Val A.ty β)) (n : Nat) (v : AVec A β) :
    (tryReserve c env n).Meters v
      (fun r t d => (∀ e, r = .error e → t = v ∧ d = 0) ∧ (r = .ok () → ∃ cap, stdReserve c.infoMax v.elemsCap v.len n env.infoGrow = .ok cap ∧ t = { v with elemsCap := cap } ∧ d = recordsMoved v t))
      (fun _ => False) := by
  unfold tryReserve
  refine .look_bind ?_
  split
  · exact .pure ⟨fun _ _ => ⟨rfl, rfl⟩, nofun⟩
  · rename_i cap hc
    refine .count_bind (.lift_bind (fun _ t ht => ?_) (fun t ht => by cases ht))
    cases ht
    refine .pure ⟨nofun, fun _ => ⟨cap, hc, rfl, ?_⟩⟩
    rcases stdReserve_grows hc with ⟨h1, rfl⟩ | ⟨h1, h2⟩
    · rw [if_pos h1]; simp [recordsMoved]
    · rw [if_neg (by omega)]; unfold recordsMoved; rw [if_neg (by simp; omega)]; omega

theorem tryReserveAdditionalBytes_meters (env : Env (Val A.ty β)) (b : Nat) (v : AVec A β) :
    (tryReserveAdditionalBytes c env b).Meters v
      (fun r t d => (∀ e, r = .error e → t = v ∧ d = 0) ∧ (r = .ok () → t.elems = v.elems ∧ t.elemsCap = v.elemsCap ∧
        v.byteCap + b ≤ t.byteCap ∧ (0 < b → v.byteCap ≤ d) ∧ d ≤ blockMoved v t))
      (fun _ => False) := by
  unfold tryReserveAdditionalBytes
  refine .look_bind (.ite (fun hb => ?_) (fun hb => .pure ⟨nofun, fun _ => ⟨rfl, rfl, by omega, fun h => absurd h hb, Nat.zero_le _⟩⟩))
  split
  · exact .pure ⟨fun _ _ => ⟨rfl, rfl⟩, nofun⟩
  · rename_i newCap hc
    have hcap : newCap = v.byteCap + b ∧ newCap ≤ VS.max c A.ALIGN := by
      simp only [Option.bind_eq_some_iff] at hc
      obtain ⟨s, h1, h2⟩ := hc
      unfold Verif.checkedAdd at h1
      unfold VS.new at h2
      split at h1 <;> cases h1
      split at h2 <;> cases h2
      exact ⟨rfl, by assumption⟩
    refine .orUb_bind fun l hl => .orUb_bind fun o ho => ?_
    cases o with
    | none => exact .pure ⟨fun _ _ => ⟨rfl, rfl⟩, nofun⟩
    | some q =>
      obtain ⟨h, addr, granted⟩ := q
      dsimp only
      refine .count_bind (.lift_bind (fun _ t ht => ?_) (fun t ht => by cases ht))
      cases ht
      obtain ⟨rfl, _, _⟩ := layoutUnchecked_inv hl
      have hg : newCap ≤ granted := by
        unfold growStorage at ho
        split at ho
        · injection ho with ho
          exact Heap.allocate_granted ho
        · simp only [Option.bind_eq_bind, Option.bind_eq_some_iff] at ho
          obtain ⟨_, _, ho⟩ := ho
          exact (Heap.grow_granted ho).2
      refine .pure ⟨nofun, fun _ => ⟨rfl, rfl, by dsimp only; rw [VS.newSquished_eq]; omega, fun _ => by omega, ?_⟩⟩
      unfold blockMoved
      dsimp only
      rw [if_neg (by rw [VS.newSquished_eq]; omega)]
      omega

theorem reserve_cost (env : Env (Val A.ty β)) (n b al : Nat) (v : AVec A β) :
    (Api.reserveCapacityBytesAlign c (alignedMetered c A).P env n b al).Meters v
      (fun _ t d => t.elems = v.elems ∧ stdReserve c.infoMax v.elemsCap v.len n env.infoGrow = .ok t.elemsCap ∧ d ≤ recordsMoved v t + blockMoved v t)
      (fun d => d ≤ v.elemsCap + v.byteCap) := by
  refine (reserve_meters (S := fun u d => ∃ cap, stdReserve c.infoMax v.elemsCap v.len n env.infoGrow = .ok cap ∧ u = { v with elemsCap := cap } ∧ d = recordsMoved v u)
    (G := fun u t d => t.elems = u.elems ∧ t.elemsCap = u.elemsCap ∧ d ≤ blockMoved u t) (Bs := v.elemsCap) (Bw := 0)
    (Bg := v.byteCap) rfl ?_ ?_ ?_ ?_ ?_).mono ?_ fun _ h => h
  · exact tryReserve_meters env n v
  · rintro u d ⟨cap, hcap, rfl, rfl⟩
    unfold recordsMoved; split <;> omega
  · rintro u d k ⟨cap, hcap, rfl, rfl⟩
    refine (tryReserveAdditionalBytes_meters env k _).mono ?_ fun _ h => h.elim
    rintro r t d ⟨h1, h2⟩
    exact ⟨fun e he => ⟨(h1 e he).1, Nat.le_of_eq (h1 e he).2⟩, fun hr => ⟨(h2 hr).1, (h2 hr).2.1, (h2 hr).2.2.2.2⟩⟩
  · rintro u d t d' ⟨cap, hcap, rfl, rfl⟩ ⟨_, _, h3⟩
    refine Nat.le_trans h3 ?_
    show (if t.byteCap = v.byteCap then 0 else v.byteCap) ≤ _
    split <;> omega
  · exact Nat.zero_le _
  · rintro _ t d ⟨u, d1, d2, d3, ⟨cap, hcap, rfl, rfl⟩, h2, ⟨h3, h4, h5⟩, rfl⟩
    refine ⟨h3, by rw [h4]; exact hcap, ?_⟩
    have e1 : recordsMoved v { v with elemsCap := cap } = recordsMoved v t := by unfold recordsMoved; rw [h4]
    have e2 : blockMoved { v with elemsCap := cap } t = blockMoved v t := rfl
    omega

/-! ## Adding elements -/

theorem memwrite_meters (p off : Nat) (bs : List β) (v : AVec A β) {Q : Unit → AVec A β → Nat → Prop} {E : Nat → Prop}
    (h : ∀ h', Q () { v with heap := h' } bs.length) : (memwrite p off bs).Meters v Q E := by
  refine .paying (fun _ t ht => ?_) (fun t ht => ?_)
  · unfold AVec.memwrite at ht
    rw [Exec.get_bind] at ht
    cases ho : v.heap.write p off bs with
    | none => rw [ho] at ht; cases ht
    | some h' => rw [ho] at ht; cases ht; exact h h'
  · unfold AVec.memwrite at ht
    rw [Exec.get_bind] at ht
    cases ho : v.heap.write p off bs with
    | none => rw [ho] at ht; cases ht
    | some h' => rw [ho] at ht; cases ht

omit [Inhabited β] in
theorem memmove_meters (p a b n : Nat) (v : AVec A β) {Q : Unit → AVec A β → Nat → Prop} {E : Nat → Prop}
    (h : ∀ h', Q () { v with heap := h' } n) : (memmove p a b n).Meters v Q E := by
  refine .paying (fun _ t ht => ?_) (fun t ht => ?_)
  · unfold AVec.memmove at ht
    rw [Exec.get_bind] at ht
    cases ho : v.heap.copy p a b n with
    | none => rw [ho] at ht; cases ht
    | some h' => rw [ho] at ht; cases ht; exact h h'
  · unfold AVec.memmove at ht
    rw [Exec.get_bind] at ht
    cases ho : v.heap.copy p a b n with
    | none => rw [ho] at ht; cases ht
    | some h' => rw [ho] at ht; cases ht

omit [Inhabited β] in
theorem infoPush_meters (info : Info A.R) (v : AVec A β) {Q : Unit → AVec A β → Nat → Prop} {E : Nat → Prop}
    (h : ∀ es, Q () { v with elems := es } 1) : (infoPush info).Meters v Q E := by
  have key : ∀ r, AVec.infoPush info v = r → (∃ es, r = .ok () { v with elems := es }) ∨ r = .ub := by
    rintro r rfl
    unfold AVec.infoPush
    rw [Exec.get_bind]
    by_cases hq : v.elems.length < v.elemsCap
    · rw [Exec.bind_ok (Exec.require_pos hq _)]; exact .inl ⟨_, rfl⟩
    · exact .inr (Exec.bind_ub (Exec.require_neg hq _))
  refine .paying (fun _ t ht => ?_) (fun t ht => ?_)
  · rcases key _ ht with ⟨es, h3⟩ | h3
    · cases h3; exact h es
    · cases h3
  · rcases key _ ht with ⟨es, h3⟩ | h3 <;> cases h3

omit [Inhabited β] in
theorem infoInsert_meters (i : Nat) (info : Info A.R) (v : AVec A β) {Q : Unit → AVec A β → Nat → Prop} {E : Nat → Prop}
    (h : ∀ t, Q () t (v.len - i + 1)) : (infoInsert i info).Meters v Q E := by
  refine .look_bind (.paying (fun _ t ht => h t) (fun t ht => ?_))
  unfold AVec.infoInsert at ht
  rw [Exec.get_bind] at ht
  by_cases hq : v.elems.length < v.elemsCap ∧ i ≤ v.elems.length
  · rw [Exec.bind_ok (Exec.require_pos hq _)] at ht; cases ht
  · rw [Exec.bind_ub (Exec.require_neg hq _)] at ht; cases ht

omit [Inhabited β] in
theorem adjustFrom_meters (i : Nat) (f : List (Info A.R) → Option (List (Info A.R))) (v : AVec A β)
    {Q : Unit → AVec A β → Nat → Prop} {E : Nat → Prop}
    (h : ∀ es, f (v.elems.drop i) = some es → i ≤ v.elems.length → Q () { v with elems := v.elems.take i ++ es } (v.len - i)) :
    (adjustFrom i f).Meters v Q E := by
  have key : ∀ r, AVec.adjustFrom i f v = r → (∃ es, f (v.elems.drop i) = some es ∧ i ≤ v.elems.length ∧
      r = .ok () { v with elems := v.elems.take i ++ es }) ∨ r = .ub := by
    rintro r rfl
    unfold AVec.adjustFrom
    rw [Exec.get_bind]
    by_cases hq : i ≤ v.elems.length
    · rw [Exec.bind_ok (Exec.require_pos hq _)]
      cases ho : f (v.elems.drop i) with
      | none => exact .inr rfl
      | some es => exact .inl ⟨es, rfl, hq, rfl⟩
    · exact .inr (Exec.bind_ub (Exec.require_neg hq _))
  refine .look_bind (.paying (fun _ t ht => ?_) (fun t ht => ?_))
  · rcases key _ ht with ⟨es, h1, h2, h3⟩ | h3
    · cases h3; exact h es h1 h2
    · cases h3
  · rcases key _ ht with ⟨es, h1, h2, h3⟩ | h3 <;> cases h3

theorem pushUnchecked_meters (x : Val A.ty β) (v : AVec A β) :
    (pushUnchecked c x).Meters v (fun _ t d => t.elemsCap = v.elemsCap ∧ t.byteCap = v.byteCap ∧ d = x.bytes.length + 1) (fun d => d ≤ x.bytes.length + 1) := by
  unfold pushUnchecked
  refine .look_bind (.orUb_bind fun _ _ => .debugAssert_bind (Nat.zero_le _) (.debugAssert_bind (Nat.zero_le _) ?_))
  refine .bind (memwrite_meters _ _ _ _ fun h' => .orUb_bind fun _ _ => infoPush_meters _ _ fun _ => ⟨rfl, rfl, rfl⟩)

omit [Inhabited β] in
theorem bumpInfos_length {k : Nat} : ∀ {l r : List (Info A.R)}, bumpInfos c A.ALIGN k l = some r → r.length = l.length
  | [], _, h => by cases h; rfl
  | e :: l, r, h => by
    unfold bumpInfos at h
    simp only [Option.bind_eq_bind, Option.bind_eq_some_iff] at h
    obtain ⟨_, _, es, h1, h2⟩ := h
    cases h2
    simp [bumpInfos_length h1]

omit [Inhabited β] in
theorem vsSub_inv {a b n : Nat} (hn : VS.uncheckedSub c A.ALIGN a b = some n) : n = a - b ∧ b ≤ a := by
  unfold VS.uncheckedSub VS.newUnchecked Verif.uncheckedSub at hn
  simp only [Option.bind_eq_bind, Option.bind_eq_some_iff] at hn
  obtain ⟨s, h7, h8⟩ := hn
  split at h7 <;> cases h7
  split at h8 <;> cases h8
  exact ⟨rfl, by assumption⟩

theorem insertUnchecked_meters (i : Nat) (x : Val A.ty β) (v : AVec A β) {B : Nat}
    (hB : ∀ start, v.startOffset i = some start → v.byteLen - start ≤ B) :
    (insertUnchecked c i x).Meters v (fun _ _ d => d ≤ B + x.bytes.length + 2 * (v.len - i) + 1)
      (fun d => d ≤ B + x.bytes.length + 2 * (v.len - i) + 1) := by
  unfold insertUnchecked
  refine .look_bind (.orUb_bind fun _ _ => .debugAssert_bind (Nat.zero_le _) (.debugAssert_bind (Nat.zero_le _)
    (.orUb_bind fun start hs => .orUb_bind fun n hn => .require_bind fun _ => ?_)))
  have hn' : n ≤ B := by rw [(vsSub_inv hn).1]; exact hB start hs
  refine .bind (memmove_meters _ _ _ _ _ fun _ => .bind (memwrite_meters _ _ _ _ fun _ => .bind (adjustFrom_meters _ _ _ fun es he hi =>
    .orUb_bind fun _ _ => infoInsert_meters _ _ _ fun _ => ?_)))
  have hl : ({ v with elems := v.elems.take i ++ es } : AVec A β).len = v.len := by
    have := bumpInfos_length he
    simp only [AVec.len, List.length_append, List.length_take, List.length_drop] at this ⊢
    omega
  simp only [AVec.len] at hl ⊢
  omega

/-! ## Removing elements -/

omit [Inhabited β] in
theorem copyOut_meters (p off n : Nat) (v : AVec A β) {Q : List β → AVec A β → Nat → Prop} {E : Nat → Prop} (h : ∀ bs, Q bs v n) :
    (writing (copyOut p off n)).Meters v Q E := by
  intro m
  unfold writing copyOut
  dsimp only
  cases v.heap.read p off n with
  | none => trivial
  | some bs => exact ⟨n, rfl, h bs⟩

theorem dropInPlace_meters (env : Env (Val A.ty β)) (p off : Nat) (md : A.ty.Meta) (v : AVec A β) {Q : Unit → AVec A β → Nat → Prop} {E : Nat → Prop}
    (h : ∀ ds, Q () { v with drops := ds } 0) (hE : E 0) : (liftL (dropInPlace env p off md)).Meters v Q E := by
  have key : ∀ r, dropInPlace env p off md v = r → (∃ ds, r = .ok () { v with drops := ds }) ∨ (∃ t, r = .panic t) ∨ r = .ub := by
    rintro r rfl
    unfold dropInPlace
    rw [Exec.get_bind]
    cases mkRef v.heap p off md with
    | none => exact .inr (.inr rfl)
    | some q =>
      rw [Exec.bind_ok (Exec.orUb_some _ v), Exec.modify_bind]
      by_cases hd : env.dropPanics (q.read v.heap) = true
      · rw [if_pos hd]; exact .inr (.inl ⟨_, rfl⟩)
      · rw [if_neg hd]; exact .inl ⟨_, rfl⟩
  refine .lift (fun _ t ht => ?_) (fun _ _ => hE)
  rcases key _ ht with ⟨ds, h1⟩ | ⟨_, h1⟩ | h1
  · cases h1; exact h ds
  · cases h1
  · cases h1

variable {v : AVec A β} {xs : List (Val A.ty β)}

theorem popIntoUnchecked_meters (env : Env (Val A.ty β)) {x : Val A.ty β} (h : v.Holds c (xs ++ [x])) :
    (popIntoUnchecked c env).Meters v (fun st t d => d = 0 ∧ st.Ends t x.size) (fun d => d = 0) := by
  have e : ({ v with elems := v.elems.dropLast } : AVec A β) = popped v xs := by
    unfold popped; rw [h.infos, infosFrom_dropLast]; simp
  have hw := popped_holds h
  unfold popIntoUnchecked
  refine .look_bind (.debugAssert_bind rfl (.orUb_bind fun last hl => .lift_bind (fun _ t ht => ?_) (fun t ht => by cases ht)))
  cases ht
  dsimp only
  rw [e]
  refine .look_bind (.orUb_bind fun n hn => .require_bind fun _ => .orUb_bind fun _ _ => .pure ⟨rfl, ?_⟩)
  rw [h.infos, infosFrom_getLast?] at hl
  cases hl
  obtain ⟨hn, _⟩ := vsSub_inv hn
  rw [byteLen_eq hw] at hn
  dsimp only [id] at hn
  refine ⟨copyOut_meters _ _ _ _ fun _ => .pure ?_, dropInPlace_meters _ _ _ _ _ (fun _ => .pure (Nat.zero_le _)) (Nat.zero_le _), .pure (Nat.zero_le _)⟩
  omega

omit [Inhabited β] in
theorem unbumpInfos_inv {k : Nat} : ∀ {l r : List (Info A.R)}, unbumpInfos c A.ALIGN k l = some r →
    r.length = l.length ∧ (l ≠ [] → lastEnd r + k = lastEnd l)
  | [], _, h => by cases h; exact ⟨rfl, fun h => absurd rfl h⟩
  | [e], r, h => by
    unfold unbumpInfos at h
    simp only [Option.bind_eq_bind, Option.bind_eq_some_iff] at h
    obtain ⟨o, ho, es, h1, h2⟩ := h
    cases h1
    cases h2
    obtain ⟨rfl, hle⟩ := vsSub_inv ho
    exact ⟨rfl, fun _ => by simp only [lastEnd, List.getLast?_singleton]; omega⟩
  | e :: e' :: l, r, h => by
    unfold unbumpInfos at h
    simp only [Option.bind_eq_bind, Option.bind_eq_some_iff] at h
    obtain ⟨o, ho, es, h1, h2⟩ := h
    cases h2
    obtain ⟨h3, h4⟩ := unbumpInfos_inv h1
    refine ⟨by simp [h3], fun _ => ?_⟩
    have := h4 (by simp)
    match es, h3 with
    | f :: fs, _ =>
      simp only [lastEnd, List.getLast?_cons_cons] at this ⊢
      exact this

theorem removeIntoUnchecked_meters (env : Env (Val A.ty β)) (h : v.Holds c xs) {k : Nat} (hk : k < xs.length) :
    (removeIntoUnchecked c env k).Meters v
      (fun st t d => d = 0 ∧ st.Ends t (xs[k].size + totalWidth id (xs.drop (k + 1)) + 2 * (xs.length - k))) (fun d => d = 0) := by
  have h5 := totalWidth_take_succ id xs k hk
  have h6 := totalWidth_take_drop id xs (k + 1)
  simp only [id] at h5
  have hlen : v.elems.length = xs.length := by rw [h.infos, infosFrom_length]
  have hinfo : v.elems[k]? = some ⟨A.enc xs[k].md, totalWidth id (xs.take k) + xs[k].size⟩ := by
    rw [h.infos, infosFrom_getElem?, List.getElem?_eq_getElem hk]; simp
  unfold removeIntoUnchecked
  refine .look_bind (.debugAssert_bind rfl (.orUb_bind fun info hi => .orUb_bind fun start hs => .orUb_bind fun n hn =>
    .require_bind fun _ => .orUb_bind fun _ _ => .pure ⟨rfl, ?_⟩))
  rw [hinfo] at hi
  cases hi
  rw [startOffset_eq h k (by omega)] at hs
  cases hs
  obtain ⟨hn, _⟩ := vsSub_inv hn
  have hn : n = xs[k].size := by dsimp only at hn; omega
  subst hn
  have fin : ∀ ds (j : Nat), j ≤ xs[k].size → Exec.Meters (do
        let u ← Meter.look
        Exec.assert (k < u.elems.length)
        Meter.paying (u.len - k) (Exec.set { u with elems := u.elems.eraseIdx k })
        adjustFrom k (unbumpInfos c A.ALIGN xs[k].size)
        let u ← Meter.look
        let toMove ← Exec.orUb (VS.uncheckedSub c A.ALIGN u.byteLen (totalWidth id (xs.take k)))
        Exec.require (u.heap.addOk u.ptr (totalWidth id (xs.take k) + xs[k].size))
        memmove u.ptr (totalWidth id (xs.take k) + xs[k].size) (totalWidth id (xs.take k)) toMove)
      ({ v with drops := ds } : AVec A β)
      (fun _ _ f => j + f ≤ xs[k].size + totalWidth id (xs.drop (k + 1)) + 2 * (xs.length - k))
      (fun f => j + f ≤ xs[k].size + totalWidth id (xs.drop (k + 1)) + 2 * (xs.length - k)) := by
    intro ds j hj
    refine .look_bind (.assert_bind (by omega) fun _ => .paying_bind (fun _ t ht => ?_) (fun t ht => by cases ht))
    cases ht
    refine .bind (adjustFrom_meters _ _ _ fun es he hi => .look_bind (.orUb_bind fun q hq => .require_bind fun _ => memmove_meters _ _ _ _ _ fun _ => ?_))
    obtain ⟨hq, hq2⟩ := vsSub_inv hq
    obtain ⟨e1, e2⟩ := unbumpInfos_inv he
    have hel : (v.elems.eraseIdx k).length = xs.length - 1 := by rw [List.length_eraseIdx_of_lt (by omega), hlen]
    have hdrop : (v.elems.eraseIdx k).drop k = v.elems.drop (k + 1) := by
      rw [List.eraseIdx_eq_take_drop_succ, List.drop_left' (by rw [List.length_take]; omega)]
    have htake : (v.elems.eraseIdx k).take k = v.elems.take k := UVec.take_eraseIdx_of_le (Nat.le_refl _)
    have hq3 : q ≤ totalWidth id (xs.drop (k + 1)) := by
      rw [hq]
      simp only [byteLen]
      dsimp only at he e1 e2
      rw [hdrop] at e1 e2
      rw [htake]
      by_cases hz : v.elems.drop (k + 1) = []
      · rw [hz] at e1
        have : es = [] := List.length_eq_zero_iff.mp e1
        rw [this, List.append_nil, h.infos, infosFrom_take, lastEnd_infosFrom, extent_id]
        omega
      · have hne : es ≠ [] := by
          intro h0; rw [h0] at e1; exact hz (List.length_eq_zero_iff.mp e1.symm)
        rw [lastEnd_append hne]
        have e3 := e2 hz
        have e4 : lastEnd (v.elems.drop (k + 1)) = totalWidth id xs := by
          rw [← lastEnd_append (l := v.elems.take (k + 1)) hz, List.take_append_drop, h.infos, lastEnd_infosFrom, extent_id]
        omega
    simp only [AVec.len, hel, hlen]
    omega
  refine ⟨copyOut_meters _ _ _ _ fun _ => fin v.drops _ (Nat.le_refl _), dropInPlace_meters _ _ _ _ _ (fun ds => fin ds 0 (Nat.zero_le _)) (Nat.zero_le _), ?_⟩
  have := fin v.drops 0 (Nat.zero_le _)
  simpa only [Nat.zero_add] using this

/-! ## `push_with` -/

theorem pushWith_meters (env : Env (Val A.ty β)) (x : Val A.ty β) (v : AVec A β) :
    (pushWith c env ⟨x.size, x.align⟩ x.md).Meters v
      (fun p t d => ∃ s cm rb, p = .place s cm rb ∧ (s x.bytes >>= fun _ => cm).Meters t
        (fun _ u k => v.byteCap + x.size ≤ u.byteCap ∧ (0 < x.size → v.byteCap ≤ d + k) ∧ d + k ≤ v.elemsCap + v.byteCap + x.bytes.length + 1)
        (fun k => d + k ≤ v.elemsCap + v.byteCap + x.bytes.length + 1))
      (fun d => d ≤ v.elemsCap + v.byteCap + x.bytes.length + 1) := by
  unfold pushWith reserveForEmplace
  refine .orUb_bind fun n hn => .bind (.bind ((tryReserve_meters env 1 v).mono ?_ fun _ h => h.elim))
  rintro r u d1 ⟨h1, h2⟩
  match r with
  | .error e =>
    obtain ⟨rfl, rfl⟩ := h1 e rfl
    cases e
    · exact .panic (by omega)
    · exact .abort
  | .ok () =>
    obtain ⟨cap, hcap, rfl, rfl⟩ := h2 rfl
    have hrm : recordsMoved v { v with elemsCap := cap } ≤ v.elemsCap := by unfold recordsMoved; split <;> omega
    refine .bind ((tryReserveAdditionalBytes_meters env x.size _).mono ?_ fun _ h => h.elim)
    rintro r t d2 ⟨h3, h4⟩
    refine .unwrap (fun hr => ?_) (fun hr => ?_)
    · obtain ⟨e1, e2, e7, e3, e4⟩ := h4 hr
      have e7 : v.byteCap + x.size ≤ t.byteCap := e7
      have e3 : 0 < x.size → v.byteCap ≤ d2 := e3
      have e4 : d2 ≤ v.byteCap := by
        refine Nat.le_trans e4 ?_
        show (if t.byteCap = v.byteCap then 0 else v.byteCap) ≤ _
        split <;> omega
      refine .look_bind (.require_bind fun _ => .pure ⟨_, _, _, rfl, ?_⟩)
      refine .bind (.require_bind fun _ => memwrite_meters _ _ _ _ fun _ => .orUb_bind fun _ _ => infoPush_meters _ _ fun _ => ⟨e7, fun h => ?_, ?_⟩)
      · have := e3 h; omega
      · omega
    · have e5 : d2 = 0 := (h3 _ hr).2
      omega

end AVec.Metered
end Verif
