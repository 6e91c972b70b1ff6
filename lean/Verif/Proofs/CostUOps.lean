import Verif.Proofs.CostU
import Verif.Proofs.CostApi
import Verif.Proofs.UImpl

/-!
# What the calls cost: dynamically aligned elements, the operations
-/

namespace Verif
namespace UVec.Metered
variable {T : UTy} {β : Type} {c : Cfg}

/-! ## Raising the alignment -/

theorem realignUpOffsets_fits {a b : Nat} (ha : IsAlign c a) (hb : IsAlign c b) (hd : a ∣ b) (xs : List (Val T β)) :
    ∀ (off shift : Nat), b ∣ off + shift → off + shift ≤ c.isizeMax → ∀ r,
      realignUpOffsets (T := T) c a b (infosFrom id (padTo a) off xs) shift = some r →
      off + shift + totalWidth (padTo b) xs ≤ c.isizeMax := by
  induction xs with
  | nil => intro off shift _ h _ _; exact h
  | cons x xs ih =>
    intro off shift hoff hle r h
    have hoff' : a ∣ off + shift := Nat.dvd_trans hd hoff
    have e1 : off + x.size + shift = off + shift + x.size := by omega
    have hab := padTo_le_of_dvd_dvd ha.pos hb.pos hd x.size
    simp only [infosFrom_cons, realignUpOffsets, Option.bind_eq_bind, Option.bind_eq_some_iff] at h
    obtain ⟨newEnd, h1, padNew, h2, padOld, h3, diff, h4, shift', h5, q, h6, -⟩ := h
    have hn : newEnd = off + shift + x.size ∧ newEnd ≤ c.isizeMax := by
      unfold VSU.uncheckedAdd VSU.newUnchecked Verif.uncheckedAdd at h1
      simp only [Option.bind_eq_bind, Option.bind_eq_some_iff] at h1
      obtain ⟨s, h7, h8⟩ := h1
      split at h7 <;> cases h7
      split at h8 <;> cases h8
      exact ⟨e1, by assumption⟩
    obtain ⟨rfl, hn⟩ := hn
    by_cases hp : padTo b (off + shift + x.size) ≤ c.isizeMax
    · rw [VSU.uncheckedPadTo_eq hb hn hp, padTo_add hb.pos hoff] at h2
      rw [padTo_add hb.pos hoff] at hp
      rw [VSU.uncheckedPadTo_eq ha hn (by rw [padTo_add ha.pos hoff']; omega), padTo_add ha.pos hoff'] at h3
      cases h2; cases h3
      rw [VSU.uncheckedSub_eq (by omega) (by omega)] at h4
      cases h4
      rw [VSU.uncheckedAdd_eq (by omega)] at h5
      cases h5
      have e2 : off + padTo a x.size + (shift + (off + shift + padTo b x.size - (off + shift + padTo a x.size)))
              = off + shift + padTo b x.size := by omega
      have := ih _ _ (by rw [e2]; exact Nat.dvd_add hoff (dvd_padTo _ _)) (by omega) _ h6
      rw [totalWidth_cons]
      omega
    · rw [VSU.uncheckedPadTo_none hb hn (by omega)] at h2
      cases h2

theorem bytesMovedUp_cons {b : Nat} (hb : 0 < b) (xs : List (Val T β)) : ∀ (x : Val T β) (off : Nat), b ∣ off →
    bytesMovedUp b (windows (infosFrom (id : T.Meta → T.Meta) (padTo b) off (x :: xs))) = totalWidth id xs := by
  induction xs with
  | nil => intro x off _; rfl
  | cons y ys ih =>
    intro x off hoff
    have := ih y (off + padTo b x.size) (Nat.dvd_add hoff (dvd_padTo _ _))
    simp only [infosFrom_cons, windows, List.tail_cons, List.zip_cons_cons, bytesMovedUp, List.map_cons, List.sum_cons, totalWidth_cons, id] at this ⊢
    rw [this, padTo_add hb hoff]
    omega

theorem bytesMovedUp_le {b : Nat} (hb : 0 < b) (xs : List (Val T β)) :
    bytesMovedUp b (windows (infosFrom (id : T.Meta → T.Meta) (padTo b) 0 xs)) ≤ totalWidth id xs := by
  cases xs with
  | nil => exact Nat.zero_le _
  | cons x xs => rw [bytesMovedUp_cons hb xs x 0 (Nat.dvd_zero _), totalWidth_cons]; omega

variable {G : Prop} {v : UVec T β} {xs : List (Val T β)}

/-- What it costs to raise the alignment of a vector that holds `xs`. -/
theorem raising_le [Inhabited β] (h : v.Represents G c xs) {a : Nat} (ha : IsAlign c a) (hle : v.align ≤ a) :
    raising c v a ≤ 3 * xs.length + totalWidth id xs := by
  have hd := h.al.dvd_of_le ha hle
  have hl : v.len = xs.length := by unfold UVec.len; rw [h.infos, infosFrom_length]
  unfold raising
  rw [hl]
  split
  · rename_i r hr
    rw [h.infos] at hr
    have hf := realignUpOffsets_fits h.al ha hd xs 0 0 (Nat.dvd_zero _) (Nat.zero_le _) _ hr
    rw [realignUpOffsets_eq h.al ha hd xs 0 0 (Nat.dvd_zero _) hf] at hr
    cases hr
    have := bytesMovedUp_le (T := T) ha.pos xs
    simp only [Nat.add_zero]
    omega
  · omega

/-- Each element but the first is moved, if this can be done at all. -/
theorem raising_ge [Inhabited β] {y : Val T β} {ys : List (Val T β)} (h : v.Represents G c (y :: ys)) {a : Nat} (ha : IsAlign c a) (hle : v.align ≤ a)
    (hs : (realignUpOffsets c v.align a v.elems 0).isSome) : 3 * (ys.length + 1) + totalWidth id ys ≤ raising c v a := by
  have hd := h.al.dvd_of_le ha hle
  have hl : v.len = ys.length + 1 := by unfold UVec.len; rw [h.infos, infosFrom_length]; rfl
  obtain ⟨r, hr⟩ := Option.isSome_iff_exists.mp hs
  have e : raising c v a = 3 * v.len + bytesMovedUp a (windows r.1) := by unfold raising; rw [hr]
  rw [e, hl]
  rw [h.infos] at hr
  have hf := realignUpOffsets_fits h.al ha hd (y :: ys) 0 0 (Nat.dvd_zero _) (Nat.zero_le _) _ hr
  rw [realignUpOffsets_eq h.al ha hd (y :: ys) 0 0 (Nat.dvd_zero _) hf] at hr
  cases hr
  rw [Nat.add_zero, bytesMovedUp_cons ha.pos ys y 0 (Nat.dvd_zero _)]
  omega

/-! ## Reserving -/
variable [Inhabited β]

theorem reserve_cost (env : Env (Val T β)) (n b : Nat) {al : Nat} (hal : IsAlign c al) (v : UVec T β) :
    (Api.reserveCapacityBytesAlign c (unalignedMetered c T).P env n b al).Meters v
      (fun _ t d => t.len = v.len ∧ stdReserve c.infoMax v.elemsCap v.len n env.infoGrow = .ok t.elemsCap ∧ d ≤ recordsMoved v t + attempt v al + blockMoved c v t al ∧
        (IsAlign c v.align → v.align < al → 0 < v.byteCap → 1 < v.len → v.byteCap + raising c v al ≤ d ∧ (realignUpOffsets c v.align al v.elems 0).isSome))
      (fun d => d ≤ v.elemsCap + attempt v al + (v.byteCap + if v.align < al then raising c v al else 0)) := by
  refine (reserve_meters (S := fun u d => ∃ cap, stdReserve c.infoMax v.elemsCap v.len n env.infoGrow = .ok cap ∧ u = { v with elemsCap := cap } ∧ d = recordsMoved v u)
    (G := fun u t d => t.len = u.len ∧ t.elemsCap = u.elemsCap ∧ d ≤ blockMoved c u t al ∧
      (IsAlign c u.align → u.align < al → 0 < u.byteCap → 1 < u.len → u.byteCap + raising c u al ≤ d ∧ (realignUpOffsets c u.align al u.elems 0).isSome)) (Bs := v.elemsCap) (Bw := attempt v al)
    (Bg := v.byteCap + if v.align < al then raising c v al else 0) (validAlign_new_eq hal) ?_ ?_ ?_ ?_ ?_).mono ?_ fun _ h => h
  · exact tryReserve_meters env n v
  · rintro u d ⟨cap, hcap, rfl, rfl⟩
    unfold recordsMoved; split <;> omega
  · rintro u d k ⟨cap, hcap, rfl, rfl⟩
    refine (tryReserveAdditionalBytesAlign_meters env k al _).mono ?_ ?_
    · rintro r t d ⟨h1, h2⟩
      exact ⟨h1, fun hr => ⟨(h2 hr).1, (h2 hr).2.1, (h2 hr).2.2.2, fun hv => ((h2 hr).2.2.1 hv hal).2.2.2⟩⟩
    · intro d hd
      refine Nat.le_trans hd ?_
      show (if v.align < al then v.byteCap + raising c v al else 0) ≤ _
      split <;> omega
  · rintro u d t d' ⟨cap, hcap, rfl, rfl⟩ ⟨_, _, h3, _⟩
    refine Nat.le_trans h3 ?_
    show (if v.align < al then v.byteCap + raising c v al else if t.byteCap = v.byteCap then 0 else v.byteCap) ≤ _
    split
    · omega
    · split <;> omega
  · unfold attempt raising; split <;> omega
  · rintro _ t d ⟨u, d1, d2, d3, ⟨cap, hcap, rfl, rfl⟩, h2, ⟨h3, h4, h5, h6⟩, rfl⟩
    refine ⟨h3, by rw [h4]; exact hcap, ?_, fun i1 i2 i3 i4 => ⟨Nat.le_trans (h6 i1 i2 i3 i4).1 (Nat.le_add_left _ _), (h6 i1 i2 i3 i4).2⟩⟩
    have e1 : recordsMoved v { v with elemsCap := cap } = recordsMoved v t := by unfold recordsMoved; rw [h4]
    have e2 : blockMoved c { v with elemsCap := cap } t al = blockMoved c v t al := rfl
    omega

/-! ## Adding elements -/

theorem memwrite_meters (p off : Nat) (bs : List β) (v : UVec T β) {Q : Unit → UVec T β → Nat → Prop} {E : Nat → Prop}
    (h : ∀ h', Q () { v with heap := h' } bs.length) : (memwrite p off bs).Meters v Q E := by
  refine .paying (fun _ t ht => ?_) (fun t ht => ?_)
  · unfold UVec.memwrite at ht
    rw [Exec.get_bind] at ht
    cases ho : v.heap.write p off bs with
    | none => rw [ho] at ht; cases ht
    | some h' => rw [ho] at ht; cases ht; exact h h'
  · unfold UVec.memwrite at ht
    rw [Exec.get_bind] at ht
    cases ho : v.heap.write p off bs with
    | none => rw [ho] at ht; cases ht
    | some h' => rw [ho] at ht; cases ht

omit [Inhabited β] in
theorem memmove_meters (p a b n : Nat) (v : UVec T β) {Q : Unit → UVec T β → Nat → Prop} {E : Nat → Prop}
    (h : ∀ h', Q () { v with heap := h' } n) : (memmove p a b n).Meters v Q E := by
  refine .paying (fun _ t ht => ?_) (fun t ht => ?_)
  · unfold UVec.memmove at ht
    rw [Exec.get_bind] at ht
    cases ho : v.heap.copy p a b n with
    | none => rw [ho] at ht; cases ht
    | some h' => rw [ho] at ht; cases ht; exact h h'
  · unfold UVec.memmove at ht
    rw [Exec.get_bind] at ht
    cases ho : v.heap.copy p a b n with
    | none => rw [ho] at ht; cases ht
    | some h' => rw [ho] at ht; cases ht

omit [Inhabited β] in
theorem infoPush_meters (info : Info T.Meta) (v : UVec T β) {Q : Unit → UVec T β → Nat → Prop} {E : Nat → Prop}
    (h : ∀ es, Q () { v with elems := es } 1) : (infoPush info).Meters v Q E := by
  have key : ∀ r, UVec.infoPush info v = r → (∃ es, r = .ok () { v with elems := es }) ∨ r = .ub := by
    rintro r rfl
    unfold UVec.infoPush
    rw [Exec.get_bind]
    by_cases hq : v.elems.length < v.elemsCap
    · rw [Exec.bind_ok (Exec.require_pos hq _)]; exact .inl ⟨_, rfl⟩
    · exact .inr (Exec.bind_ub (Exec.require_neg hq _))
  refine .paying (fun _ t ht => ?_) (fun t ht => ?_)
  · rcases key _ ht with ⟨es, h3⟩ | h3
    · cases h3; exact h es
    · cases h3
  · rcases key _ ht with ⟨es, h3⟩ | h3 <;> cases h3

omit [Inhabited β] in
theorem infoInsert_meters (i : Nat) (info : Info T.Meta) (v : UVec T β) {Q : Unit → UVec T β → Nat → Prop} {E : Nat → Prop}
    (h : ∀ t, Q () t (v.len - i + 1)) : (infoInsert i info).Meters v Q E := by
  refine .look_bind (.paying (fun _ t ht => h t) (fun t ht => ?_))
  unfold UVec.infoInsert at ht
  rw [Exec.get_bind] at ht
  by_cases hq : v.elems.length < v.elemsCap ∧ i ≤ v.elems.length
  · rw [Exec.bind_ok (Exec.require_pos hq _)] at ht; cases ht
  · rw [Exec.bind_ub (Exec.require_neg hq _)] at ht; cases ht

omit [Inhabited β] in
theorem adjustFrom_meters (i : Nat) (f : List (Info T.Meta) → Option (List (Info T.Meta))) (v : UVec T β)
    {Q : Unit → UVec T β → Nat → Prop} {E : Nat → Prop}
    (h : ∀ es, f (v.elems.drop i) = some es → i ≤ v.elems.length → Q () { v with elems := v.elems.take i ++ es } (v.len - i)) :
    (adjustFrom i f).Meters v Q E := by
  have key : ∀ r, UVec.adjustFrom i f v = r → (∃ es, f (v.elems.drop i) = some es ∧ i ≤ v.elems.length ∧
      r = .ok () { v with elems := v.elems.take i ++ es }) ∨ r = .ub := by
    rintro r rfl
    unfold UVec.adjustFrom
    rw [Exec.get_bind]
    by_cases hq : i ≤ v.elems.length
    · rw [Exec.bind_ok (Exec.require_pos hq _)]
      cases ho : f (v.elems.drop i) with
      | none => exact .inr rfl
      | some es => exact .inl ⟨es, rfl, hq, rfl⟩
    · exact .inr (Exec.bind_ub (Exec.require_neg hq _))
  refine .look_bind (.paying (fun _ t ht => ?_) (fun t ht => ?_))
  · rcases key _ ht with ⟨es, h1, h2, h3⟩ | h3
    · cases h3; exact h es h1 h2
    · cases h3
  · rcases key _ ht with ⟨es, h1, h2, h3⟩ | h3 <;> cases h3

theorem pushUnchecked_meters (x : Val T β) (v : UVec T β) :
    (pushUnchecked c x).Meters v (fun _ t d => t.elemsCap = v.elemsCap ∧ t.byteCap = v.byteCap ∧ d = x.bytes.length + 1) (fun d => d ≤ x.bytes.length + 1) := by
  unfold pushUnchecked
  refine .look_bind (.debugAssert_bind (Nat.zero_le _) (.orUb_bind fun _ _ => .debugAssert_bind (Nat.zero_le _) (.debugAssert_bind (Nat.zero_le _) ?_)))
  refine .bind (memwrite_meters _ _ _ _ fun h' => .orUb_bind fun _ _ => infoPush_meters _ _ fun _ => ⟨rfl, rfl, rfl⟩)

omit [Inhabited β] in
theorem bumpInfos_length {k : Nat} : ∀ {l r : List (Info T.Meta)}, bumpInfos c k l = some r → r.length = l.length
  | [], _, h => by cases h; rfl
  | e :: l, r, h => by
    unfold bumpInfos at h
    simp only [Option.bind_eq_bind, Option.bind_eq_some_iff] at h
    obtain ⟨_, _, es, h1, h2⟩ := h
    cases h2
    simp [bumpInfos_length h1]

omit [Inhabited β] in
theorem vsuSub_inv {a b n : Nat} (hn : VSU.uncheckedSub c a b = some n) : n = a - b ∧ b ≤ a := by
  unfold VSU.uncheckedSub VSU.newUnchecked Verif.uncheckedSub at hn
  simp only [Option.bind_eq_bind, Option.bind_eq_some_iff] at hn
  obtain ⟨s, h7, h8⟩ := hn
  split at h7 <;> cases h7
  split at h8 <;> cases h8
  exact ⟨rfl, by assumption⟩

theorem insertUnchecked_meters (i : Nat) (x : Val T β) (v : UVec T β) {B : Nat}
    (hB : ∀ start, v.startOffset c i = some start → v.unalignedByteLen - start ≤ B) :
    (insertUnchecked c i x).Meters v (fun _ _ d => d ≤ B + x.bytes.length + 2 * (v.len - i) + 1)
      (fun d => d ≤ B + x.bytes.length + 2 * (v.len - i) + 1) := by
  unfold insertUnchecked
  refine .look_bind (.debugAssert_bind (Nat.zero_le _) (.debugAssert_bind (Nat.zero_le _) (.orUb_bind fun _ _ => .orUb_bind fun _ _ =>
    .debugAssert_bind (Nat.zero_le _) (.debugAssert_bind (Nat.zero_le _) (.orUb_bind fun start hs => .orUb_bind fun n hn => .require_bind fun _ => ?_)))))
  have hn' : n ≤ B := by
    rw [(vsuSub_inv hn).1]; exact hB start hs
  refine .bind (memmove_meters _ _ _ _ _ fun _ => .bind (memwrite_meters _ _ _ _ fun _ => .bind (adjustFrom_meters _ _ _ fun es he hi =>
    .orUb_bind fun _ _ => infoInsert_meters _ _ _ fun _ => ?_)))
  have hl : ({ v with elems := v.elems.take i ++ es } : UVec T β).len = v.len := by
    have := bumpInfos_length he
    simp only [UVec.len, List.length_append, List.length_take, List.length_drop] at this ⊢
    omega
  simp only [UVec.len] at hl ⊢
  omega

/-! ## Removing elements -/

omit [Inhabited β] in
theorem copyOut_meters (p off n : Nat) (v : UVec T β) {Q : List β → UVec T β → Nat → Prop} {E : Nat → Prop} (h : ∀ bs, Q bs v n) :
    (writing (copyOut p off n)).Meters v Q E := by
  intro m
  unfold writing copyOut
  dsimp only
  cases v.heap.read p off n with
  | none => trivial
  | some bs => exact ⟨n, rfl, h bs⟩

theorem dropInPlace_meters (env : Env (Val T β)) (p off : Nat) (md : T.Meta) (v : UVec T β) {Q : Unit → UVec T β → Nat → Prop} {E : Nat → Prop}
    (h : ∀ ds, Q () { v with drops := ds } 0) (hE : E 0) : (liftL (dropInPlace env p off md)).Meters v Q E := by
  have key : ∀ r, dropInPlace env p off md v = r → (∃ ds, r = .ok () { v with drops := ds }) ∨ (∃ t, r = .panic t) ∨ r = .ub := by
    rintro r rfl
    unfold dropInPlace
    rw [Exec.get_bind]
    cases mkRef v.heap p off md with
    | none => exact .inr (.inr rfl)
    | some q =>
      rw [Exec.bind_ok (Exec.orUb_some _ v), Exec.modify_bind]
      by_cases hd : env.dropPanics (q.read v.heap) = true
      · rw [if_pos hd]; exact .inr (.inl ⟨_, rfl⟩)
      · rw [if_neg hd]; exact .inl ⟨_, rfl⟩
  refine .lift (fun _ t ht => ?_) (fun _ _ => hE)
  rcases key _ ht with ⟨ds, h1⟩ | ⟨_, h1⟩ | h1
  · cases h1; exact h ds
  · cases h1
  · cases h1

theorem popIntoUnchecked_meters (env : Env (Val T β)) {x : Val T β} (h : v.Represents G c (xs ++ [x])) :
    (popIntoUnchecked c env).Meters v (fun st t d => d = 0 ∧ st.Ends t x.size) (fun d => d = 0) := by
  have e : ({ v with elems := v.elems.dropLast } : UVec T β) = popped v xs := by
    unfold popped; rw [h.infos, infosFrom_dropLast]; simp
  have hw := popped_holds h
  unfold popIntoUnchecked
  refine .look_bind (.debugAssert_bind rfl (.orUb_bind fun last hl => .lift_bind (fun _ t ht => ?_) (fun t ht => by cases ht)))
  cases ht
  dsimp only
  rw [e]
  refine .look_bind (.orUb_bind fun start hs => .orUb_bind fun n hn => .require_bind fun _ => .orUb_bind fun _ _ => .orUb_bind fun _ _ => .pure ⟨rfl, ?_⟩)
  rw [h.infos, infosFrom_getLast?] at hl
  cases hl
  rw [alignedByteLen_eq hw] at hs
  cases hs
  obtain ⟨rfl, _⟩ := vsuSub_inv hn
  have ea : (popped v xs).align = v.align := rfl
  refine ⟨copyOut_meters _ _ _ _ fun _ => .pure ?_, dropInPlace_meters _ _ _ _ _ (fun _ => .pure (Nat.zero_le _)) (Nat.zero_le _), .pure (Nat.zero_le _)⟩
  show _ - totalWidth (padTo (popped v xs).align) xs + 0 ≤ x.size
  rw [ea]
  dsimp only
  omega

omit [Inhabited β] in
theorem unbumpInfos_inv {k : Nat} : ∀ {l r : List (Info T.Meta)}, unbumpInfos c k l = some r →
    r.length = l.length ∧ (l ≠ [] → lastEnd r + k = lastEnd l)
  | [], _, h => by cases h; exact ⟨rfl, fun h => absurd rfl h⟩
  | [e], r, h => by
    unfold unbumpInfos at h
    simp only [Option.bind_eq_bind, Option.bind_eq_some_iff] at h
    obtain ⟨o, ho, es, h1, h2⟩ := h
    cases h1
    cases h2
    obtain ⟨rfl, hle⟩ := vsuSub_inv ho
    exact ⟨rfl, fun _ => by simp only [lastEnd, List.getLast?_singleton]; omega⟩
  | e :: e' :: l, r, h => by
    unfold unbumpInfos at h
    simp only [Option.bind_eq_bind, Option.bind_eq_some_iff] at h
    obtain ⟨o, ho, es, h1, h2⟩ := h
    cases h2
    obtain ⟨h3, h4⟩ := unbumpInfos_inv h1
    refine ⟨by simp [h3], fun _ => ?_⟩
    have := h4 (by simp)
    match es, h3 with
    | f :: fs, _ =>
      simp only [lastEnd, List.getLast?_cons_cons] at this ⊢
      exact this

omit [Inhabited β] in
theorem _root_.Verif.lastEnd_append {R : Type} {l r : List (Info R)} (h : r ≠ []) : lastEnd (l ++ r) = lastEnd r := by
  unfold lastEnd
  obtain ⟨e, he⟩ := List.getLast?_isSome.mpr h |> Option.isSome_iff_exists.mp
  rw [List.getLast?_append, he, Option.some_or]

theorem removeIntoUnchecked_meters (env : Env (Val T β)) (h : v.Represents G c xs) {k : Nat} (hk : k < xs.length) :
    (removeIntoUnchecked c env k).Meters v
      (fun st t d => d = 0 ∧ st.Ends t (xs[k].size + totalWidth (padTo v.align) (xs.drop (k + 1)) + 2 * (xs.length - k))) (fun d => d = 0) := by
  have h1 := h.elem_le k hk
  have h2 := h.total_le
  have h5 := totalWidth_take_succ (padTo v.align) xs k hk
  have h6 := totalWidth_take_drop (padTo v.align) xs (k + 1)
  have hlen : v.elems.length = xs.length := by rw [h.infos, infosFrom_length]
  have hinfo : v.elems[k]? = some ⟨xs[k].md, totalWidth (padTo v.align) (xs.take k) + xs[k].size⟩ := by
    rw [h.infos, infosFrom_getElem?, List.getElem?_eq_getElem hk]; simp
  unfold removeIntoUnchecked
  refine .look_bind (.debugAssert_bind rfl (.orUb_bind fun info hi => .orUb_bind fun start hs => .orUb_bind fun n hn => .orUb_bind fun m hm =>
    .require_bind fun _ => .orUb_bind fun _ _ => .orUb_bind fun _ _ => .pure ⟨rfl, ?_⟩))
  rw [hinfo] at hi
  cases hi
  rw [startOffset_eq h k (by omega)] at hs
  cases hs
  obtain ⟨hn, _⟩ := vsuSub_inv hn
  have hn : n = xs[k].size := by dsimp only at hn; omega
  subst hn
  rw [VSU.uncheckedPadTo_eq h.al (by omega) (by omega)] at hm
  cases hm
  have fin : ∀ ds (j : Nat), j ≤ xs[k].size → Exec.Meters (do
        let u ← Meter.look
        Exec.assert (k < u.elems.length)
        Meter.paying (u.len - k) (Exec.set { u with elems := u.elems.eraseIdx k })
        adjustFrom k (unbumpInfos c (padTo v.align xs[k].size))
        let u ← Meter.look
        let toMove ← Exec.orUb (VSU.uncheckedSub c u.unalignedByteLen (totalWidth (padTo v.align) (xs.take k)))
        Exec.require (u.heap.addOk u.ptr (totalWidth (padTo v.align) (xs.take k) + padTo v.align xs[k].size))
        memmove u.ptr (totalWidth (padTo v.align) (xs.take k) + padTo v.align xs[k].size) (totalWidth (padTo v.align) (xs.take k)) toMove)
      ({ v with drops := ds } : UVec T β)
      (fun _ _ f => j + f ≤ xs[k].size + totalWidth (padTo v.align) (xs.drop (k + 1)) + 2 * (xs.length - k))
      (fun f => j + f ≤ xs[k].size + totalWidth (padTo v.align) (xs.drop (k + 1)) + 2 * (xs.length - k)) := by
    intro ds j hj
    refine .look_bind (.assert_bind (by omega) fun _ => .paying_bind (fun _ t ht => ?_) (fun t ht => by cases ht))
    cases ht
    refine .bind (adjustFrom_meters _ _ _ fun es he hi => .look_bind (.orUb_bind fun q hq => .require_bind fun _ => memmove_meters _ _ _ _ _ fun _ => ?_))
    obtain ⟨hq, hq2⟩ := vsuSub_inv hq
    obtain ⟨e1, e2⟩ := unbumpInfos_inv he
    have hel : (v.elems.eraseIdx k).length = xs.length - 1 := by rw [List.length_eraseIdx_of_lt (by omega), hlen]
    have hdrop : (v.elems.eraseIdx k).drop k = v.elems.drop (k + 1) := by
      rw [List.eraseIdx_eq_take_drop_succ, List.drop_left' (by rw [List.length_take]; omega)]
    have htake : (v.elems.eraseIdx k).take k = v.elems.take k := take_eraseIdx_of_le (Nat.le_refl _)
    have hq3 : q ≤ totalWidth (padTo v.align) (xs.drop (k + 1)) := by
      rw [hq]
      simp only [unalignedByteLen]
      dsimp only at he e1 e2
      rw [hdrop] at e1 e2
      rw [htake]
      by_cases hz : v.elems.drop (k + 1) = []
      · rw [hz] at e1
        have : es = [] := List.length_eq_zero_iff.mp e1
        rw [this, List.append_nil, h.infos, infosFrom_take, lastEnd_infosFrom]
        have := extent_le (padTo v.align) h.le_w (xs.take k)
        omega
      · have hne : es ≠ [] := by
          intro h0; rw [h0] at e1; exact hz (List.length_eq_zero_iff.mp e1.symm)
        rw [lastEnd_append hne]
        have e3 := e2 hz
        have e4 : lastEnd (v.elems.drop (k + 1)) = extent (padTo v.align) xs := by
          rw [← lastEnd_append (l := v.elems.take (k + 1)) hz, List.take_append_drop, h.infos, lastEnd_infosFrom]
        have e5 := extent_le (padTo v.align) h.le_w xs
        omega
    simp only [UVec.len, hel, hlen]
    omega
  refine ⟨copyOut_meters _ _ _ _ fun _ => fin v.drops _ (Nat.le_refl _), dropInPlace_meters _ _ _ _ _ (fun ds => fin ds 0 (Nat.zero_le _)) (Nat.zero_le _), ?_⟩
  have := fin v.drops 0 (Nat.zero_le _)
  simpa only [Nat.zero_add] using this

/-! ## `push_with` -/

theorem pushWith_meters (env : Env (Val T β)) (x : Val T β) (hx : IsAlign c x.align) (v : UVec T β) (hv : IsAlign c v.align) :
    (pushWith c env ⟨x.size, x.align⟩ x.md).Meters v
      (fun p t d => ∃ s cm rb, p = .place s cm rb ∧ (s x.bytes >>= fun _ => cm).Meters t
        (fun _ u k => IsAlign c u.align ∧ v.byteCap + x.size ≤ u.byteCap ∧ (0 < x.size → v.byteCap ≤ d + k) ∧ d + k ≤ v.elemsCap + v.byteCap + (if v.align < x.align then raising c v x.align else 0) + x.bytes.length + 1)
        (fun k => d + k ≤ v.elemsCap + v.byteCap + (if v.align < x.align then raising c v x.align else 0) + x.bytes.length + 1))
      (fun d => d ≤ v.elemsCap + v.byteCap + (if v.align < x.align then raising c v x.align else 0) + x.bytes.length + 1) := by
  unfold pushWith reserveForEmplace
  refine .orUb_bind fun n hn => .bind (.bind ((tryReserve_meters env 1 v).mono ?_ fun _ h => h.elim))
  rintro r u d1 ⟨h1, h2⟩
  match r with
  | .error e =>
    obtain ⟨rfl, rfl⟩ := h1 e rfl
    cases e
    · exact .panic (by omega)
    · exact .abort
  | .ok () =>
    obtain ⟨cap, hcap, rfl, rfl⟩ := h2 rfl
    have hrm : recordsMoved v { v with elemsCap := cap } ≤ v.elemsCap := by unfold recordsMoved; split <;> omega
    refine .bind ((tryReserveAdditionalBytesAlign_meters env x.size x.align _).mono ?_ ?_)
    · rintro r t d2 ⟨h3, h4⟩
      have hatt : attempt v x.align ≤ if v.align < x.align then raising c v x.align else 0 := by
        unfold attempt raising; split <;> omega
      refine .unwrap (fun hr => ?_) (fun hr => ?_)
      · obtain ⟨e1, e2, e3, e4⟩ := h4 hr
        obtain ⟨e6, e7, e3, _⟩ : IsAlign c t.align ∧ v.byteCap + x.size ≤ t.byteCap ∧ (0 < x.size → v.byteCap ≤ d2) ∧ _ := e3 hv hx
        have e4 : d2 ≤ v.byteCap + (if v.align < x.align then raising c v x.align else 0) := by
          refine Nat.le_trans e4 ?_
          show (if v.align < x.align then v.byteCap + raising c v x.align else if t.byteCap = v.byteCap then 0 else v.byteCap) ≤ _
          split
          · omega
          · split <;> omega
        refine .look_bind (.orUb_bind fun _ _ => .require_bind fun _ => .pure ⟨_, _, _, rfl, ?_⟩)
        refine .bind (.require_bind fun _ => memwrite_meters _ _ _ _ fun _ => .orUb_bind fun _ _ => infoPush_meters _ _ fun _ => ⟨e6, e7, fun h => ?_, ?_⟩)
        · have := e3 h; omega
        · omega
      · have e5 : d2 ≤ attempt v x.align := (h3 _ hr).2
        omega
    · intro d2 hd
      have hd : d2 ≤ if v.align < x.align then v.byteCap + raising c v x.align else 0 := hd
      by_cases hlt : v.align < x.align
      · rw [if_pos hlt] at hd ⊢; omega
      · rw [if_neg hlt] at hd ⊢; omega

end UVec.Metered
end Verif
