import Verif.Proofs.CostRules
import Verif.Proofs.NoLoss
import Verif.Proofs.UReserve

/-!
# What the calls cost: dynamically aligned elements
-/

namespace Verif

namespace UVec.Metered
variable {T : UTy} {β : Type} [Inhabited β] {c : Cfg}

/-- What growing `elems_info` costs. -/
def recordsMoved (v t : UVec T β) : Nat := if t.elemsCap = v.elemsCap then 0 else v.elemsCap

/-- What raising the alignment costs, apart from a new block: three passes over the records, and moving the elements. -/
def raising (c : Cfg) (v : UVec T β) (newAlign : Nat) : Nat :=
  3 * v.len + match realignUpOffsets c v.align newAlign v.elems 0 with
    | some r => bytesMovedUp newAlign (windows r.1)
    | none => 0

omit [Inhabited β] in
theorem tryReserve_meters (env : Env (Val T β)) (n : Nat) (v : UVec T β) :
    (tryReserve c env n).Meters v
      (fun r t d => (∀ e, r = .error e → t = v ∧ d = 0) ∧ (r = .ok () → ∃ cap, stdReserve c.infoMax v.elemsCap v.len n env.infoGrow = .ok cap ∧ t = { v with elemsCap := cap } ∧ d = recordsMoved v t))
      (fun _ => False) := by
  unfold tryReserve
  refine .look_bind ?_
  split
  · exact .pure ⟨fun _ _ => ⟨rfl, rfl⟩, nofun⟩
  · rename_i cap hc
    refine .count_bind (.lift_bind (fun _ t ht => ?_) (fun t ht => by cases ht))
    cases ht
    refine .pure ⟨nofun, fun _ => ⟨cap, hc, rfl, ?_⟩⟩
    rcases stdReserve_grows hc with ⟨h1, rfl⟩ | ⟨h1, h2⟩
    · rw [if_pos h1]; simp [recordsMoved]
    · rw [if_neg (by omega)]; unfold recordsMoved; rw [if_neg (by simp; omega)]; omega

omit [Inhabited β] in
theorem realignUp_meters (a : Nat) (v : UVec T β) :
    (realignUp c a).Meters v (fun _ t d => t.len = v.len ∧ t.elemsCap = v.elemsCap ∧ t.byteCap = v.byteCap ∧ v.len + d = raising c v a ∧ (realignUpOffsets c v.align a v.elems 0).isSome)
      (fun d => v.len + d ≤ raising c v a) := by
  unfold realignUp
  refine .look_bind (.debugAssert_bind (by unfold raising; omega) (.count_bind (.orUb_bind ?_)))
  rintro ⟨es, fin⟩ he
  have hr : raising c v a = 3 * v.len + bytesMovedUp a (windows es) := by unfold raising; rw [he]
  refine .count_bind (.orUb_bind fun h hh => .lift (fun _ t ht => ?_) (fun t ht => by cases ht))
  cases ht
  refine ⟨?_, rfl, rfl, by rw [hr]; omega, by rw [he]; rfl⟩
  exact realignUpOffsets_length he
where
  realignUpOffsets_length {a b : Nat} : ∀ {l : List (Info T.Meta)} {s : Nat} {r : List (Info T.Meta)} {f : Nat},
      realignUpOffsets c a b l s = some (r, f) → r.length = l.length
    | [], _, _, _, h => by cases h; rfl
    | e :: l, s, r, f, h => by
      unfold realignUpOffsets at h
      simp only [Option.bind_eq_bind, Option.bind_eq_some_iff] at h
      obtain ⟨_, _, _, _, _, _, _, _, _, _, ⟨es, g⟩, h1, h2⟩ := h
      cases h2
      simp [realignUpOffsets_length h1]

/-- What a new block costs. -/
def blockMoved (c : Cfg) (v t : UVec T β) (newAlign : Nat) : Nat :=
  if v.align < newAlign then v.byteCap + raising c v newAlign else if t.byteCap = v.byteCap then 0 else v.byteCap

theorem reserveCommit_meters (env : Env (Val T β)) (b a k : Nat) (v : UVec T β) (ha : v.align ≤ a) :
    (reserveCommit c env b a k).Meters v
      (fun r t d => (∀ e, r = .error e → t = v ∧ d = 0) ∧ (r = .ok () → t.len = v.len ∧ t.elemsCap = v.elemsCap ∧
        (IsAlign c v.align → IsAlign c a → IsAlign c t.align ∧ v.byteCap + b ≤ t.byteCap ∧ (0 < b → v.byteCap ≤ d) ∧
          (v.align < a → 0 < v.byteCap → 1 < v.len → v.byteCap + raising c v a ≤ v.len + d ∧ (realignUpOffsets c v.align a v.elems 0).isSome)) ∧ (if v.align < a then v.len else 0) + d ≤ blockMoved c v t a))
      (fun d => (if v.align < a then v.len else 0) + d ≤ if v.align < a then v.byteCap + raising c v a else 0) := by
  have hra : v.len ≤ raising c v a := by unfold raising; omega
  unfold reserveCommit
  refine .look_bind (.orUb_bind fun o ho => ?_)
  cases o with
  | none => exact .pure ⟨fun _ _ => ⟨rfl, rfl⟩, nofun⟩
  | some newCap =>
    dsimp only
    have hb : IsAlign c a → v.byteCap + b ≤ newCap := by
      intro hi
      rw [checkedAddPad2 hi] at ho
      have e1 := le_padTo hi.pos (v.byteCap + k)
      have e2 := le_padTo hi.pos (padTo a (v.byteCap + k) + b)
      split at ho
      · cases ho; omega
      · cases ho
    refine .ite (fun hgrow => .ite (fun hpos => ?_) (fun hz => ?_)) (fun hno => ?_)
    · refine .orUb_bind fun l hl => .orUb_bind fun o ho2 => ?_
      cases o with
      | none => exact .pure ⟨fun _ _ => ⟨rfl, rfl⟩, nofun⟩
      | some q =>
        obtain ⟨h, addr, granted⟩ := q
        dsimp only
        refine .count_bind (.orUb_bind fun cap' hcap => .lift_bind (fun _ t ht => ?_) (fun t ht => by cases ht))
        cases ht
        obtain ⟨rfl, _, hl2⟩ := layoutUnchecked_inv hl
        have hge : newCap ≤ cap' := newSquishedTo_ge hcap (growStorage_granted ho2).1 hl2
        refine .ite (fun hlt => ?_) (fun hnlt => ?_)
        · have hbm : ∀ t, blockMoved c v t a = v.byteCap + raising c v a := fun t => by unfold blockMoved; rw [if_pos hlt]
          refine .ite (fun hlen => .bind ((realignUp_meters a _).mono ?_ ?_)) (fun hlen => .lift_bind (fun _ t ht => ?_) (fun t ht => by cases ht))
          · rintro _ t d ⟨h1, h2, h3, h4, h5⟩
            refine .lift_bind (fun _ t' ht => ?_) (fun t ht => by cases ht)
            cases ht
            have h3 : t.byteCap = cap' := h3
            have h4 : v.len + d = raising c v a := h4
            refine .pure ⟨nofun, fun _ => ⟨h1, h2, fun _ hi => ⟨hi, by have := hb hi; dsimp only; omega, fun _ => by omega, fun _ _ _ => ⟨by omega, h5⟩⟩, ?_⟩⟩
            rw [hbm, if_pos hlt]
            omega
          · intro d h4
            have h4 : v.len + d ≤ raising c v a := h4
            rw [if_pos hlt, if_pos hlt]; omega
          · cases ht
            refine .pure ⟨nofun, fun _ => ⟨rfl, rfl, fun _ hi => ⟨hi, by have := hb hi; dsimp only; omega, fun _ => by omega, fun _ _ h => absurd h hlen⟩, ?_⟩⟩
            rw [hbm, if_pos hlt]; omega
        · refine .pure ⟨nofun, fun _ => ⟨rfl, rfl, fun hv hi => ⟨hv, by have := hb hi; dsimp only; omega, fun _ => by omega, fun h => absurd h hnlt⟩, ?_⟩⟩
          unfold blockMoved
          rw [if_neg hnlt, if_neg hnlt, if_neg (by dsimp only; omega)]; omega
    · refine .lift_bind (fun _ t ht => ?_) (fun t ht => by cases ht)
      cases ht
      refine .pure ⟨nofun, fun _ => ⟨rfl, rfl, fun hv hi => ⟨hv, by have := hb hi; dsimp only; omega, fun h0 => by have := hb hi; omega, fun _ h _ => by have := hb hi; omega⟩, ?_⟩⟩
      unfold blockMoved
      split <;> omega
    · refine .pure ⟨nofun, fun _ => ⟨rfl, rfl, fun hv hi => ⟨hv, by have := hb hi; omega, fun h0 => by have := hb hi; omega, fun h => absurd (Or.inl h) hno⟩, ?_⟩⟩
      rw [if_neg (fun h => hno (.inl h))]; omega

/-- What the attempt to reserve bytes costs if it fails: `len_after_realign_up`. -/
def attempt (v : UVec T β) (a : Nat) : Nat := if v.align < a then v.len else 0

theorem tryReserveAdditionalBytesAlign_meters (env : Env (Val T β)) (b a : Nat) (v : UVec T β) :
    (tryReserveAdditionalBytesAlign c env b a).Meters v
      (fun r t d => (∀ e, r = .error e → t = v ∧ d ≤ attempt v a) ∧ (r = .ok () → t.len = v.len ∧ t.elemsCap = v.elemsCap ∧
        (IsAlign c v.align → IsAlign c a → IsAlign c t.align ∧ v.byteCap + b ≤ t.byteCap ∧ (0 < b → v.byteCap ≤ d) ∧
          (v.align < a → 0 < v.byteCap → 1 < v.len → v.byteCap + raising c v a ≤ d ∧ (realignUpOffsets c v.align a v.elems 0).isSome)) ∧ d ≤ blockMoved c v t a))
      (fun d => d ≤ if v.align < a then v.byteCap + raising c v a else 0) := by
  unfold tryReserveAdditionalBytesAlign
  refine .look_bind (.orUb_bind fun oldLen _ => .ite (fun hlt => ?_) (fun hn => .ite (fun h0 => ?_) (fun h0 => ?_)))
  · have hm : max v.align a = a := by omega
    have hlt' : v.align < a := by omega
    have hra : v.len ≤ raising c v a := by unfold raising; omega
    rw [hm]
    refine .debugAssert_bind (by rw [if_pos hlt']; omega) (.count_bind (.orUb_bind fun o ho => ?_))
    cases o with
    | none => exact .pure ⟨fun _ _ => ⟨rfl, by unfold attempt; rw [if_pos hlt']; omega⟩, nofun⟩
    | some l =>
      refine .orUb_bind fun k hk => (reserveCommit_meters env b a k v (by omega)).mono ?_ ?_
      · rintro r t d ⟨h1, h2⟩
        refine ⟨fun e he => ⟨(h1 e he).1, by rw [(h1 e he).2]; unfold attempt; rw [if_pos hlt']; omega⟩, fun hr => ?_⟩
        obtain ⟨e1, e2, e3, e4⟩ := h2 hr
        rw [if_pos hlt'] at e4
        exact ⟨e1, e2, fun hv hi => ⟨(e3 hv hi).1, (e3 hv hi).2.1, fun h => by have := (e3 hv hi).2.2.1 h; omega, (e3 hv hi).2.2.2⟩, e4⟩
      · intro d hd
        rw [if_pos hlt', if_pos hlt'] at hd
        rw [if_pos hlt']; exact hd
  · refine .pure ⟨nofun, fun _ => ⟨rfl, rfl, fun hv _ => ⟨hv, by omega, fun h => by omega, fun h => by omega⟩, Nat.zero_le _⟩⟩
  · have hm : max v.align a = v.align := by omega
    have hle : ¬ v.align < a := by omega
    rw [hm]
    refine .orUb_bind fun k hk => (reserveCommit_meters env b v.align k v (Nat.le_refl _)).mono ?_ ?_
    · rintro r t d ⟨h1, h2⟩
      refine ⟨fun e he => ⟨(h1 e he).1, by rw [(h1 e he).2]; omega⟩, fun hr => ?_⟩
      obtain ⟨e1, e2, e3, e4⟩ := h2 hr
      refine ⟨e1, e2, fun hv _ => ⟨(e3 hv hv).1, (e3 hv hv).2.1, (e3 hv hv).2.2.1, fun h => absurd h hle⟩, ?_⟩
      unfold blockMoved at e4 ⊢
      rw [if_neg (Nat.lt_irrefl _), if_neg (Nat.lt_irrefl _)] at e4
      rw [if_neg hle]; omega
    · intro d hd
      rw [if_neg (Nat.lt_irrefl _), if_neg (Nat.lt_irrefl _)] at hd
      rw [if_neg hle]; omega

end UVec.Metered
end Verif
