import Verif.Proofs.CostSSeq
import Verif.Proofs.UEmplace

/-!
# What the calls cost: `insert_with`
-/

namespace Verif

section
variable {V : Type} {T : UTy} {β : Type}

theorem onRight_insertWith_meters {M : Machine (V × Nat) T β} (hM : ∀ x s, (M.note x s).2 = s.2) {env : Env (Val T β)} {x : Val T β} {i : Nat} {v : V}
    {P : V → Nat → Prop} {R : Nat → Prop} (hR : R 0)
    (h : (∃ n, i ≤ M.P.len (v, n)) → (M.P.insertWithUnchecked env i ⟨x.size, x.align⟩ x.md).Meters v (fun p t d => ∃ s cm rb, p = .place s cm rb ∧
      (s x.bytes >>= fun _ => cm).Meters t (fun _ u k => P u (d + k)) (fun k => R (d + k))) R) :
    (onRight M (Api.insertWithRun M.P env i (Src.code env (.value x)))).Meters v (fun _ u d => P u d) R := by
  intro n
  by_cases hi : i ≤ M.P.len (v, n)
  · have e : Api.insertWithRun M.P env i (Src.code env (.value x)) ([], (v, n)) =
        run (Src.code env (.value x)) (M.P.insertWithUnchecked env i) ([], (v, n)) := by
      unfold Api.insertWithRun
      rw [Exec.get_bind]
      refine Exec.bind_ok (a := ()) (s' := ([], (v, n))) ?_
      unfold Exec.onUnwind
      rw [Exec.assert_pos hi]
    have := onRight_value_meters (M := M) (env := env) (h ⟨n, hi⟩) n
    revert this
    unfold onRight
    rw [e]
    exact id
  · have e : Api.insertWithRun M.P env i (Src.code env (.value x)) ([], (v, n)) = .abort ∨
        Api.insertWithRun M.P env i (Src.code env (.value x)) ([], (v, n)) = .panic ([x], (v, n)) := by
      obtain ⟨d, hd, h1⟩ : ∃ d : Exec (List (Val T β)) Unit,
          (d [] = if env.dropPanics x then .panic ([] ++ [x]) else .ok () ([] ++ [x])) ∧
            Source.drop ((Src.value x).code env) [] = (d >>= fun _ => pure ()) [] := ⟨_, rfl, rfl⟩
      have ha : (Exec.assert (i ≤ M.P.len (v, n)) : Exec (List (Val T β) × V × Nat) Unit) ([], (v, n)) = .panic ([], (v, n)) := if_neg hi
      unfold Api.insertWithRun
      rw [Exec.get_bind]
      by_cases hp : env.dropPanics x = true
      · rw [if_pos hp] at hd
        have e2 : Source.drop ((Src.value x).code env) [] = .panic [x] := h1.trans (Exec.bind_panic hd)
        refine .inl (Exec.bind_abort ?_)
        unfold Exec.onUnwind
        rw [ha]
        dsimp only
        rw [liftL_panic e2]
      · rw [if_neg hp] at hd
        have e2 : Source.drop ((Src.value x).code env) [] = .ok () [x] := h1.trans (Exec.bind_ok hd)
        refine .inr (Exec.bind_panic ?_)
        unfold Exec.onUnwind
        rw [ha]
        dsimp only
        rw [liftL_ok e2]
    unfold onRight
    rcases e with e | e <;> rw [e]
    · trivial
    · exact ⟨0, by simp [hM], hR⟩

end

/-! ## Sized elements -/

namespace SVec.Metered
variable {sz al : Nat} {β : Type} [Inhabited β] {c : Cfg}

omit [Inhabited β] in
theorem insertWithUnchecked_meters (env : Env (Val (sizedTy sz al) β)) (i : Nat) (x : Val (sizedTy sz al) β) (v : SVec sz al β) :
    (insertWithUnchecked c env i ⟨x.size, x.align⟩ x.md).Meters v
      (fun p t d => ∃ s cm rb, p = .place s cm rb ∧ (s x.bytes >>= fun _ => cm).Meters t
        (fun _ u k => d + k = blockMoved v u + ((v.len - i) * sz + x.bytes.length))
        (fun k => d + k ≤ v.slots * sz + ((v.len - i) * sz + x.bytes.length)))
      (fun d => d ≤ v.slots * sz + ((v.len - i) * sz + x.bytes.length)) := by
  unfold insertWithUnchecked
  refine .bind ((tryReserve_meters env 1 v).mono ?_ fun _ h => h.elim)
  rintro r u d ⟨h1, h2⟩
  refine .bind (.unwrap (fun hr => ?_) (fun hr => ?_))
  · obtain ⟨hw, rfl⟩ := h2 hr
    refine .look_bind (.require_bind fun _ => .orUb_bind fun n hn => .require_bind fun _ => .bind (memmove_meters _ _ _ _ fun _ => .pure ⟨_, _, _, rfl, ?_⟩))
    refine .bind (.require_bind fun _ => memwrite_meters _ _ _ fun _ => .look_bind (.orUb_bind fun _ _ => setLen_meters _ _ ?_))
    unfold Verif.uncheckedSub at hn
    split at hn <;> cases hn
    rw [hw.1]
    show blockMoved v u + (0 + ((v.len - i) * sz + 0)) + (_ + 0) = blockMoved v u + _
    omega
  · obtain ⟨_, rfl⟩ := h1 _ hr
    omega

omit [Inhabited β] in
theorem insertWith_meters (env : Env (Val (sizedTy sz al) β)) (i : Nat) (x : Val (sizedTy sz al) β) (v : SVec sz al β) :
    ((Op.insertWith i (.value x)).exec c (sizedMetered c sz al) env).Meters v
      (fun _ t d => d = blockMoved v t + ((v.len - i) * sz + x.bytes.length))
      (fun d => d ≤ v.slots * sz + ((v.len - i) * sz + x.bytes.length)) :=
  .bind ((onRight_insertWith_meters (fun _ _ => rfl) (Nat.zero_le _) (P := fun u k => k = blockMoved v u + ((v.len - i) * sz + x.bytes.length))
    (R := fun k => k ≤ v.slots * sz + ((v.len - i) * sz + x.bytes.length)) fun _ => insertWithUnchecked_meters env i x v).mono (fun _ _ _ h => .pure h) fun _ h => h)

end SVec.Metered

/-! ## Statically aligned unsized elements -/

namespace AVec.Metered
variable {A : ATy} {β : Type} [Inhabited β] {c : Cfg}

theorem insertWithUnchecked_meters (env : Env (Val A.ty β)) {v : AVec A β} {xs : List (Val A.ty β)} (h : v.Holds c xs) {i : Nat} (hi : i ≤ xs.length)
    (x : Val A.ty β) :
    (insertWithUnchecked c env i ⟨x.size, x.align⟩ x.md).Meters v
      (fun p t d => ∃ s cm rb, p = .place s cm rb ∧ (s x.bytes >>= fun _ => cm).Meters t
        (fun _ _ k => (0 < x.size → v.byteCap + totalWidth id (xs.drop i) ≤ d + k) ∧
          d + k ≤ v.elemsCap + v.byteCap + (totalWidth id (xs.drop i) + x.bytes.length + 2 * (xs.length - i) + 1))
        (fun k => d + k ≤ v.elemsCap + v.byteCap + (totalWidth id (xs.drop i) + x.bytes.length + 2 * (xs.length - i) + 1)))
      (fun d => d ≤ v.elemsCap + v.byteCap + (totalWidth id (xs.drop i) + x.bytes.length + 2 * (xs.length - i) + 1)) := by
  unfold insertWithUnchecked reserveForEmplace
  refine .orUb_bind fun n hn => .bind (.bind ((tryReserve_meters env 1 v).mono ?_ fun _ h => h.elim))
  rintro r u d1 ⟨h1, h2⟩
  match r with
  | .error e =>
    obtain ⟨rfl, rfl⟩ := h1 e rfl
    cases e
    · exact .panic (by omega)
    · exact .abort
  | .ok () =>
    obtain ⟨cap, hcap, rfl, rfl⟩ := h2 rfl
    have hrm : recordsMoved v { v with elemsCap := cap } ≤ v.elemsCap := by unfold recordsMoved; split <;> omega
    refine .bind ((tryReserveAdditionalBytes_meters env x.size _).mono ?_ fun _ h => h.elim)
    rintro r t d2 ⟨h3, h4⟩
    refine .unwrap (fun hr => ?_) (fun hr => ?_)
    · obtain ⟨e1, e2, _, e3, e4⟩ := h4 hr
      have e1 : t.elems = v.elems := e1
      have e3 : 0 < x.size → v.byteCap ≤ d2 := e3
      have e4 : d2 ≤ v.byteCap := by
        refine Nat.le_trans e4 ?_
        show (if t.byteCap = v.byteCap then 0 else v.byteCap) ≤ _
        split <;> omega
      have hlen : v.elems.length = xs.length := by rw [h.infos, infosFrom_length]
      refine .look_bind (.orUb_bind fun start hs => .require_bind fun _ => .orUb_bind fun q hq => .require_bind fun _ =>
        .bind (memmove_meters _ _ _ _ _ fun _ => .pure ⟨_, _, _, rfl, ?_⟩))
      have hs : v.startOffset i = some start := by unfold startOffset at hs ⊢; rw [← e1]; exact hs
      rw [startOffset_eq h i hi] at hs
      cases hs
      have hbl : t.byteLen = v.byteLen := by unfold byteLen; rw [e1]
      have hq : q = totalWidth id (xs.drop i) := by
        rw [(vsSub_inv hq).1, hbl, byteLen_eq h]
        have := totalWidth_take_drop id xs i
        omega
      subst hq
      refine .bind (.require_bind fun _ => memwrite_meters _ _ _ _ fun _ => .bind (adjustFrom_meters _ _ _ fun es he hie => .orUb_bind fun _ _ =>
        infoInsert_meters _ _ _ fun _ => ?_))
      have e5 := bumpInfos_length he
      simp only [AVec.len, List.length_append, List.length_take, List.length_drop, e1, hlen] at e5 ⊢
      refine ⟨fun h0 => ?_, ?_⟩
      · have := e3 h0; omega
      · omega
    · have e5 : d2 = 0 := (h3 _ hr).2
      omega

theorem insertWith_meters (env : Env (Val A.ty β)) {v : AVec A β} {xs : List (Val A.ty β)} (h : v.Holds c xs) (i : Nat) (x : Val A.ty β) :
    ((Op.insertWith i (.value x)).exec c (alignedMetered c A) env).Meters v
      (fun _ _ d => (0 < x.size → v.byteCap + totalWidth id (xs.drop i) ≤ d) ∧
        d ≤ v.elemsCap + v.byteCap + (totalWidth id (xs.drop i) + x.bytes.length + 2 * (xs.length - i) + 1))
      (fun d => d ≤ v.elemsCap + v.byteCap + (totalWidth id (xs.drop i) + x.bytes.length + 2 * (xs.length - i) + 1)) := by
  refine .bind ((onRight_insertWith_meters (fun _ _ => rfl) (Nat.zero_le _) (P := fun _ d => (0 < x.size → v.byteCap + totalWidth id (xs.drop i) ≤ d) ∧
        d ≤ v.elemsCap + v.byteCap + (totalWidth id (xs.drop i) + x.bytes.length + 2 * (xs.length - i) + 1))
    (R := fun d => d ≤ v.elemsCap + v.byteCap + (totalWidth id (xs.drop i) + x.bytes.length + 2 * (xs.length - i) + 1)) ?_).mono
    (fun _ _ _ h => .pure h) fun _ h => h)
  rintro ⟨_, hi⟩
  have hl : v.len = xs.length := by unfold AVec.len; rw [h.infos, infosFrom_length]
  have hi : i ≤ v.len := hi
  exact insertWithUnchecked_meters env h (by omega) x

end AVec.Metered

/-! ## Dynamically aligned elements -/

namespace UVec.Metered
variable {T : UTy} {β : Type} [Inhabited β] {c : Cfg} {G : Prop}

/-- Reserving for an emplacement leaves the elements alone (no condition on values without bytes, unlike `reserveForEmplace_meets`). -/
theorem reserveForEmplace_keeps {v t : UVec T β} {xs : List (Val T β)} (h : v.Represents G c xs) {env : Env (Val T β)} (hv : env.Valid) (he : G → env.Exact)
    {n al : Nat} (hal : IsAlign c al) (hr : UVec.reserveForEmplace c env ⟨n, al⟩ v = .ok () t) : t.Represents G c xs ∧ t.align ≤ max v.align al := by
  unfold UVec.reserveForEmplace at hr
  rcases UVec.tryReserve_spec h env 1 with ⟨cap, h1, h2, h3, _⟩ | ⟨e, h1, h2, _⟩
  · rw [Exec.bind_ok h1] at hr
    dsimp only at hr
    have h' := h.withElemsCap (n := cap) (by omega)
    rcases UVec.tryReserveAdditionalBytesAlign_spec h' hv he hal n with ⟨v', h4, h5, _⟩ | ⟨e, h4, h5, _⟩
    · rw [Exec.bind_ok h4] at hr
      cases hr
      refine ⟨h5.holds, ?_⟩
      rcases h5.align with h6 | ⟨_, h6⟩
      · exact Nat.le_of_eq h6
      · rw [h6]; exact Nat.le_max_left _ _
    · rw [Exec.bind_ok h4] at hr
      cases e <;> cases hr
  · rw [Exec.bind_ok h1] at hr
    cases e <;> cases hr

theorem reserveForEmplace_meters (env : Env (Val T β)) (n a : Nat) (ha : IsAlign c a) (v : UVec T β) (hv : IsAlign c v.align) :
    (reserveForEmplace c env ⟨n, a⟩).Meters v
      (fun _ t d => t.len = v.len ∧ (0 < n → v.byteCap ≤ d) ∧ d ≤ v.elemsCap + v.byteCap + (if v.align < a then raising c v a else 0))
      (fun d => d ≤ v.elemsCap + v.byteCap + (if v.align < a then raising c v a else 0)) := by
  unfold reserveForEmplace
  refine .bind ((tryReserve_meters env 1 v).mono ?_ fun _ h => h.elim)
  rintro r u d1 ⟨h1, h2⟩
  match r with
  | .error e =>
    obtain ⟨rfl, rfl⟩ := h1 e rfl
    cases e
    · exact .panic (by omega)
    · exact .abort
  | .ok () =>
    obtain ⟨cap, hcap, rfl, rfl⟩ := h2 rfl
    have hrm : recordsMoved v { v with elemsCap := cap } ≤ v.elemsCap := by unfold recordsMoved; split <;> omega
    refine .bind ((tryReserveAdditionalBytesAlign_meters env n a _).mono ?_ ?_)
    · rintro r t d2 ⟨h3, h4⟩
      have hatt : attempt v a ≤ if v.align < a then raising c v a else 0 := by
        unfold attempt raising; split <;> omega
      refine .unwrap (fun hr => ?_) (fun hr => ?_)
      · obtain ⟨e1, e2, e3, e4⟩ := h4 hr
        obtain ⟨_, _, e3, _⟩ : IsAlign c t.align ∧ v.byteCap + n ≤ t.byteCap ∧ (0 < n → v.byteCap ≤ d2) ∧ _ := e3 hv ha
        have e4 : d2 ≤ v.byteCap + (if v.align < a then raising c v a else 0) := by
          refine Nat.le_trans e4 ?_
          show (if v.align < a then v.byteCap + raising c v a else if t.byteCap = v.byteCap then 0 else v.byteCap) ≤ _
          split
          · omega
          · split <;> omega
        exact ⟨e1, fun h0 => by have := e3 h0; omega, by omega⟩
      · have e5 : d2 ≤ attempt v a := (h3 _ hr).2
        omega
    · intro d2 hd
      have hd : d2 ≤ if v.align < a then v.byteCap + raising c v a else 0 := hd
      by_cases hlt : v.align < a
      · rw [if_pos hlt] at hd ⊢; omega
      · rw [if_neg hlt] at hd ⊢; omega

theorem insertWithUnchecked_meters {v : UVec T β} {xs : List (Val T β)} (h : v.Represents G c xs) {env : Env (Val T β)} (he : env.Valid ∧ (G → env.Exact))
    {x : Val T β} (hx : IsAlign c x.align) {i : Nat} (hi : i ≤ xs.length) :
    (insertWithUnchecked c env i ⟨x.size, x.align⟩ x.md).Meters v
      (fun p t d => ∃ s cm rb, p = .place s cm rb ∧ (s x.bytes >>= fun _ => cm).Meters t
        (fun _ _ k => (0 < x.size → v.byteCap ≤ d + k) ∧
          d + k ≤ v.elemsCap + v.byteCap + (if v.align < x.align then raising c v x.align else 0) +
            (totalWidth (padTo (max v.align x.align)) (xs.drop i) + x.bytes.length + 2 * (xs.length - i) + 1))
        (fun k => d + k ≤ v.elemsCap + v.byteCap + (if v.align < x.align then raising c v x.align else 0) +
            (totalWidth (padTo (max v.align x.align)) (xs.drop i) + x.bytes.length + 2 * (xs.length - i) + 1)))
      (fun d => d ≤ v.elemsCap + v.byteCap + (if v.align < x.align then raising c v x.align else 0) +
            (totalWidth (padTo (max v.align x.align)) (xs.drop i) + x.bytes.length + 2 * (xs.length - i) + 1)) := by
  unfold insertWithUnchecked
  refine .orUb_bind fun n hn => .bind (((reserveForEmplace_meters env x.size x.align hx v h.al).over (reserveForEmplace_over env _)).mono ?_ fun _ h => by omega)
  rintro _ t d ⟨⟨h1, h2, h3⟩, h4⟩
  obtain ⟨ht, hta⟩ := reserveForEmplace_keeps h he.1 he.2 hx h4
  have hlen : t.elems.length = xs.length := by rw [ht.infos, infosFrom_length]
  have hm : IsAlign c (max v.align x.align) := by
    rcases Nat.le_total v.align x.align with hle | hle
    · rw [Nat.max_eq_right hle]; exact hx
    · rw [Nat.max_eq_left hle]; exact h.al
  have hmono := totalWidth_mono_align ht.al.pos hm.pos (ht.al.dvd_of_le hm hta) (xs.drop i)
  refine .look_bind (.orUb_bind fun pad _ => .orUb_bind fun start hs => .require_bind fun _ => .orUb_bind fun q hq => .require_bind fun _ =>
    .bind (memmove_meters _ _ _ _ _ fun _ => .pure ⟨_, _, _, rfl, ?_⟩))
  rw [UVec.startOffset_eq ht i hi] at hs
  cases hs
  have hq : q ≤ totalWidth (padTo t.align) (xs.drop i) := by
    rw [(vsuSub_inv hq).1]
    have := UVec.unalignedByteLen_le ht
    have := totalWidth_take_drop (padTo t.align) xs i
    omega
  refine .bind (.require_bind fun _ => memwrite_meters _ _ _ _ fun _ => .bind (adjustFrom_meters _ _ _ fun es he hie => .orUb_bind fun _ _ =>
    infoInsert_meters _ _ _ fun _ => ?_))
  have e5 := bumpInfos_length he
  simp only [UVec.len, List.length_append, List.length_take, List.length_drop, hlen] at e5 ⊢
  refine ⟨fun h0 => ?_, ?_⟩
  · have := h2 h0; omega
  · omega

theorem insertWith_meters {v : UVec T β} {xs : List (Val T β)} (h : v.Represents G c xs) {env : Env (Val T β)} (he : env.Valid ∧ (G → env.Exact))
    {x : Val T β} (hx : IsAlign c x.align) (i : Nat) :
    ((Op.insertWith i (.value x)).exec c (unalignedMetered c T) env).Meters v
      (fun _ _ d => (0 < x.size → v.byteCap ≤ d) ∧
        d ≤ v.elemsCap + v.byteCap + (if v.align < x.align then raising c v x.align else 0) +
          (totalWidth (padTo (max v.align x.align)) (xs.drop i) + x.bytes.length + 2 * (xs.length - i) + 1))
      (fun d => d ≤ v.elemsCap + v.byteCap + (if v.align < x.align then raising c v x.align else 0) +
          (totalWidth (padTo (max v.align x.align)) (xs.drop i) + x.bytes.length + 2 * (xs.length - i) + 1)) := by
  refine .bind ((onRight_insertWith_meters (fun _ _ => rfl) (Nat.zero_le _) (P := fun _ d => (0 < x.size → v.byteCap ≤ d) ∧
        d ≤ v.elemsCap + v.byteCap + (if v.align < x.align then raising c v x.align else 0) +
          (totalWidth (padTo (max v.align x.align)) (xs.drop i) + x.bytes.length + 2 * (xs.length - i) + 1))
    (R := fun d => d ≤ v.elemsCap + v.byteCap + (if v.align < x.align then raising c v x.align else 0) +
          (totalWidth (padTo (max v.align x.align)) (xs.drop i) + x.bytes.length + 2 * (xs.length - i) + 1)) ?_).mono
    (fun _ _ _ h => .pure h) fun _ h => h)
  rintro ⟨_, hi⟩
  have hl : v.len = xs.length := by unfold UVec.len; rw [h.infos, infosFrom_length]
  have hi : i ≤ v.len := hi
  exact insertWithUnchecked_meters h he hx (by omega)

end UVec.Metered
end Verif
