import Verif.Spec.Owned
import Verif.Proofs.Collect
import Verif.Proofs.Sources
import Verif.Props.Emplacable

/-!
# Owned containers made of emplacables: lemmas
-/

namespace Verif
variable {σ : Type} {T : UTy} {β : Type} {c : Cfg}

/-! ## `get` -/

theorem getVal_meets {sz al : Nat} {e : Emplacable σ (sizedTy sz al) β} {s : σ} (hs : e.Sound c s) :
    (Sink.getVal e s).Meets (fun x s' => x.WF c ∧ e.Runs s x (.ok () s')) (fun s' => e.Breaks s s') (e.Aborts s) := by
  have h := run_meets (m := Sink.getting ⟨sz, al⟩) (t := []) (Before := fun _ => True) (After := fun x bs => bs = x.bytes)
    (P := fun _ _ => False) (A := fun _ => False) hs trivial (by
      intro st s1 _
      refine ⟨_, _, _, rfl, fun bs hb => ?_, fun bs hb => ?_⟩
      · exact ⟨bs, bs, Exec.require_bind (p := bs.length ≤ sz) hb _ _, rfl, trivial⟩
      · exact ⟨bs, bs, Exec.require_bind (p := bs.length ≤ sz) (Nat.le_of_eq hb) _ _, rfl, rfl⟩)
  unfold Sink.getVal
  cases hr : run e (Sink.getting ⟨sz, al⟩) (s, []) with
  | ub => rw [hr] at h; exact h.elim
  | abort =>
    rw [hr] at h
    rcases h with ⟨_, _, _, h⟩ | h
    · exact h.elim
    · exact h
  | panic st =>
    rw [hr] at h
    rcases h with ⟨_, _, h⟩ | h | ⟨x, _, h, _⟩
    · exact h.elim
    · exact .inl h.1
    · exact .inr ⟨x, h⟩
  | ok u st =>
    rw [hr] at h
    obtain ⟨x, hx, h1, h2⟩ := h
    have h3 : st.2.length = sz := by rw [h2]; exact hx.bytes_len
    dsimp only
    rw [if_pos h3, h2]
    exact ⟨hx, h1⟩

/-! ## `Vec::extend` -/

namespace SVec
variable {sz al : Nat} [Inhabited β] {v : SVec sz al β} {ys : List (Val (sizedTy sz al) β)}

theorem reserve_meets (h : v.Holds c ys) (env : Env (Val (sizedTy sz al) β)) (n : Nat) :
    ((do let r ← tryReserve c env n; unwrapReserve r : Exec (SVec sz al β) Unit) v).Meets
      (fun _ v' => Grown c v v' ys n)
      (fun v' => v' = v ∧ Fails c sz env ys.length n .capacityOverflow ∧ v.capacity c < ys.length + n)
      (Fails c sz env ys.length n .allocError ∧ v.capacity c < ys.length + n) := by
  rcases tryReserve_cases h env n with ⟨v', h1, hg⟩ | ⟨e, h1, hf, hlt⟩
  · rw [Exec.bind_ok h1]; exact hg
  · rw [Exec.bind_ok h1]
    cases e
    · exact ⟨rfl, hf, hlt⟩
    · exact ⟨hf, hlt⟩

theorem vecPush_meets (h : v.Holds c ys) (env : Env (Val (sizedTy sz al) β)) {x : Val (sizedTy sz al) β} (hx : x.WF c) :
    (vecPush c env x v).Meets
      (fun _ v' => v'.Holds c (ys ++ [x]) ∧ v'.drops = v.drops ∧ v.capacity c ≤ v'.capacity c)
      (fun v' => v'.Holds c ys ∧ v'.drops = v.drops ++ [x] ∧ v.capacity c < ys.length + 1 ∧
        Fails c sz env ys.length 1 .capacityOverflow)
      (v.capacity c < ys.length + 1 ∧ (Fails c sz env ys.length 1 .allocError ∨
        (Fails c sz env ys.length 1 .capacityOverflow ∧ env.dropPanics x = true))) := by
  unfold vecPush
  refine Res.Meets.bind (Q := fun _ v' => Grown c v v' ys 1) ?_ ?_
  · have hr := reserve_meets h env 1
    unfold Exec.onUnwind
    generalize (do let r ← tryReserve c env 1; unwrapReserve r : Exec (SVec sz al β) Unit) v = r at hr ⊢
    cases r with
    | ub => exact hr.elim
    | abort => exact ⟨hr.2, .inl hr.1⟩
    | ok u v' => exact hr
    | panic v' =>
      obtain ⟨rfl, h1, h2⟩ := hr
      dsimp only
      unfold dropArg
      rw [Exec.modify_bind]
      by_cases hp : env.dropPanics x = true
      · rw [if_pos hp]
        exact ⟨h2, .inr ⟨h1, hp⟩⟩
      · rw [if_neg hp]
        exact ⟨h.withDrops _, rfl, h2, h1⟩
  · intro _ v1 hg
    have hH := hg.holds
    have hroom := hg.room
    have hlen := hH.len
    have hb : x.bytes.length = sz := hx.bytes_len
    rw [Exec.get_bind, Exec.bind_ok (memwrite_eq (by omega) (by omega)), setLen_eq (by show _ ≤ v1.capacity c; omega)]
    refine ⟨?_, hg.drops, hg.mono⟩
    have h1 := inserted_holds hH hx (Nat.le_refl ys.length) (by omega)
    rw [List.take_length, List.drop_length] at h1
    refine h1.congr rfl rfl ?_ ?_
    · intro i hi
      have hi' : i ≤ ys.length := by simp at hi; omega
      unfold inserted
      dsimp only
      rw [overwrite hb (hH.slotLen _)]
      by_cases h2 : i < ys.length
      · rw [if_pos h2, if_neg (by omega)]
      · rw [if_neg h2, if_pos (by omega), if_pos (by omega)]
    · intro i
      show (if i = v1.len then _ else v1.mem i).length ≤ sz
      split
      · exact scribble_len (by omega) (hH.slotLen _)
      · exact hH.slotLen _

theorem pushGot_meets : ∀ {items : List (Env (Val (sizedTy sz al) β) × Emplacable σ (sizedTy sz al) β)} {s : σ} {v : SVec sz al β}
    {ys : List (Val (sizedTy sz al) β)} {hint : Nat}, v.Holds c ys → AllSound c (ofEmplacables items) s →
    ys.length + hint ≤ v.capacity c →
    (pushGot c items (s, v)).Meets
      (fun _ st => ∃ xs, Yielded (ofEmplacables items) s xs st.1 ∧ st.2.Holds c (ys ++ xs) ∧ st.2.drops = v.drops)
      (fun st => ∃ zs ds, GotStops c hint items s ys zs ds st.1 ∧ st.2.Holds c zs ∧ st.2.drops = v.drops ++ ds)
      (GotEnds c hint items s ys)
  | [], s, v, ys, hint, h, _, _ => ⟨[], .nil _, by simpa using h, rfl⟩
  | (env, e) :: rest, s, v, ys, hint, h, hs, hc => by
    have h1 := getVal_meets hs.1
    show ((liftL (Sink.getVal e) >>= fun x => (liftR (vecPush c env x) >>= fun _ => pushGot c rest) : Exec (σ × SVec sz al β) Unit)
      (s, v)).Meets _ _ _
    cases hr : Sink.getVal e s with
    | ub => rw [hr] at h1; exact h1.elim
    | abort =>
      rw [hr] at h1; rw [Exec.bind_abort (liftL_abort hr)]
      exact ⟨0, env, e, [], s, rfl, .nil _, .inl h1⟩
    | panic s1 =>
      rw [hr] at h1; rw [Exec.bind_panic (liftL_panic hr)]
      exact ⟨ys, [], ⟨0, env, e, [], s, rfl, .nil _, by simp, .inl ⟨rfl, h1⟩⟩, h, by simp⟩
    | ok x s1 =>
      rw [hr] at h1; rw [Exec.bind_ok (liftL_ok hr)]
      obtain ⟨hx, h2⟩ := h1
      have h3 := vecPush_meets h env hx
      cases hp : vecPush c env x v with
      | ub => rw [hp] at h3; exact h3.elim
      | abort =>
        rw [hp] at h3; rw [Exec.bind_abort (liftR_abort hp)]
        obtain ⟨h3, h4⟩ := h3
        exact ⟨0, env, e, [], s, rfl, .nil _, .inr ⟨x, s1, h2, by omega, by simpa using h4⟩⟩
      | panic v1 =>
        rw [hp] at h3; rw [Exec.bind_panic (liftR_panic hp)]
        obtain ⟨h4, h5, h6, h7⟩ := h3
        exact ⟨ys, [x], ⟨0, env, e, [], s, rfl, .nil _, by simp, .inr ⟨x, rfl, h2, by omega, by simpa using h7⟩⟩, h4, h5⟩
      | ok u v1 =>
        rw [hp] at h3; rw [Exec.bind_ok (liftR_ok hp)]
        obtain ⟨h4, h5, h6⟩ := h3
        have hl : (ys ++ [x]).length = ys.length + 1 := by simp
        have hc' : (ys ++ [x]).length + (hint - 1) ≤ v1.capacity c := by
          have := h4.cap
          omega
        refine (pushGot_meets (hint := hint - 1) h4 (hs.2 x s1 h2) hc').mono ?_ ?_ ?_
        · rintro _ st ⟨xs, h7, h8, h9⟩
          exact ⟨x :: xs, .cons h2 h7, by simpa using h8, h9.trans h5⟩
        · rintro st ⟨zs, ds, ⟨k, env', e', xs, s2, h7, h8, h9, h10⟩, h11, h12⟩
          refine ⟨zs, ds, ⟨k + 1, env', e', x :: xs, s2, by simpa using h7, .cons h2 h8, by simpa using h9, ?_⟩, h11, by rw [h12, h5]⟩
          rcases h10 with h10 | ⟨y, h10, h13, h14, h15⟩
          · exact .inl h10
          · refine .inr ⟨y, h10, h13, by omega, ?_⟩
            rw [hl] at h15
            rwa [show ys.length + (k + 1) = ys.length + 1 + k by omega]
        · rintro ⟨k, env', e', xs, s2, h7, h8, h9⟩
          refine ⟨k + 1, env', e', x :: xs, s2, by simpa using h7, .cons h2 h8, ?_⟩
          rcases h9 with h9 | ⟨y, s3, h9, h10, h11⟩
          · exact .inl h9
          · refine .inr ⟨y, s3, h9, by omega, ?_⟩
            rw [hl] at h11
            rwa [show ys.length + (k + 1) = ys.length + 1 + k by omega]

theorem vecExtend_meets {env : Env (Val (sizedTy sz al) β)} {hint : Nat}
    {items : List (Env (Val (sizedTy sz al) β) × Emplacable σ (sizedTy sz al) β)} {dropIter : Exec σ Unit} {s : σ} (h : v.Holds c ys)
    (hs : AllSound c (ofEmplacables items) s) (hd : ∀ s, dropIter s ≠ .ub) :
    VecExtended c env hint items dropIter s v ys (vecExtend c env hint items dropIter (s, v)) := by
  have hbody : ((do
      liftR (do let r ← tryReserve c env hint; unwrapReserve r)
      pushGot c items : Exec (σ × SVec sz al β) Unit) (s, v)).Meets
      (fun _ st => ∃ xs, Yielded (ofEmplacables items) s xs st.1 ∧ st.2.Holds c (ys ++ xs) ∧ st.2.drops = v.drops)
      (fun st => ∃ zs ds, VecStops c env hint items s ys zs ds st.1 ∧ st.2.Holds c zs ∧ st.2.drops = v.drops ++ ds)
      (VecEnds c env hint items s ys) := by
    have hr := reserve_meets h env hint
    cases hm : (do let r ← tryReserve c env hint; unwrapReserve r : Exec (SVec sz al β) Unit) v with
    | ub => rw [hm] at hr; exact hr.elim
    | abort => rw [hm] at hr; rw [Exec.bind_abort (liftR_abort hm)]; exact .inl hr.1
    | panic v1 =>
      rw [hm] at hr; rw [Exec.bind_panic (liftR_panic hm)]
      obtain ⟨rfl, h1, _⟩ := hr
      exact ⟨ys, [], .inl ⟨h1, rfl, rfl, rfl⟩, h, by simp⟩
    | ok u v1 =>
      rw [hm] at hr; rw [Exec.bind_ok (liftR_ok hm)]
      refine (pushGot_meets hr.holds hs hr.room).mono ?_ ?_ ?_
      · rintro _ st ⟨xs, h4, h5, h6⟩; exact ⟨xs, h4, h5, h6.trans hr.drops⟩
      · rintro st ⟨zs, ds, h4, h5, h6⟩; exact ⟨zs, ds, .inr h4, h5, by rw [h6, hr.drops]⟩
      · exact fun h => .inr h
  unfold vecExtend VecExtended
  refine Res.Meets.bind (Q := fun _ st => ∃ xs, Yielded (ofEmplacables items) s xs st.1 ∧ st.2.Holds c (ys ++ xs) ∧ st.2.drops = v.drops) ?_ ?_
  · unfold Exec.onUnwind
    generalize (do
      liftR (do let r ← tryReserve c env hint; unwrapReserve r)
      pushGot c items : Exec (σ × SVec sz al β) Unit) (s, v) = r at hbody ⊢
    cases r with
    | ub => exact hbody.elim
    | abort => exact .inl hbody
    | ok u st => exact hbody
    | panic st =>
      obtain ⟨s1, v1⟩ := st
      obtain ⟨zs, ds, h1, h2, h3⟩ := hbody
      dsimp only
      cases hx : dropIter s1 with
      | ub => exact absurd hx (hd _)
      | abort => rw [liftL_abort hx]; exact .inr (.inl ⟨zs, ds, _, h1, .inl hx⟩)
      | panic s2 => rw [liftL_panic hx]; exact .inr (.inl ⟨zs, ds, _, h1, .inr ⟨_, hx⟩⟩)
      | ok u s2 => rw [liftL_ok hx]; exact .inl ⟨zs, ds, _, h1, hx, h2, h3⟩
  · rintro _ ⟨s1, v1⟩ ⟨xs, h1, h2, h3⟩
    cases hx : dropIter s1 with
    | ub => exact absurd hx (hd _)
    | abort => rw [liftL_abort hx]; exact .inr (.inr ⟨xs, s1, h1, hx⟩)
    | panic s2 => rw [liftL_panic hx]; exact .inr ⟨xs, s1, h1, hx, h2, h3⟩
    | ok u s2 => rw [liftL_ok hx]; exact ⟨xs, s1, h1, hx, h2, h3⟩

theorem vecFromIter_meets {env envD : Env (Val (sizedTy sz al) β)} {hint : Nat}
    {items : List (Env (Val (sizedTy sz al) β) × Emplacable σ (sizedTy sz al) β)} {dropIter : Exec σ Unit} {s : σ}
    (hs : AllSound c (ofEmplacables items) s) (hd : ∀ s, dropIter s ≠ .ub) :
    VecCollected c env envD hint items dropIter s (vecFromIter c env envD hint items dropIter s) := by
  have h := vecExtend_meets (env := env) (hint := hint) (new_holds (c := c) (sz := sz) (al := al) (β := β)) hs hd
  unfold VecExtended at h
  unfold vecFromIter VecCollected Exec.onUnwind
  generalize vecExtend c env hint items dropIter (s, SVec.new) = r at h ⊢
  cases r with
  | ub => exact h.elim
  | abort =>
    rcases h with h | ⟨zs, ds, s1, h1, h2⟩ | ⟨xs, s1, h1, h2⟩
    · exact .inl h
    · exact .inr (.inl ⟨zs, ds, s1, h1, h2.imp id .inl⟩)
    · exact .inr (.inr ⟨xs, s1, h1, .inl h2⟩)
  | ok u st => exact h
  | panic st =>
    obtain ⟨s2, v2⟩ := st
    dsimp only
    rcases h with ⟨zs, ds, s1, h1, h2, h3, h4⟩ | ⟨xs, s1, h1, h2, h3, h4⟩
    · have hx := drop_reading (c := c) envD v2 zs h3
      cases hr : SVec.drop envD v2 with
      | ub => rw [hr] at hx; exact hx.elim
      | abort => rw [hr] at hx; rw [liftR_abort hr]; exact .inr (.inl ⟨zs, ds, s1, h1, .inr (.inr hx)⟩)
      | panic v3 => rw [hr] at hx; rw [liftR_panic hr]; exact .inr (.inl ⟨zs, ds, s1, h1, .inr (.inr hx)⟩)
      | ok u v3 =>
        rw [hr] at hx; rw [liftR_ok hr]
        refine .inl ⟨zs, ds, s1, h1, h2, ?_⟩
        rw [show v3.drops = v2.drops ++ zs from hx.1, show v2.drops = [] ++ ds from h4]
        rfl
    · have hx := drop_reading (c := c) envD v2 xs h3
      cases hr : SVec.drop envD v2 with
      | ub => rw [hr] at hx; exact hx.elim
      | abort => rw [hr] at hx; rw [liftR_abort hr]; exact .inr (.inr ⟨xs, s1, h1, .inr ⟨⟨_, h2⟩, hx⟩⟩)
      | panic v3 => rw [hr] at hx; rw [liftR_panic hr]; exact .inr (.inr ⟨xs, s1, h1, .inr ⟨⟨_, h2⟩, hx⟩⟩)
      | ok u v3 =>
        rw [hr] at hx; rw [liftR_ok hr]
        refine .inr ⟨xs, s1, h1, h2, ?_⟩
        rw [show v3.drops = v2.drops ++ xs from hx.1, show v2.drops = [] from h4]
        rfl

omit [Inhabited β] in
theorem GotStops.elim {hint : Nat} {items : List (Env (Val (sizedTy sz al) β) × Emplacable σ (sizedTy sz al) β)} {s s1 s' : σ}
    {xs zs ds : List (Val (sizedTy sz al) β)} (h : GotStops c hint items s ys zs ds s') (hy : Yielded (ofEmplacables items) s xs s1)
    (hr : ∀ k env e, items[k]? = some (env, e) → hint ≤ k → ∀ err, ¬ Fails c sz env (ys.length + k) 1 err) : False := by
  obtain ⟨k, env, e, zs, s2, h1, h2, _, h3⟩ := h
  have h4 : (ofEmplacables items)[k]? = some (env, Item.emplacable e) := by unfold ofEmplacables; simp [h1]
  have h5 : Yielded ((ofEmplacables items).take k) s zs s2 := by unfold ofEmplacables at *; rwa [← List.map_take]
  obtain ⟨y, s3, h6⟩ := hy.next h4 h5
  rcases h3 with ⟨_, h3 | ⟨x, h3⟩⟩ | ⟨x, _, _, h3, h7⟩
  · exact h6.not_unwinds h3
  · exact h6.not_unwindsAfter h3
  · exact hr k env e h1 h3 _ h7

omit [Inhabited β] in
theorem GotEnds.elim {hint : Nat} {items : List (Env (Val (sizedTy sz al) β) × Emplacable σ (sizedTy sz al) β)} {s s1 : σ}
    {xs : List (Val (sizedTy sz al) β)} (h : GotEnds c hint items s ys) (hy : Yielded (ofEmplacables items) s xs s1)
    (hr : ∀ k env e, items[k]? = some (env, e) → hint ≤ k → ∀ err, ¬ Fails c sz env (ys.length + k) 1 err) : False := by
  obtain ⟨k, env, e, zs, s2, h1, h2, h3⟩ := h
  have h4 : (ofEmplacables items)[k]? = some (env, Item.emplacable e) := by unfold ofEmplacables; simp [h1]
  have h5 : Yielded ((ofEmplacables items).take k) s zs s2 := by unfold ofEmplacables at *; rwa [← List.map_take]
  obtain ⟨y, s3, h6⟩ := hy.next h4 h5
  rcases h3 with h3 | ⟨x, s4, _, h3, h7 | ⟨h7, _⟩⟩
  · exact h6.not_aborts h3
  · exact hr k env e h1 h3 _ h7
  · exact hr k env e h1 h3 _ h7

end SVec

/-! ## Slices and vectors -/

/-- Every slice consists of elements. -/
theorem exists_sliceOf {sz al : Nat} : ∀ (n : Nat) (bs : List β), bs.length = n * sz →
    ∃ xs : List (Val (sizedTy sz al) β), xs.length = n ∧ AllSized xs ∧ (xs.map Val.bytes).flatten = bs
  | 0, bs, h => ⟨[], rfl, fun _ h => absurd h List.not_mem_nil, by
      rw [Nat.zero_mul] at h; rw [List.length_eq_zero_iff.mp h]; rfl⟩
  | n + 1, bs, h => by
    have h' : bs.length = n * sz + sz := by rw [h, Nat.add_mul, Nat.one_mul]
    obtain ⟨xs, h1, h2, h3⟩ := exists_sliceOf (sz := sz) (al := al) n (bs.drop sz) (by simp; omega)
    refine ⟨⟨(), bs.take sz⟩ :: xs, by simp [h1], ?_, ?_⟩
    · intro x hx
      rcases List.mem_cons.mp hx with rfl | hx
      · show (bs.take sz).length = sz
        simp; omega
      · exact h2 x hx
    · simp [h3]

theorem Val.WF.sliceOf {sz al : Nat} {x : Val (sliceTy sz al) β} (h : x.WF c) :
    ∃ xs : List (Val (sizedTy sz al) β), xs.length = x.md ∧ AllSized xs ∧ Verif.sliceOf xs = x := by
  obtain ⟨xs, h1, h2, h3⟩ := exists_sliceOf (sz := sz) (al := al) (x.md : Nat) x.bytes h.bytes_len
  refine ⟨xs, h1, h2, ?_⟩
  show (⟨(xs.length : Nat), _⟩ : Val (sliceTy sz al) β) = ⟨x.md, x.bytes⟩
  rw [h1, h3]

section
variable [Inhabited β]

omit [Inhabited β] in
theorem BoxMade.vecHolds {sz al : Nat} (ha : al ∣ sz) {t : Sink.BoxSt (sliceTy sz al) β} {xs : List (Val (sizedTy sz al) β)} {p : Nat}
    (h : BoxMade c t (Verif.sliceOf xs) p) (hx : AllSized xs) : VecHolds c t.heap p xs.length xs := by
  have hw := h.wf
  have h1 : c.isizeMax ≤ c.usizeMax := by
    unfold Cfg.isizeMax Cfg.usizeMax
    have : 2 ^ (c.bits - 1) ≤ 2 ^ c.bits := Nat.pow_le_pow_right (by omega) (by omega)
    omega
  have h2 : xs.length * sz + (al - 1) ≤ c.isizeMax := hw.size_le
  exact ⟨⟨hw.align_pow, ha, h2⟩, hx, Nat.le_refl _, by omega, h.holds.block, h.bytes⟩

/-! ## `Rc` -/

theorem roundUp_eq {a : Nat} (h : 0 < a) (n : Nat) : Sink.roundUp n a = padTo a n := by
  unfold Sink.roundUp padTo
  rw [Nat.add_sub_assoc h]

theorem roundUp_least {a : Nat} (h : 0 < a) (n : Nat) : LeastMultiple a n (Sink.roundUp n a) := by
  rw [roundUp_eq h]; exact padTo_leastMultiple h n

theorem boxDealloc_ok {t : Sink.BoxSt T β} {x : Val T β} {q : Nat} (hb : BoxMade c t x q) :
    ∃ h', t.heap.deallocate q ⟨x.size, x.align⟩ = some h' ∧ h'.block = none ∧ h'.leaks = t.heap.leaks := by
  by_cases h0 : x.size = 0
  · refine ⟨t.heap, ?_, hb.none h0, rfl⟩
    unfold Heap.deallocate
    rw [if_pos h0]
  · exact ⟨_, deallocate_ok (l := ⟨x.size, x.align⟩) (Nat.pos_of_ne_zero h0) (hb.holds.block.fits (Nat.pos_of_ne_zero h0)), rfl, rfl⟩

theorem dropBox_meets (env : Env (Val T β)) {t : Sink.RcSt T β} {x : Val T β} {q : Nat} (hb : BoxMade c t.box x q) :
    ∃ h', h'.block = none ∧ h'.leaks = t.box.heap.leaks ∧ Sink.dropBox env t =
      if env.dropPanics x then .panic { t with box := ⟨h', none⟩, drops := t.drops ++ [x] }
      else .ok () { t with box := ⟨h', none⟩, drops := t.drops ++ [x] } := by
  obtain ⟨h', h1, h2, h3⟩ := boxDealloc_ok hb
  refine ⟨h', h2, h3, ?_⟩
  unfold Sink.dropBox
  have hs : T.sizeOf x.md = x.size := rfl
  have ha : T.alignOf x.md = x.align := rfl
  rw [Exec.get_bind, Exec.orUb_bind hb.made]
  simp only [hs, ha]
  rw [Exec.orUb_bind hb.holds.read, Exec.orUb_bind h1]
  show (if env.dropPanics ⟨x.md, x.bytes⟩ then _ else _ : Exec _ _) _ = _
  split <;> rfl

/-- What `rcFromBox` does with the box holding `x`. -/
theorem rcFromBox_meets (hu : IsAlign c c.usizeAlign) {env : Env (Val T β)} (hv : env.Valid) {t : Sink.RcSt T β}
    {x : Val T β} {q : Nat} (hb : BoxMade c t.box x q) (ht : t.heap.block = none) :
    (Sink.rcFromBox c env t).Meets
      (fun _ t' => ∃ p off, RcMade c t' x p off ∧ t'.box.made = none ∧ t'.box.heap.block = none ∧
        t'.box.heap.leaks = t.box.heap.leaks ∧ t'.heap.leaks = t.heap.leaks ∧ t'.drops = t.drops)
      (fun t' => RcTooLarge c x ∧ t'.box.made = none ∧ t'.box.heap.block = none ∧ t'.box.heap.leaks = t.box.heap.leaks ∧
        t'.heap = t.heap ∧ t'.made = t.made ∧ t'.drops = t.drops ++ [x])
      ((RcTooLarge c x ∧ env.dropPanics x = true) ∨ RcRefused c env x.size x.align) := by
  have hxa : IsAlign c x.align := hb.wf.align_pow
  have hxp : 0 < x.align := hxa.pos
  have hm : IsAlign c (max c.usizeAlign x.align) := hu.max hxa
  have hmu : c.usizeAlign ∣ max c.usizeAlign x.align := hu.dvd_of_le hm (Nat.le_max_left _ _)
  have hmx : x.align ∣ max c.usizeAlign x.align := hxa.dvd_of_le hm (Nat.le_max_right _ _)
  have hoff : LeastMultiple x.align (2 * (c.bits / 8)) (Sink.rcOffset c ⟨x.size, x.align⟩) := roundUp_least hxp _
  have hlay : LeastMultiple (max c.usizeAlign x.align) (Sink.rcOffset c ⟨x.size, x.align⟩ + x.size)
      (Sink.rcLayout c ⟨x.size, x.align⟩).size := roundUp_least hm.pos _
  unfold Sink.rcFromBox
  rw [Exec.get_bind, Exec.orUb_bind hb.made]
  show ((Exec.onUnwind (Exec.assert (Sink.rcOffset c ⟨x.size, x.align⟩ + x.size + (max c.usizeAlign x.align - 1) ≤ c.isizeMax))
    (Sink.dropBox env) >>= _ : Exec _ _) t).Meets _ _ _
  by_cases hfit : Sink.rcOffset c ⟨x.size, x.align⟩ + x.size + (max c.usizeAlign x.align - 1) ≤ c.isizeMax
  · rw [Exec.bind_ok (a := ()) (s' := t) (by unfold Exec.onUnwind; rw [Exec.assert_pos hfit])]
    show ((match t.heap.allocate env (Sink.rcLayout c ⟨x.size, x.align⟩) with
      | none => Exec.abort
      | some (h, p, _) => _ : Exec (Sink.RcSt T β) Unit) t).Meets _ _ _
    cases hal : env.alloc (Sink.rcLayout c ⟨x.size, x.align⟩) with
    | none =>
      simp only [Heap.allocate, hal]
      exact .inr ⟨_, _, hoff, hlay, hal⟩
    | some r =>
      obtain ⟨p, extra⟩ := r
      simp only [Heap.allocate, hal, ht, Option.isSome_none, Bool.false_eq_true, if_false]
      obtain ⟨hp1, hp2⟩ := hv _ _ _ hm.pos hal
      have hp2 : max c.usizeAlign x.align ∣ p := hp2
      have hspan : Sink.rcOffset c ⟨x.size, x.align⟩ + x.bytes.length ≤
          (Heap.fresh (fun _ => default) (Sink.rcLayout c ⟨x.size, x.align⟩) (p, extra) (t.heap.leaks + 0) : Heap β).span p := by
        have h1 : (Heap.fresh (fun _ => default) (Sink.rcLayout c ⟨x.size, x.align⟩) (p, extra) (t.heap.leaks + 0) : Heap β).span p =
            (Sink.rcLayout c ⟨x.size, x.align⟩).size + extra := if_pos rfl
        have h2 := hlay.2.1
        rw [h1, hb.wf.bytes_len]
        omega
      obtain ⟨hb', h1, h2, h3⟩ := boxDealloc_ok hb
      have hs : T.sizeOf x.md = x.size := rfl
      have ha : T.alignOf x.md = x.align := rfl
      simp only [hs, ha]
      rw [Exec.orUb_bind hb.holds.read]
      rw [Exec.orUb_bind (write_eq hspan), Exec.orUb_bind h1]
      refine ⟨p, _, ⟨rfl, hb.wf, hp1, Nat.dvd_trans hmu hp2, hoff, Nat.dvd_add (Nat.dvd_trans hmx hp2) hoff.1, ?_, ?_⟩, rfl, h2, h3, rfl, rfl⟩
      · refine ⟨_, rfl, rfl, hlay, rfl, Nat.le_add_right _ _, ?_⟩
        have : (Sink.rcLayout c ⟨x.size, x.align⟩).size = padTo (max c.usizeAlign x.align) (Sink.rcOffset c ⟨x.size, x.align⟩ + x.size) :=
          roundUp_eq hm.pos _
        have := padTo_lt hm.pos (Sink.rcOffset c ⟨x.size, x.align⟩ + x.size)
        show (Sink.rcLayout c ⟨x.size, x.align⟩).size ≤ _
        omega
      · exact bytesAre_written _ _ _
  · have hbig : RcTooLarge c x := ⟨_, hoff, by omega⟩
    obtain ⟨h', h1, h2, h3⟩ := dropBox_meets env hb
    by_cases hp : env.dropPanics x = true
    · rw [if_pos hp] at h3
      rw [Exec.bind_abort (by unfold Exec.onUnwind; rw [Exec.assert_neg hfit]; dsimp only; rw [h3])]
      exact .inl ⟨hbig, hp⟩
    · rw [if_neg hp] at h3
      rw [Exec.bind_panic (s' := _) (by unfold Exec.onUnwind; rw [Exec.assert_neg hfit]; dsimp only; rw [h3])]
      exact ⟨hbig, rfl, h1, h2, rfl, rfl, rfl⟩

omit [Inhabited β] in
theorem onBox_meets {α : Type} {m : Exec (σ × Sink.BoxSt T β) α} {s : σ} {t : Sink.RcSt T β} {Q : α → σ × Sink.BoxSt T β → Prop}
    {P : σ × Sink.BoxSt T β → Prop} {A : Prop} (h : (m (s, t.box)).Meets Q P A) :
    (Sink.onBox m (s, t)).Meets (fun a st => Q a (st.1, st.2.box) ∧ st.2.heap = t.heap ∧ st.2.made = t.made ∧ st.2.drops = t.drops)
      (fun st => P (st.1, st.2.box) ∧ st.2.heap = t.heap ∧ st.2.made = t.made ∧ st.2.drops = t.drops) A := by
  unfold Sink.onBox
  dsimp only
  generalize m (s, t.box) = r at h ⊢
  cases r with
  | ub => exact h.elim
  | abort => exact h
  | ok a st => exact ⟨h, rfl, rfl, rfl⟩
  | panic st => exact ⟨h, rfl, rfl, rfl⟩

/-- Dropping the `Rc`. -/
theorem rcDrop_eq (hbits : 8 ≤ c.bits) {env : Env (Val T β)} {t : Sink.RcSt T β} {x : Val T β} {p off : Nat} (h : RcMade c t x p off) :
    ∃ h', h'.block = none ∧ h'.leaks = t.heap.leaks ∧ Sink.rcDrop c env t =
      if env.dropPanics x then .panic { t with heap := h', made := none, drops := t.drops ++ [x] }
      else .ok () { t with heap := h', made := none, drops := t.drops ++ [x] } := by
  have hxa : IsAlign c x.align := h.wf.align_pow
  obtain ⟨b, h1, h2, h3, h4, h5, h6⟩ := h.block
  have ho : Sink.rcOffset c ⟨x.size, x.align⟩ = off := (roundUp_least hxa.pos _).unique h.offset
  have hmp : 0 < max c.usizeAlign x.align := Nat.lt_of_lt_of_le hxa.pos (Nat.le_max_right _ _)
  have hl : (Sink.rcLayout c ⟨x.size, x.align⟩) = ⟨b.reqSize, b.align⟩ := by
    unfold Sink.rcLayout
    rw [ho, h4]
    congr 1
    exact (roundUp_least hmp _).unique h3
  have hspan : t.heap.span p = b.granted := by
    unfold Heap.span; rw [h1]; exact if_pos h2.symm
  have hread : t.heap.read p off x.size = some x.bytes := by
    rw [read_eq (by have := h3.2.1; omega), bytesAt_eq h.bytes h.wf.bytes_len]
  have hde : ∃ h', t.heap.deallocate p ⟨b.reqSize, b.align⟩ = some h' ∧ h'.block = none ∧ h'.leaks = t.heap.leaks := by
    have hpos : 0 < b.reqSize := by
      have h7 := h3.2.1
      have h8 := h.offset.2.1
      omega
    exact ⟨_, deallocate_ok (l := ⟨b.reqSize, b.align⟩) hpos (by unfold Heap.fits; rw [h1]; exact ⟨h2.symm, rfl, Nat.le_refl _, h5⟩), rfl, rfl⟩
  obtain ⟨h', hd1, hd2, hd3⟩ := hde
  refine ⟨h', hd2, hd3, ?_⟩
  unfold Sink.rcDrop
  rw [Exec.get_bind, Exec.orUb_bind h.made]
  show ((Exec.require ((p + Sink.rcOffset c ⟨x.size, x.align⟩) % x.align = 0) >>= _ : Exec _ _) t) = _
  rw [ho, Exec.require_bind (Nat.mod_eq_zero_of_dvd h.aligned)]
  show ((Exec.orUb (t.heap.read p (Sink.rcOffset c ⟨x.size, x.align⟩) x.size) >>= _ : Exec _ _) t) = _
  rw [ho, Exec.orUb_bind hread]
  show ((Exec.orUb (t.heap.deallocate p (Sink.rcLayout c ⟨x.size, x.align⟩)) >>= _ : Exec _ _) t) = _
  rw [hl, Exec.orUb_bind hd1]
  show (if env.dropPanics ⟨x.md, x.bytes⟩ then _ else _ : Exec _ _) _ = _
  split <;> rfl

end

/-! ## `unsize!` -/

theorem slotTake_ok {U : UTy} {md : U.Meta} {bs : List β} (h : bs.length = U.sizeOf md) :
    Source.slotTake U md ⟨some bs⟩ = .ok ⟨md, bs⟩ ⟨some bs⟩ := by
  unfold Source.slotTake
  rw [Exec.get_bind]
  by_cases h0 : U.sizeOf md = 0
  · rw [if_pos h0, List.length_eq_zero_iff.mp (h.trans h0)]; rfl
  · rw [if_neg h0, Exec.orUb_bind rfl, Exec.require_bind (Nat.le_of_eq h.symm)]
    show Res.ok (⟨md, bs.take (U.sizeOf md)⟩ : Val U β) _ = _
    rw [List.take_of_length_le (Nat.le_of_eq h)]

theorem unsizeMacro_ok {sz al : Nat} {U : UTy} {md : U.Meta} (hsz : U.sizeOf md = sz) {x : Val (sizedTy sz al) β} (hx : x.WF c)
    (s : Source.Slot β) : ∃ s', Source.unsizeMacro c U md x s = .ok ⟨md, x.bytes⟩ s' := by
  have hl : x.bytes.length = sz := hx.bytes_len
  unfold Source.unsizeMacro Source.slotBox
  by_cases h0 : sz = 0
  · refine ⟨s, ?_⟩
    have h1 : x.bytes = [] := List.length_eq_zero_iff.mp (hl.trans h0)
    rw [Exec.bind_ok (a := ()) (s' := s) (by rw [if_pos h0]; rfl)]
    unfold Source.slotTake
    rw [Exec.get_bind, if_pos (hsz.trans h0), h1]
    rfl
  · refine ⟨⟨some x.bytes⟩, ?_⟩
    have h1 : ((⟨x.size, x.align⟩ : Layout) = ⟨sz, al⟩) := rfl
    rw [Exec.bind_ok (a := ()) (s' := ⟨some x.bytes⟩)
      (by rw [if_neg h0, Exec.debugAssert_bind h1, Exec.require_bind (Nat.le_of_eq hl)]; rfl)]
    exact slotTake_ok (hl.trans hsz.symm)

end Verif
