import Verif.Proofs.UImpl
import Verif.Proofs.Misplaced

/-!
# Removing and inserting at the end of a dynamically aligned vector with padding
-/

namespace Verif

theorem VSU.uncheckedSub_none {c : Cfg} {x y : Nat} (h : x < y) : VSU.uncheckedSub c x y = none := by
  unfold VSU.uncheckedSub Verif.uncheckedSub
  rw [if_neg (by omega)]
  rfl

/-- The source's last step comes after everything else. -/
theorem run_finish {σ τ : Type} {T : UTy} {β : Type} {e e' : Emplacable σ T β} {m : Emplacer τ T β} {s s1 : σ} {t : τ}
    {st : Started σ T β} (he : e s = .ok st s1) (he' : e' s = .ok { st with finish := pure () } s1) :
    run e m (s, t) = (run e' m >>= fun _ => liftL st.finish) (s, t) := by
  unfold run
  have hid : ∀ {p : σ × τ}, liftL (pure () : Exec σ Unit) p = .ok () p := fun {p} => rfl
  rw [Exec.bind_assoc_apply, Exec.bind_ok (liftL_ok he), Exec.bind_ok (liftL_ok he'), Exec.bind_assoc_apply]
  dsimp only
  cases hm : m st.layout st.md t with
  | ub => rw [Exec.bind_ub (liftR_ub hm), Exec.bind_ub (liftR_ub hm)]
  | abort => rw [Exec.bind_abort (liftR_abort hm), Exec.bind_abort (liftR_abort hm)]
  | panic t1 => rw [Exec.bind_panic (liftR_panic hm), Exec.bind_panic (liftR_panic hm)]
  | ok p t1 =>
    rw [Exec.bind_ok (liftR_ok hm), Exec.bind_ok (liftR_ok hm)]
    have key : ∀ (a b : Exec (σ × τ) Unit) p, (do a; b; liftL st.finish : Exec (σ × τ) Unit) p =
        ((do a; b; liftL (pure ()) : Exec (σ × τ) Unit) >>= fun _ => liftL st.finish) p := by
      intro a b p
      rw [Exec.bind_assoc_apply]
      cases ha : a p with
      | ub => rw [Exec.bind_ub ha, Exec.bind_ub ha]
      | abort => rw [Exec.bind_abort ha, Exec.bind_abort ha]
      | panic t1 => rw [Exec.bind_panic ha, Exec.bind_panic ha]
      | ok u q =>
        rw [Exec.bind_ok ha, Exec.bind_ok ha, Exec.bind_assoc_apply]
        cases hb : b q with
        | ub => rw [Exec.bind_ub hb, Exec.bind_ub hb]
        | abort => rw [Exec.bind_abort hb, Exec.bind_abort hb]
        | panic t1 => rw [Exec.bind_panic hb, Exec.bind_panic hb]
        | ok u q => rw [Exec.bind_ok hb, Exec.bind_ok hb, Exec.bind_ok hid]
    cases p with
    | place store commit rollback => exact key _ _ _
    | dropIt commit => exact key _ _ _
    | skip commit =>
      dsimp only
      rw [Exec.bind_assoc_apply]
      cases hc : commit t1 with
      | ub => rw [Exec.bind_ub (liftR_ub hc), Exec.bind_ub (liftR_ub hc)]
      | abort => rw [Exec.bind_abort (liftR_abort hc), Exec.bind_abort (liftR_abort hc)]
      | panic t1 => rw [Exec.bind_panic (liftR_panic hc), Exec.bind_panic (liftR_panic hc)]
      | ok u t3 => rw [Exec.bind_ok (liftR_ok hc), Exec.bind_ok (liftR_ok hc), Exec.bind_ok hid]

namespace UVec
variable {T : UTy} {β : Type} {c : Cfg} {v : UVec T β} {xs : List (Val T β)} [Inhabited β]

theorem not_removeOk_lt (h : v.Holds c xs) {k : Nat} (hk : k < xs.length) (hr : ¬ RemoveOk v xs k) :
    extent (padTo v.align) (xs.eraseIdx k) < totalWidth (padTo v.align) (xs.take k) := by
  unfold RemoveOk at hr
  simp only [not_or] at hr
  obtain ⟨h1, h2, h3⟩ := hr
  have hl : k + 1 = xs.length := by omega
  have he : xs.eraseIdx k = xs.take k := by
    rw [List.eraseIdx_eq_take_drop_succ, List.drop_eq_nil_of_le (by omega), List.append_nil]
  obtain ⟨j, rfl⟩ : ∃ j, k = j + 1 := ⟨k - 1, by omega⟩
  have hj : j < xs.length := by omega
  have ht : xs.take (j + 1) = xs.take j ++ [xs[j]] := by rw [List.take_succ_eq_append_getElem hj]
  have h5 : ¬ v.align ∣ xs[j].size := fun hd => h3 (by
    intro x hx
    simp only [Nat.add_sub_cancel, List.getElem?_eq_getElem hj, Option.some.injEq] at hx
    rw [← hx]; exact hd)
  rw [he, ht, extent_concat, totalWidth_append]
  simp only [totalWidth_cons, totalWidth_nil]
  have h6 := le_padTo h.al.pos xs[j].size
  have h7 : padTo v.align xs[j].size ≠ xs[j].size := by
    intro h; exact h5 (h ▸ dvd_padTo v.align xs[j].size)
  omega

/-- What a removal offers that cannot be completed. -/
theorem removeIntoUnchecked_stuck (env : Env (Val T β)) (h : v.Holds c xs) (k : Nat) (hk : k < xs.length)
    (hr : ¬ RemoveOk v xs k) :
    ∃ st, removeIntoUnchecked c env k v = .ok st v ∧ st.layout = ⟨xs[k].size, xs[k].align⟩ ∧ st.md = xs[k].md ∧
      st.write v = .done xs[k].bytes v ∧
      (st.dropVal v = if env.dropPanics xs[k] then .panic { v with drops := v.drops ++ [xs[k]] }
        else .ok () { v with drops := v.drops ++ [xs[k]] }) ∧
      ∀ d, st.finish { v with drops := d } = .ub := by
  have hlt := not_removeOk_lt h hk hr
  have h1 := h.elem_le k hk
  have h2 := h.total_le
  have h3 := h.span
  have h4 := h.cap
  have h5 := totalWidth_take_succ (padTo v.align) xs k hk
  have h6 := totalWidth_take_le (padTo v.align) xs (k + 1)
  have hxm : xs[k] ∈ xs := List.getElem_mem hk
  have hl := h.length
  unfold removeIntoUnchecked
  rw [Exec.get_bind, Exec.debugAssert_bind (by rw [h.len_eq]; exact hk)]
  have hinfo : v.elems[k]? = some ⟨xs[k].md, totalWidth (padTo v.align) (xs.take k) + xs[k].size⟩ := by
    rw [h.infos, infosFrom_getElem?, List.getElem?_eq_getElem hk]; simp
  rw [Exec.orUb_bind hinfo, Exec.orUb_bind (startOffset_eq h k (by omega))]
  have es : totalWidth (padTo v.align) (xs.take k) + xs[k].size - totalWidth (padTo v.align) (xs.take k) = xs[k].size := by
    omega
  dsimp only
  rw [Exec.orUb_bind (VSU.uncheckedSub_eq (by omega) (by omega)), es,
    Exec.orUb_bind (VSU.uncheckedPadTo_eq h.al (by omega) (by omega)),
    Exec.require_bind (by show _ ≤ _; omega), Exec.orUb_bind (mkRef_elem h k hk)]
  erw [Exec.orUb_bind (layout_elem (h.wf _ hxm))]
  refine ⟨_, rfl, rfl, rfl, copyOut_eq h k hk, dropInPlace_eq (mkRef_elem h k hk) (read_elem h k hk), fun d => ?_⟩
  dsimp only
  rw [Exec.get_bind, Exec.assert_bind (by rw [hl]; exact hk), Exec.set_bind]
  have hlen : (v.elems.eraseIdx k).length = xs.length - 1 := by
    rw [List.length_eraseIdx, if_pos (by omega), hl]
  have htk : (v.elems.eraseIdx k).take k = infosFrom id (padTo v.align) 0 (xs.take k) := by
    rw [h.infos, infosFrom_split _ _ _ _ hk, List.take_left' (by simp; omega)]
  have hdr : (v.elems.eraseIdx k).drop k =
      infosFrom id (padTo v.align) (totalWidth (padTo v.align) (xs.take k) + padTo v.align xs[k].size) (xs.drop (k + 1)) := by
    rw [h.infos, infosFrom_split _ _ _ _ hk, List.drop_left' (by simp; omega)]
  have htd := totalWidth_take_drop (padTo v.align) xs (k + 1)
  rw [Exec.bind_ok (adjustFrom_eq (by simp only; omega) (by simp only [hdr]; exact unbumpInfos_eq h.le_w (by omega)))]
  simp only [htk, ← infosFrom_eraseIdx]
  rw [Exec.get_bind]
  unfold unalignedByteLen
  dsimp only
  rw [lastEnd_infosFrom]
  have hn : VSU.uncheckedSub c (extent (padTo v.align) (xs.eraseIdx k)) (totalWidth (padTo v.align) (xs.take k)) = none :=
    VSU.uncheckedSub_none hlt
  rw [hn]
  rfl

/-- Up to the last step the exchange is as usual; then the number of bytes to move underflows. -/
theorem removeInto_stuck (env : Env (Val T β)) (h : v.Holds c xs) (k : Nat) (hk : k < xs.length)
    (hr : ¬ RemoveOk v xs k) {τ : Type} (m : Emplacer τ T β) (t : τ) :
    match run (given env xs[k]) m (v.drops, t) with
    | .ok _ _ => run (Api.removeInto (unalignedP c T) env k) m (v, t) = .ub
    | .panic (ds, t') => run (Api.removeInto (unalignedP c T) env k) m (v, t) = .panic ({ v with drops := ds }, t')
    | .abort => run (Api.removeInto (unalignedP c T) env k) m (v, t) = .abort
    | .ub => run (Api.removeInto (unalignedP c T) env k) m (v, t) = .ub := by
  obtain ⟨st, h1, hl, hmd, hw, hdv, hf⟩ := removeIntoUnchecked_stuck env h k hk hr
  have he : Api.removeInto (unalignedP c T) env k v = .ok st v := by
    unfold Api.removeInto
    rw [Exec.get_bind, Exec.assert_bind (by rw [(UVec.impl True c T).len_eq h]; exact hk)]
    exact h1
  let e' : Emplacable (UVec T β) T β := fun s => .ok { st with finish := pure () } s
  have hg : Gives (fun (v' : UVec T β) (_ : List (Val T β)) => ∃ d, v' = { v with drops := d }) UVec.drops env
      { st with finish := pure () } v v xs[k] xs[k].align [] [] :=
    ⟨hl, hmd, ⟨⟨v.drops, rfl⟩, rfl⟩, hw, ⟨v, rfl, ⟨v.drops, rfl⟩, rfl⟩,
      ⟨_, hdv, ⟨_, rfl⟩, rfl, _, rfl, ⟨_, rfl⟩, rfl⟩⟩
  have hso : SameOutcome _ (run (given env xs[k]) m (v.drops, t)) _ _ := hg.run (e := e') rfl m t
  rw [run_finish (e' := e') he rfl]
  generalize run (given env xs[k]) m (v.drops, t) = r' at hso ⊢
  generalize hr2 : run e' m (v, t) = r at hso
  cases r' with
  | ok u s =>
    obtain ⟨ds, t'⟩ := s
    cases r with
    | ok u2 s2 =>
      obtain ⟨v2, t2⟩ := s2
      obtain ⟨_, ⟨d, rfl⟩, _⟩ := hso
      dsimp only
      rw [Exec.bind_ok hr2]
      exact liftL_ub (hf d)
    | panic _ => exact hso.elim
    | abort => exact hso.elim
    | ub => exact hso.elim
  | panic s =>
    obtain ⟨ds, t'⟩ := s
    cases r with
    | panic s2 =>
      obtain ⟨v2, t2⟩ := s2
      obtain ⟨rfl, ⟨d, rfl⟩, rfl⟩ := hso
      dsimp only
      rw [Exec.bind_panic hr2]
    | ok _ _ => exact hso.elim
    | abort => exact hso.elim
    | ub => exact hso.elim
  | abort =>
    cases r with
    | abort => exact Exec.bind_abort hr2
    | ok _ _ => exact hso.elim
    | panic _ => exact hso.elim
    | ub => exact hso.elim
  | ub =>
    cases r with
    | ub => exact Exec.bind_ub hr2
    | ok _ _ => exact hso.elim
    | panic _ => exact hso.elim
    | abort => exact hso.elim

/-- `insert_with_unchecked` at the end, when there is padding behind the last element. -/
theorem insertWithUnchecked_stuck (h : v.Holds c xs) {env : Env (Val T β)} (hv : env.Valid) (he : env.Exact)
    {md : T.Meta} (hmd : MetaOk c md) (hz : ZstOk v (T.sizeOf md) (T.alignOf md)) (k : Nat) (hk : k ≤ xs.length)
    (hok : ¬ InsertOk xs k (max v.align (T.alignOf md)))
    (hn1 : ¬ env.Refuses (xs.length + 1) (request v xs (T.sizeOf md) (T.alignOf md)))
    (hn2 : ¬ TooLarge c v xs 1 (T.sizeOf md) (T.alignOf md)) :
    insertWithUnchecked c env k ⟨T.sizeOf md, T.alignOf md⟩ md v = .ub := by
  have hsz := hmd.size_le
  unfold insertWithUnchecked
  rw [Exec.orUb_bind (VSU.newUnchecked_eq (by dsimp only; omega))]
  have hres := reserveForEmplace_meets h hv (fun _ => he) hmd.align_pow hz
  generalize hr : reserveForEmplace c env ⟨T.sizeOf md, T.alignOf md⟩ v = r at hres
  cases r with
  | panic v1 => exact absurd hres.2.2.2 (not_or.2 ⟨hn1, hn2⟩)
  | abort => exact absurd hres hn1
  | ub => exact hres.elim
  | ok u v1 =>
    obtain ⟨hro, hd, hal, _⟩ := hres
    have h1 := hro.holds
    have hb := hro.bytes
    have hpad := hb
    have hcm := h1.capMax
    have hsp := h1.span
    rw [← hal] at hok
    have hlt := not_insertOk_lt h1.al.pos hk hok
    have htk := totalWidth_take_le (padTo v1.align) xs k
    have hpw := le_padTo h1.al.pos (T.sizeOf md)
    rw [Exec.bind_ok hr]
    dsimp only
    rw [Exec.get_bind, Exec.orUb_bind (VSU.uncheckedPadTo_eq h1.al (by omega) (by omega)),
      Exec.orUb_bind (startOffset_eq h1 k hk), Exec.require_bind (by show _ ≤ _; omega),
      unalignedByteLen_eq h1, VSU.uncheckedSub_none hlt]
    rfl

end UVec
end Verif
