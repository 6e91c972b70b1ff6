import Verif.Proofs.ReserveInst

/-!
# What the reservations and the emplacers do when the properties on growth and on errors fail
-/

namespace Verif
variable {V : Type} {T : UTy} {β : Type}

theorem Exec.debugAssert_fails {σ : Type} {p : Prop} [Decidable p] (h : ¬ p) (s : σ) : Exec.debugAssert true p s = .panic s := by
  unfold Exec.debugAssert
  rw [if_pos ⟨rfl, h⟩]

namespace Impl
variable {c : Cfg} {P : Provider V T β} (I : Impl c P) {v : V} {xs : List (Val T β)}

theorem byteCapAssert_fails (hd : c.debug = true) (h : I.H v xs) {b : Nat} (hb : I.bcap v < I.width v xs + b) :
    Api.byteCapAssert c P b v = .panic v := by
  unfold Api.byteCapAssert
  rw [Exec.get_bind, Exec.orUb_bind (I.byteCap_eq v), Exec.orUb_bind (I.byteLen_eq h), hd]
  exact Exec.debugAssert_fails (by omega) v

/-- In a debug build a request for more bytes than there are never returns `Err`. -/
theorem tryReserve_noErr (hd : c.debug = true) (h : I.H v xs) {env : Env (Val T β)} (he : I.EnvOk env) {n b al : Nat}
    (hal : IsAlign c al) (hn : xs.length + n ≤ P.capacity v) (hb : I.bcap v < I.width v xs + b) :
    (∃ v', Api.tryReserveCapacityBytesAlign c P env n b al v = .ok (.ok ()) v') ∨
      Api.tryReserveCapacityBytesAlign c P env n b al v = .panic v := by
  unfold Api.tryReserveCapacityBytesAlign Api.tryReserve
  rcases I.tryReserve h env n with ⟨v1, h1, _, _, _, _, _, _, _, _, hid, _, _, _⟩ | ⟨e, _, _, h5⟩
  rotate_left
  · omega
  rw [hid hn] at h1
  have hwl := I.width_le h
  have hun : Api.unusedByteCap P v = some (I.unused v xs) := by
    unfold Api.unusedByteCap uncheckedSub
    simp only [I.byteCap_eq, I.byteLen_eq h, Option.bind_eq_bind, Option.bind_some, if_pos hwl]
    rfl
  have hneed : 0 < b - I.unused v xs := by unfold unused; omega
  rw [Exec.bind_ok h1]
  dsimp only
  rw [Exec.get_bind, Exec.debugAssert_bind (by rw [I.len_eq h]; exact hn)]
  unfold Api.toAlign
  rw [I.alignNew hal]
  dsimp only
  rw [Exec.pure_bind_apply, Exec.orUb_bind (I.byteCap_eq v), Exec.orUb_bind hun]
  have key : (∃ v', Api.reserveNeeded c P env b (b - I.unused v xs) al v = .ok (.ok ()) v') ∨
      Api.reserveNeeded c P env b (b - I.unused v xs) al v = .panic v := by
    unfold Api.reserveNeeded
    rcases I.addBytes h he hal (b - I.unused v xs) with ⟨v2, h2, hH2, _, hsp, _⟩ | ⟨e, h2, _⟩
    · left
      rw [Exec.bind_ok h2, Exec.bind_ok (I.byteCapAssert_ok hH2 (by unfold unused at hsp; omega))]
      exact ⟨v2, rfl⟩
    · right
      rw [Exec.bind_ok h2, Exec.bind_panic (I.byteCapAssert_fails hd h hb)]
  generalize (if b - I.unused v xs > 0 then max (b - I.unused v xs) (I.bcap v) else 0) = opt
  by_cases ho : opt > b - I.unused v xs
  · rw [if_pos ho]
    rcases I.addBytes h he hal opt with ⟨v2, h2, _⟩ | ⟨e, h2, _⟩
    · rw [Exec.bind_ok h2]; exact .inl ⟨v2, rfl⟩
    · rw [Exec.bind_ok h2]; exact key
  · rw [if_neg ho]; exact key

/-- A request to the exact family that returns `Ok` has enlarged the byte capacity by the bytes asked for. -/
theorem exact_grows (hm : ∀ {v v' xs}, I.H v xs → I.H v' xs → P.align v ≤ P.align v' → I.width v xs ≤ I.width v' xs)
    (h : I.H v xs) {env : Env (Val T β)} (he : I.EnvOk env) (n b : Nat) {al : Nat} (hal : IsAlign c al)
    {v' : V} (hr : Api.tryReserveExactCapacityBytesAlign P env n b al v = .ok (.ok ()) v') :
    I.H v' xs ∧ I.bcap v + b ≤ I.bcap v' := by
  unfold Api.tryReserveExactCapacityBytesAlign at hr
  rcases I.tryReserve h env n with ⟨v1, h1, hH, hd, hw, hbc, hali, hblk, hrec, hmono, hid, hrq, htb, hfit⟩ | ⟨e, h1, hwhy, _⟩
  rotate_left
  · rw [Exec.bind_ok h1] at hr; cases hr
  rw [Exec.bind_ok h1] at hr
  dsimp only at hr
  unfold Api.toAlign at hr
  rw [I.alignNew hal] at hr
  dsimp only at hr
  rw [Exec.pure_bind_apply] at hr
  rcases I.addBytes hH he hal b with ⟨v2, h2, hH2, hd2, hsp2, hm2, hc2, hid2, ht2, ha2, hac2, hf2⟩ | ⟨e, h2, hwhy, _⟩
  · rw [h2] at hr
    cases hr
    have := hm hH hH2 ha2
    exact ⟨hH2, by omega⟩
  · rw [h2] at hr; cases hr

end Impl

theorem UVec.width_mono {c : Cfg} [Inhabited β] {v v' : UVec T β} {xs : List (Val T β)} (h : (UVec.impl True c T).H v xs)
    (h' : (UVec.impl True c T).H v' xs) (ha : (unalignedP c T).align v ≤ (unalignedP c T).align v') :
    (UVec.impl True c T).width v xs ≤ (UVec.impl True c T).width v' xs := by
  have h : v.Holds c xs := h
  have h' : v'.Holds c xs := h'
  exact totalWidth_mono_align h.al.pos h'.al.pos (h.al.dvd_of_le h'.al ha) xs

end Verif
