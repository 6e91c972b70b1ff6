import Verif.Spec.Builds
import Verif.Proofs.BuildsAttr

/-!
# What does not depend on debug assertions

Rewrite rules for the functions without assertions, and for those whose assertions cannot fail in any state.
-/

namespace Verif
variable {c : Cfg}

@[builds] theorem checked_bits : c.checked.bits = c.release.bits := rfl
@[builds] theorem checked_usizeAlign : c.checked.usizeAlign = c.release.usizeAlign := rfl
@[builds] theorem checked_infoMax : c.checked.infoMax = c.release.infoMax := rfl
@[builds] theorem Cfg.usizeMax_build : Cfg.usizeMax c.checked = Cfg.usizeMax c.release := rfl
@[builds] theorem Cfg.isizeMax_build : Cfg.isizeMax c.checked = Cfg.isizeMax c.release := rfl
@[builds] theorem checkedAdd_build : checkedAdd c.checked = checkedAdd c.release := rfl
@[builds] theorem uncheckedAdd_build : uncheckedAdd c.checked = uncheckedAdd c.release := rfl
@[builds] theorem uncheckedMul_build : uncheckedMul c.checked = uncheckedMul c.release := rfl
@[builds] theorem bitNot_build : bitNot c.checked = bitNot c.release := rfl
@[builds] theorem saturatingAdd_build : saturatingAdd c.checked = saturatingAdd c.release := rfl
@[builds] theorem ValidAlign.variants_build : ValidAlign.variants c.checked = ValidAlign.variants c.release := rfl
@[builds] theorem ValidAlign.newUnchecked_build : ValidAlign.newUnchecked c.checked = ValidAlign.newUnchecked c.release := rfl
@[builds] theorem layoutUnchecked_build : layoutUnchecked c.checked = layoutUnchecked c.release := rfl
@[builds] theorem VSU.newUnchecked_build : VSU.newUnchecked c.checked = VSU.newUnchecked c.release := rfl
@[builds] theorem VSU.new_build : VSU.new c.checked = VSU.new c.release := rfl
@[builds] theorem VSU.maxForAlign_build : VSU.maxForAlign c.checked = VSU.maxForAlign c.release := rfl
@[builds] theorem VSU.newPaddedTo_build : VSU.newPaddedTo c.checked = VSU.newPaddedTo c.release := rfl
@[builds] theorem VSU.newSquishedTo_build : VSU.newSquishedTo c.checked = VSU.newSquishedTo c.release := rfl
@[builds] theorem VSU.checkedAdd_build : VSU.checkedAdd c.checked = VSU.checkedAdd c.release := rfl
@[builds] theorem VSU.uncheckedAdd_build : VSU.uncheckedAdd c.checked = VSU.uncheckedAdd c.release := rfl
@[builds] theorem VSU.uncheckedSub_build : VSU.uncheckedSub c.checked = VSU.uncheckedSub c.release := rfl
@[builds] theorem VSU.checkedPadTo_build : VSU.checkedPadTo c.checked = VSU.checkedPadTo c.release := rfl
@[builds] theorem VSU.uncheckedPadTo_build : VSU.uncheckedPadTo c.checked = VSU.uncheckedPadTo c.release := rfl
@[builds] theorem VSU.checkedAddPad_build : VSU.checkedAddPad c.checked = VSU.checkedAddPad c.release := rfl
@[builds] theorem VS.max_build : VS.max c.checked = VS.max c.release := rfl
@[builds] theorem VS.newUnchecked_build : VS.newUnchecked c.checked = VS.newUnchecked c.release := rfl
@[builds] theorem VS.new_build : VS.new c.checked = VS.new c.release := rfl
@[builds] theorem VS.newSquished_build : VS.newSquished c.checked = VS.newSquished c.release := rfl
@[builds] theorem VS.uncheckedAdd_build : VS.uncheckedAdd c.checked = VS.uncheckedAdd c.release := rfl
@[builds] theorem VS.uncheckedSub_build : VS.uncheckedSub c.checked = VS.uncheckedSub c.release := rfl

/-! ## Assertions -/

section
variable {σ τ α γ : Type}

/-- A release build skips the assertion. -/
theorem debugAssert_release {p : Prop} [Decidable p] (f : Unit → Exec σ α) (s : σ) :
    (Exec.debugAssert c.release.debug p >>= f) s = f () s := by
  have h : (Exec.debugAssert c.release.debug p : Exec σ Unit) s = .ok () s := by
    unfold Exec.debugAssert
    rw [if_neg (fun h => nomatch h.1)]
  exact Exec.bind_ok h

/-- An assertion that holds makes no difference. -/
theorem debugAssert_build {p : Prop} [Decidable p] (hp : p) (f g : Unit → Exec σ α) (s : σ) (h : f () s = g () s) :
    (Exec.debugAssert c.checked.debug p >>= f) s = (Exec.debugAssert c.release.debug p >>= g) s := by
  rw [debugAssert_release, Exec.bind_ok (Exec.debugAssert_pos hp s), h]

theorem orUb_ok {o : Option α} {a : α} {s t : σ} (h : (Exec.orUb o : Exec σ α) s = .ok a t) : s = t := by
  cases o with
  | none => cases h
  | some b => cases h; rfl

/-- Two computations that begin alike. -/
theorem bind_build {m : Exec σ γ} {f g : γ → Exec σ α} {s : σ} (h : ∀ a t, m s = .ok a t → f a t = g a t) :
    (m >>= f) s = (m >>= g) s := by
  rw [Exec.bind_apply, Exec.bind_apply]
  cases hm : m s with
  | ok a t => exact h a t hm
  | panic t => rfl
  | abort => rfl
  | ub => rfl

end

/-! ## Dynamically aligned elements -/

section
variable {T : UTy} {β : Type}

@[builds] theorem UVec.alignedByteLen_build : UVec.alignedByteLen (T := T) (β := β) c.checked = UVec.alignedByteLen c.release := by
  funext v; simp only [UVec.alignedByteLen, builds]
@[builds] theorem UVec.startOffset_build : UVec.startOffset (T := T) (β := β) c.checked = UVec.startOffset c.release := by
  funext v i; simp only [UVec.startOffset, builds]

@[builds] theorem UVec.lenAfterRealignUpGo_build : UVec.lenAfterRealignUpGo (T := T) c.checked = UVec.lenAfterRealignUpGo c.release := by
  funext a b l
  induction l with
  | nil => funext s t; simp only [UVec.lenAfterRealignUpGo]
  | cons e es ih => funext s t; simp only [UVec.lenAfterRealignUpGo, ih, builds]
@[builds] theorem UVec.lenAfterRealignUp_build : UVec.lenAfterRealignUp (T := T) (β := β) c.checked = UVec.lenAfterRealignUp c.release := by
  funext v b; simp only [UVec.lenAfterRealignUp, builds]
@[builds] theorem UVec.realignUpOffsets_build : UVec.realignUpOffsets (T := T) c.checked = UVec.realignUpOffsets c.release := by
  funext a b l
  induction l with
  | nil => funext s; simp only [UVec.realignUpOffsets]
  | cons e es ih => funext s; simp only [UVec.realignUpOffsets, ih, builds]
@[builds] theorem bumpInfos_build {R : Type} : UVec.bumpInfos (R := R) c.checked = UVec.bumpInfos c.release := by
  funext b l
  induction l with
  | nil => simp only [UVec.bumpInfos]
  | cons e es ih => simp only [UVec.bumpInfos, ih, builds]
@[builds] theorem unbumpInfos_build {R : Type} : UVec.unbumpInfos (R := R) c.checked = UVec.unbumpInfos c.release := by
  funext b l
  induction l with
  | nil => simp only [UVec.unbumpInfos]
  | cons e es ih => simp only [UVec.unbumpInfos, ih, builds]
@[builds] theorem UVec.newByteCap_build : UVec.newByteCap c.checked = UVec.newByteCap c.release := by
  funext a b d e; simp only [UVec.newByteCap, builds]

@[builds] theorem UVec.realignUpMove_build : UVec.realignUpMove (T := T) (β := β) c.checked = UVec.realignUpMove c.release := by
  funext a b p l
  induction l with
  | nil => funext s h; simp only [UVec.realignUpMove]
  | cons e es ih => funext s h; simp only [UVec.realignUpMove, ih, builds]
@[builds] theorem UVec.realignDownMove_build : UVec.realignDownMove (T := T) (β := β) c.checked = UVec.realignDownMove c.release := by
  funext a b p l
  induction l with
  | nil => funext s h; simp only [UVec.realignDownMove]
  | cons e es ih => funext s h; simp only [UVec.realignDownMove, ih, builds]
@[builds] theorem UVec.tryReserve_build : UVec.tryReserve (T := T) (β := β) c.checked = UVec.tryReserve c.release := by
  funext env n; simp only [UVec.tryReserve, builds]

variable [Inhabited β]

@[builds] theorem UVec.newAlignPtr_build : (UVec.newAlignPtr c.checked : UVec T β) = UVec.newAlignPtr c.release := rfl
@[builds] theorem UIter.next_build : UIter.next (T := T) (β := β) c.checked = UIter.next c.release := by
  funext h it; simp only [UIter.next, builds]
@[builds] theorem UIter.nth_build : UIter.nth (T := T) (β := β) c.checked = UIter.nth c.release := by
  funext h it n; simp only [UIter.nth, builds]
@[builds] theorem UIter.nextBack_build : UIter.nextBack (T := T) (β := β) c.checked = UIter.nextBack c.release := by
  funext h it; simp only [UIter.nextBack, builds]
@[builds] theorem UIter.nthBack_build : UIter.nthBack (T := T) (β := β) c.checked = UIter.nthBack c.release := by
  funext h it n; simp only [UIter.nthBack, builds]
@[builds] theorem UIter.take_build : UIter.take (T := T) (β := β) c.checked = UIter.take c.release := by
  funext h n
  induction n with
  | zero => funext it; simp only [UIter.take]
  | succ n ih => funext it; simp only [UIter.take, ih, builds]
@[builds] theorem ICall.unaligned_build : ICall.unaligned (T := T) (β := β) c.checked = ICall.unaligned c.release := by
  funext h k it; cases k <;> simp only [ICall.unaligned, builds]

@[builds] theorem UVec.maxAlignOfElems_build : UVec.maxAlignOfElems (T := T) (β := β) c.checked = UVec.maxAlignOfElems c.release := by
  funext v; simp only [UVec.maxAlignOfElems, builds]
@[builds] theorem UVec.dropLoop_build : UVec.dropLoop (T := T) (β := β) c.checked = UVec.dropLoop c.release := by
  funext env p a l
  induction l with
  | nil => funext s; simp only [UVec.dropLoop]
  | cons e es ih => funext s; simp only [UVec.dropLoop, ih, builds]
@[builds] theorem UVec.drop_build : UVec.drop (T := T) (β := β) c.checked = UVec.drop c.release := by
  funext env; simp only [UVec.drop, builds]
@[builds] theorem UVec.growStorage_build : UVec.growStorage (T := T) (β := β) c.checked = UVec.growStorage c.release := by
  funext env v l; simp only [UVec.growStorage, builds]
@[builds] theorem UVec.getUnchecked_build : UVec.getUnchecked (T := T) (β := β) c.checked = UVec.getUnchecked c.release := by
  funext v i; simp only [UVec.getUnchecked, builds]

omit [Inhabited β] in
/-- The assertion of `realign_up` holds where it is called. -/
theorem UVec.realignUp_build {v : UVec T β} {b : Nat} (h : v.len > 1 ∧ b > v.align) :
    UVec.realignUp c.checked b v = UVec.realignUp c.release b v := by
  unfold UVec.realignUp
  rw [Exec.get_bind, Exec.get_bind]
  refine debugAssert_build h _ _ _ ?_
  simp only [builds]

omit [Inhabited β] in
theorem UVec.realignDown_build {v : UVec T β} {b : Nat} (h : v.len > 1 ∧ b < v.align) :
    UVec.realignDown c.checked b v = UVec.realignDown c.release b v := by
  unfold UVec.realignDown
  rw [Exec.get_bind, Exec.get_bind]
  refine debugAssert_build h _ _ _ ?_
  simp only [builds]

@[builds] theorem UVec.reserveCommit_build : UVec.reserveCommit (T := T) (β := β) c.checked = UVec.reserveCommit c.release := by
  funext env n b cost v
  unfold UVec.reserveCommit
  rw [Exec.get_bind, Exec.get_bind]
  simp only [builds]
  refine bind_build fun o v1 h1 => ?_
  cases o with
  | none => rfl
  | some newCap =>
    dsimp only
    by_cases hc : v.align < b ∨ v.byteCap < newCap
    · rw [if_pos hc, if_pos hc]
      by_cases hp : newCap > 0
      · rw [if_pos hp, if_pos hp]
        refine bind_build fun l v2 h2 => ?_
        refine bind_build fun o v3 h3 => ?_
        cases o with
        | none => rfl
        | some t =>
          obtain ⟨h, addr, granted⟩ := t
          dsimp only
          refine bind_build fun cap v4 h4 => ?_
          cases orUb_ok h1; cases orUb_ok h2; cases orUb_ok h3; cases orUb_ok h4
          rw [Exec.modify_bind, Exec.modify_bind]
          by_cases ha : v.align < b
          · rw [if_pos ha, if_pos ha]
            by_cases hl : v.len > 1
            · rw [if_pos hl, if_pos hl]
              have e := UVec.realignUp_build (c := c) (b := b) (v := { v with ptr := addr, byteCap := cap, heap := h }) ⟨hl, ha⟩
              rw [Exec.bind_apply, Exec.bind_apply, e]
            · rw [if_neg hl, if_neg hl]
          · rw [if_neg ha, if_neg ha]
      · rw [if_neg hp, if_neg hp]
    · rw [if_neg hc, if_neg hc]

@[builds] theorem UVec.tryReserveAdditionalBytesAlign_build :
    UVec.tryReserveAdditionalBytesAlign (T := T) (β := β) c.checked = UVec.tryReserveAdditionalBytesAlign c.release := by
  funext env n a v
  unfold UVec.tryReserveAdditionalBytesAlign
  rw [Exec.get_bind, Exec.get_bind]
  simp only [builds]
  refine bind_build fun o v1 h1 => ?_
  by_cases ha : v.align < max v.align a
  · rw [if_pos ha, if_pos ha]
    exact debugAssert_build (by omega) _ _ _ rfl
  · rw [if_neg ha, if_neg ha]

@[builds] theorem UVec.reserveForEmplace_build : UVec.reserveForEmplace (T := T) (β := β) c.checked = UVec.reserveForEmplace c.release := by
  funext env l; simp only [UVec.reserveForEmplace, builds]
@[builds] theorem UVec.pushWith_build : UVec.pushWith (T := T) (β := β) c.checked = UVec.pushWith c.release := by
  funext env l md; simp only [UVec.pushWith, builds]
@[builds] theorem UVec.insertWithUnchecked_build : UVec.insertWithUnchecked (T := T) (β := β) c.checked = UVec.insertWithUnchecked c.release := by
  funext env i l md; simp only [UVec.insertWithUnchecked, builds]

theorem UVec.popIntoUnchecked_build {v : UVec T β} (h : v.len ≠ 0) (env : Env (Val T β)) :
    UVec.popIntoUnchecked c.checked env v = UVec.popIntoUnchecked c.release env v := by
  unfold UVec.popIntoUnchecked
  rw [Exec.get_bind, Exec.get_bind]
  refine debugAssert_build (p := v.elems ≠ []) (fun e => h (by unfold UVec.len; rw [e]; rfl)) _ _ _ ?_
  simp only [builds]

theorem UVec.removeIntoUnchecked_build {v : UVec T β} {i : Nat} (h : i < v.len) (env : Env (Val T β)) :
    UVec.removeIntoUnchecked c.checked env i v = UVec.removeIntoUnchecked c.release env i v := by
  unfold UVec.removeIntoUnchecked
  rw [Exec.get_bind, Exec.get_bind]
  refine debugAssert_build h _ _ _ ?_
  simp only [builds]

end

/-! ## Statically aligned elements -/

section
variable {A : ATy} {β : Type}

@[builds] theorem AVec.bumpInfos_build {R : Type} : AVec.bumpInfos (R := R) c.checked = AVec.bumpInfos c.release := by
  funext a b l
  induction l with
  | nil => simp only [AVec.bumpInfos]
  | cons e es ih => simp only [AVec.bumpInfos, ih, builds]
@[builds] theorem AVec.unbumpInfos_build {R : Type} : AVec.unbumpInfos (R := R) c.checked = AVec.unbumpInfos c.release := by
  funext a b l
  induction l with
  | nil => simp only [AVec.unbumpInfos]
  | cons e es ih => simp only [AVec.unbumpInfos, ih, builds]
@[builds] theorem AVec.tryReserve_build : AVec.tryReserve (A := A) (β := β) c.checked = AVec.tryReserve c.release := by
  funext env n; simp only [AVec.tryReserve, builds]

variable [Inhabited β]

@[builds] theorem AIter.next_build : AIter.next (A := A) (β := β) c.checked = AIter.next c.release := by
  funext h it; simp only [AIter.next, builds]
@[builds] theorem AIter.nth_build : AIter.nth (A := A) (β := β) c.checked = AIter.nth c.release := by
  funext h it n; simp only [AIter.nth, builds]
@[builds] theorem AIter.nextBack_build : AIter.nextBack (A := A) (β := β) c.checked = AIter.nextBack c.release := by
  funext h it; simp only [AIter.nextBack, builds]
@[builds] theorem AIter.nthBack_build : AIter.nthBack (A := A) (β := β) c.checked = AIter.nthBack c.release := by
  funext h it n; simp only [AIter.nthBack, builds]
@[builds] theorem ICall.aligned_build : ICall.aligned (A := A) (β := β) c.checked = ICall.aligned c.release := by
  funext h k it; cases k <;> simp only [ICall.aligned, builds]

@[builds] theorem AVec.dropLoop_build : AVec.dropLoop (A := A) (β := β) c.checked = AVec.dropLoop c.release := by
  funext env p l
  induction l with
  | nil => funext s; simp only [AVec.dropLoop]
  | cons e es ih => funext s; simp only [AVec.dropLoop, ih, builds]
@[builds] theorem AVec.drop_build : AVec.drop (A := A) (β := β) c.checked = AVec.drop c.release := by
  funext env; simp only [AVec.drop, builds]
@[builds] theorem AVec.growStorage_build : AVec.growStorage (A := A) (β := β) c.checked = AVec.growStorage c.release := by
  funext env v l; simp only [AVec.growStorage, builds]
@[builds] theorem AVec.tryReserveAdditionalBytes_build :
    AVec.tryReserveAdditionalBytes (A := A) (β := β) c.checked = AVec.tryReserveAdditionalBytes c.release := by
  funext env n; simp only [AVec.tryReserveAdditionalBytes, builds]
@[builds] theorem AVec.shrinkTo_build : AVec.shrinkTo (A := A) (β := β) c.checked = AVec.shrinkTo c.release := by
  funext env n b; simp only [AVec.shrinkTo, builds]
@[builds] theorem AVec.reserveForEmplace_build : AVec.reserveForEmplace (A := A) (β := β) c.checked = AVec.reserveForEmplace c.release := by
  funext env l; simp only [AVec.reserveForEmplace, builds]
@[builds] theorem AVec.pushWith_build : AVec.pushWith (A := A) (β := β) c.checked = AVec.pushWith c.release := by
  funext env l md; simp only [AVec.pushWith, builds]
@[builds] theorem AVec.insertWithUnchecked_build : AVec.insertWithUnchecked (A := A) (β := β) c.checked = AVec.insertWithUnchecked c.release := by
  funext env i l md; simp only [AVec.insertWithUnchecked, builds]
@[builds] theorem AVec.getUnchecked_build : AVec.getUnchecked (A := A) (β := β) c.checked = AVec.getUnchecked c.release := by
  funext v i; simp only [AVec.getUnchecked, builds]

theorem AVec.popIntoUnchecked_build {v : AVec A β} (h : v.len ≠ 0) (env : Env (Val A.ty β)) :
    AVec.popIntoUnchecked c.checked env v = AVec.popIntoUnchecked c.release env v := by
  unfold AVec.popIntoUnchecked
  rw [Exec.get_bind, Exec.get_bind]
  refine debugAssert_build (p := v.elems ≠ []) (fun e => h (by unfold AVec.len; rw [e]; rfl)) _ _ _ ?_
  simp only [builds]

theorem AVec.removeIntoUnchecked_build {v : AVec A β} {i : Nat} (h : i < v.len) (env : Env (Val A.ty β)) :
    AVec.removeIntoUnchecked c.checked env i v = AVec.removeIntoUnchecked c.release env i v := by
  unfold AVec.removeIntoUnchecked
  rw [Exec.get_bind, Exec.get_bind]
  refine debugAssert_build h _ _ _ ?_
  simp only [builds]

end

/-! ## Sized elements -/

section
variable {sz al : Nat} {β : Type}

@[builds] theorem SVec.capacity_build : SVec.capacity (sz := sz) (al := al) (β := β) c.checked = SVec.capacity c.release := rfl
@[builds] theorem SVec.maxSlots_build : SVec.maxSlots c.checked = SVec.maxSlots c.release := rfl
@[builds] theorem SVec.byteCapacity_build : SVec.byteCapacity (sz := sz) (al := al) (β := β) c.checked = SVec.byteCapacity c.release := rfl
@[builds] theorem SVec.byteLen_build : SVec.byteLen (sz := sz) (al := al) (β := β) c.checked = SVec.byteLen c.release := rfl
@[builds] theorem SVec.tryReserve_build : SVec.tryReserve (sz := sz) (al := al) (β := β) c.checked = SVec.tryReserve c.release := rfl
@[builds] theorem SVec.tryReserveAdditionalBytes_build :
    SVec.tryReserveAdditionalBytes (sz := sz) (al := al) (β := β) c.checked = SVec.tryReserveAdditionalBytes c.release := rfl
@[builds] theorem SVec.memmove_build : SVec.memmove (sz := sz) (al := al) (β := β) c.checked = SVec.memmove c.release := rfl
@[builds] theorem SVec.memwrite_build : SVec.memwrite (sz := sz) (al := al) (β := β) c.checked = SVec.memwrite c.release := rfl
@[builds] theorem SVec.setLen_build : SVec.setLen (sz := sz) (al := al) (β := β) c.checked = SVec.setLen c.release := rfl
@[builds] theorem SVec.copyOut_build : SVec.copyOut (sz := sz) (al := al) (β := β) c.checked = SVec.copyOut c.release := rfl
@[builds] theorem SVec.dropInPlace_build : SVec.dropInPlace (sz := sz) (al := al) (β := β) c.checked = SVec.dropInPlace c.release := rfl
@[builds] theorem SVec.pushWith_build : SVec.pushWith (sz := sz) (al := al) (β := β) c.checked = SVec.pushWith c.release := rfl
@[builds] theorem SVec.insertWithUnchecked_build :
    SVec.insertWithUnchecked (sz := sz) (al := al) (β := β) c.checked = SVec.insertWithUnchecked c.release := rfl

theorem SVec.popIntoUnchecked_build {v : SVec sz al β} (h : v.len ≠ 0) (env : Env (Val (sizedTy sz al) β)) :
    SVec.popIntoUnchecked c.checked env v = SVec.popIntoUnchecked c.release env v := by
  unfold SVec.popIntoUnchecked
  rw [Exec.get_bind, Exec.get_bind]
  exact debugAssert_build h _ _ _ rfl

theorem SVec.removeIntoUnchecked_build {v : SVec sz al β} {i : Nat} (h : i < v.len) (env : Env (Val (sizedTy sz al) β)) :
    SVec.removeIntoUnchecked c.checked env i v = SVec.removeIntoUnchecked c.release env i v := by
  unfold SVec.removeIntoUnchecked
  rw [Exec.get_bind, Exec.get_bind]
  exact debugAssert_build h _ _ _ rfl

end

end Verif
