import Verif.Proofs.Meter

/-!
# The meter changes nothing: the three implementations
-/

namespace Verif

/-- One step of a metered function and of the function it is made from. -/
macro "over_step" : tactic => `(tactic| first
  | exact Exec.Over.unit
  | exact Exec.Over.pure rfl
  | exact Exec.Over.panic
  | exact Exec.Over.orUb _
  | exact Exec.Over.require _
  | exact Exec.Over.assert _
  | exact Exec.Over.debugAssert _ _
  | exact Exec.Over.lift _
  | exact Exec.Over.paying _ _
  | exact unwrapReserve_over _
  | refine Exec.Over.count ?_
  | (refine Exec.Over.bindEq Exec.Over.look ?_; intro _)
  | (refine Exec.Over.bindEq (Exec.Over.orUb _) ?_; intro _)
  | (refine Exec.Over.bindEq (Exec.Over.require _) ?_; intro _)
  | (refine Exec.Over.bindEq (Exec.Over.assert _) ?_; intro _)
  | (refine Exec.Over.bindEq (Exec.Over.debugAssert _ _) ?_; intro _)
  | (refine Exec.Over.bindEq (Exec.Over.paying _ _) ?_; intro _)
  | (refine Exec.Over.bindEq (Exec.Over.lift _) ?_; intro _))

namespace UVec.Metered
variable {T : UTy} {β : Type} [Inhabited β] {c : Cfg}

omit [Inhabited β] in
theorem tryReserve_over (env : Env (Val T β)) (n : Nat) : (tryReserve c env n).Over Prod.fst Eq (UVec.tryReserve c env n) := by
  unfold tryReserve UVec.tryReserve
  refine Exec.Over.bindEq Exec.Over.look fun v => ?_
  cases stdReserve c.infoMax v.elemsCap v.len n env.infoGrow <;> dsimp only <;> repeat over_step

omit [Inhabited β] in
theorem realignUp_over (a : Nat) : (realignUp (T := T) (β := β) c a).Over Prod.fst Eq (UVec.realignUp c a) := by
  unfold realignUp UVec.realignUp
  repeat over_step

theorem reserveCommit_over (env : Env (Val T β)) (b a k : Nat) :
    (reserveCommit c env b a k).Over Prod.fst Eq (UVec.reserveCommit c env b a k) := by
  unfold reserveCommit UVec.reserveCommit
  repeat over_step
  split
  · over_step
  refine Exec.Over.ite (Exec.Over.ite ?_ ?_) (by over_step)
  · repeat over_step
    split
    · over_step
    · repeat over_step
      refine Exec.Over.ite ?_ (by over_step)
      refine Exec.Over.ite ?_ ?_
      · exact Exec.Over.bind (realignUp_over _) fun _ _ _ => by repeat over_step
      · repeat over_step
  · repeat over_step

theorem tryReserveAdditionalBytesAlign_over (env : Env (Val T β)) (b a : Nat) :
    (tryReserveAdditionalBytesAlign c env b a).Over Prod.fst Eq (UVec.tryReserveAdditionalBytesAlign c env b a) := by
  unfold tryReserveAdditionalBytesAlign UVec.tryReserveAdditionalBytesAlign
  repeat over_step
  refine Exec.Over.ite ?_ (Exec.Over.ite (by over_step) ?_)
  · repeat over_step
    split
    · over_step
    · over_step
      exact reserveCommit_over _ _ _ _
  · over_step
    exact reserveCommit_over _ _ _ _

omit [Inhabited β] in
omit [Inhabited β] in
theorem infoInsert_over (i : Nat) (e : Info T.Meta) : (infoInsert (β := β) i e).Over Prod.fst Eq (UVec.infoInsert i e) :=
  fun _ => Exec.Over.paying _ _ _

omit [Inhabited β] in
theorem adjustFrom_over (i : Nat) (f : List (Info T.Meta) → Option (List (Info T.Meta))) :
    (adjustFrom (β := β) i f).Over Prod.fst Eq (UVec.adjustFrom i f) :=
  fun _ => Exec.Over.paying _ _ _

theorem insertUnchecked_over (i : Nat) (x : Val T β) : (insertUnchecked c i x).Over Prod.fst Eq (UVec.insertUnchecked c i x) := by
  unfold insertUnchecked UVec.insertUnchecked memmove memwrite
  repeat over_step
  refine Exec.Over.bind (adjustFrom_over _ _) fun _ _ _ => ?_
  over_step
  exact infoInsert_over _ _

theorem pushUnchecked_over (x : Val T β) : (pushUnchecked c x).Over Prod.fst Eq (UVec.pushUnchecked c x) := by
  unfold pushUnchecked UVec.pushUnchecked memwrite infoPush
  repeat over_step

theorem reserveForEmplace_over (env : Env (Val T β)) (l : Layout) :
    (reserveForEmplace c env l).Over Prod.fst Eq (UVec.reserveForEmplace c env l) := by
  refine Exec.Over.bind (tryReserve_over _ _) ?_
  rintro r _ rfl
  cases r with
  | error e => exact unwrapReserve_over _
  | ok u => exact Provider.Over.unwrap (tryReserveAdditionalBytesAlign_over _ _ _)

theorem pushWith_over (env : Env (Val T β)) (l : Layout) (md : T.Meta) :
    Exec.Over Prod.fst (Prepared.Over Prod.fst) (pushWith c env l md) (UVec.pushWith c env l md) := by
  unfold pushWith UVec.pushWith memwrite infoPush
  over_step
  refine Exec.Over.bind (reserveForEmplace_over _ _) fun _ _ _ => ?_
  repeat over_step
  refine Exec.Over.pure ⟨fun bs => ?_, ?_, ?_⟩ <;> repeat over_step

theorem insertWithUnchecked_over (env : Env (Val T β)) (i : Nat) (l : Layout) (md : T.Meta) :
    Exec.Over Prod.fst (Prepared.Over Prod.fst) (insertWithUnchecked c env i l md) (UVec.insertWithUnchecked c env i l md) := by
  unfold insertWithUnchecked UVec.insertWithUnchecked memwrite memmove
  over_step
  refine Exec.Over.bind (reserveForEmplace_over _ _) fun _ _ _ => ?_
  repeat over_step
  refine Exec.Over.pure ⟨fun bs => ?_, ?_, ?_⟩
  · repeat over_step
  · refine Exec.Over.bind (adjustFrom_over _ _) fun _ _ _ => ?_
    over_step
    exact infoInsert_over _ _
  · repeat over_step

omit [Inhabited β] in
theorem copyOut_over (p off n : Nat) (s : UVec T β × Nat) : (copyOut p off n s).Over Prod.fst (UVec.copyOut p off n s.1) := by
  unfold copyOut UVec.copyOut
  cases s.1.heap.read p off n
  · trivial
  · exact ⟨rfl, rfl⟩

theorem popIntoUnchecked_over (env : Env (Val T β)) :
    Exec.Over Prod.fst (Started.Over Prod.fst) (popIntoUnchecked c env) (UVec.popIntoUnchecked c env) := by
  unfold popIntoUnchecked UVec.popIntoUnchecked
  repeat over_step
  exact Exec.Over.pure ⟨rfl, rfl, copyOut_over _ _ _, Exec.Over.lift _, Exec.Over.unit⟩

theorem removeIntoUnchecked_over (env : Env (Val T β)) (i : Nat) :
    Exec.Over Prod.fst (Started.Over Prod.fst) (removeIntoUnchecked c env i) (UVec.removeIntoUnchecked c env i) := by
  unfold removeIntoUnchecked UVec.removeIntoUnchecked memmove
  repeat over_step
  refine Exec.Over.pure ⟨rfl, rfl, copyOut_over _ _ _, Exec.Over.lift _, ?_⟩
  repeat over_step
  refine Exec.Over.bind (adjustFrom_over _ _) fun _ _ _ => ?_
  repeat over_step

end UVec.Metered

namespace AVec.Metered
variable {A : ATy} {β : Type} [Inhabited β] {c : Cfg}

omit [Inhabited β] in
theorem tryReserve_over (env : Env (Val A.ty β)) (n : Nat) : (tryReserve c env n).Over Prod.fst Eq (AVec.tryReserve c env n) := by
  unfold tryReserve AVec.tryReserve
  refine Exec.Over.bindEq Exec.Over.look fun v => ?_
  cases stdReserve c.infoMax v.elemsCap v.len n env.infoGrow <;> dsimp only <;> repeat over_step

theorem tryReserveAdditionalBytes_over (env : Env (Val A.ty β)) (b : Nat) :
    (tryReserveAdditionalBytes c env b).Over Prod.fst Eq (AVec.tryReserveAdditionalBytes c env b) := by
  unfold tryReserveAdditionalBytes AVec.tryReserveAdditionalBytes
  refine Exec.Over.bindEq Exec.Over.look fun v => Exec.Over.ite ?_ (by over_step)
  cases (checkedAdd c v.byteCap b).bind (VS.new c A.ALIGN) <;> dsimp only
  · over_step
  · repeat over_step
    split <;> repeat over_step

omit [Inhabited β] in
omit [Inhabited β] in
theorem infoInsert_over (i : Nat) (e : Info A.R) : (infoInsert (β := β) i e).Over Prod.fst Eq (AVec.infoInsert i e) :=
  fun _ => Exec.Over.paying _ _ _

omit [Inhabited β] in
theorem adjustFrom_over (i : Nat) (f : List (Info A.R) → Option (List (Info A.R))) :
    (adjustFrom (β := β) i f).Over Prod.fst Eq (AVec.adjustFrom i f) :=
  fun _ => Exec.Over.paying _ _ _

theorem insertUnchecked_over (i : Nat) (x : Val A.ty β) : (insertUnchecked c i x).Over Prod.fst Eq (AVec.insertUnchecked c i x) := by
  unfold insertUnchecked AVec.insertUnchecked memmove memwrite
  repeat over_step
  refine Exec.Over.bind (adjustFrom_over _ _) fun _ _ _ => ?_
  over_step
  exact infoInsert_over _ _

theorem pushUnchecked_over (x : Val A.ty β) : (pushUnchecked c x).Over Prod.fst Eq (AVec.pushUnchecked c x) := by
  unfold pushUnchecked AVec.pushUnchecked memwrite infoPush
  repeat over_step

theorem reserveForEmplace_over (env : Env (Val A.ty β)) (l : Layout) :
    (reserveForEmplace c env l).Over Prod.fst Eq (AVec.reserveForEmplace c env l) := by
  refine Exec.Over.bind (tryReserve_over _ _) ?_
  rintro r _ rfl
  cases r with
  | error e => exact unwrapReserve_over _
  | ok u => exact Provider.Over.unwrap (tryReserveAdditionalBytes_over _ _)

theorem pushWith_over (env : Env (Val A.ty β)) (l : Layout) (md : A.ty.Meta) :
    Exec.Over Prod.fst (Prepared.Over Prod.fst) (pushWith c env l md) (AVec.pushWith c env l md) := by
  unfold pushWith AVec.pushWith memwrite infoPush
  over_step
  refine Exec.Over.bind (reserveForEmplace_over _ _) fun _ _ _ => ?_
  repeat over_step
  refine Exec.Over.pure ⟨fun bs => ?_, ?_, ?_⟩ <;> repeat over_step

theorem insertWithUnchecked_over (env : Env (Val A.ty β)) (i : Nat) (l : Layout) (md : A.ty.Meta) :
    Exec.Over Prod.fst (Prepared.Over Prod.fst) (insertWithUnchecked c env i l md) (AVec.insertWithUnchecked c env i l md) := by
  unfold insertWithUnchecked AVec.insertWithUnchecked memwrite memmove
  over_step
  refine Exec.Over.bind (reserveForEmplace_over _ _) fun _ _ _ => ?_
  repeat over_step
  refine Exec.Over.pure ⟨fun bs => ?_, ?_, ?_⟩
  · repeat over_step
  · refine Exec.Over.bind (adjustFrom_over _ _) fun _ _ _ => ?_
    over_step
    exact infoInsert_over _ _
  · repeat over_step

omit [Inhabited β] in
theorem copyOut_over (p off n : Nat) (s : AVec A β × Nat) : (copyOut p off n s).Over Prod.fst (AVec.copyOut p off n s.1) := by
  unfold copyOut AVec.copyOut
  cases s.1.heap.read p off n
  · trivial
  · exact ⟨rfl, rfl⟩

theorem popIntoUnchecked_over (env : Env (Val A.ty β)) :
    Exec.Over Prod.fst (Started.Over Prod.fst) (popIntoUnchecked c env) (AVec.popIntoUnchecked c env) := by
  unfold popIntoUnchecked AVec.popIntoUnchecked
  repeat over_step
  exact Exec.Over.pure ⟨rfl, rfl, copyOut_over _ _ _, Exec.Over.lift _, Exec.Over.unit⟩

theorem removeIntoUnchecked_over (env : Env (Val A.ty β)) (i : Nat) :
    Exec.Over Prod.fst (Started.Over Prod.fst) (removeIntoUnchecked c env i) (AVec.removeIntoUnchecked c env i) := by
  unfold removeIntoUnchecked AVec.removeIntoUnchecked memmove
  repeat over_step
  refine Exec.Over.pure ⟨rfl, rfl, copyOut_over _ _ _, Exec.Over.lift _, ?_⟩
  repeat over_step
  refine Exec.Over.bind (adjustFrom_over _ _) fun _ _ _ => ?_
  repeat over_step

end AVec.Metered

namespace SVec.Metered
variable {sz al : Nat} {β : Type} [Inhabited β] {c : Cfg}

omit [Inhabited β] in
theorem tryReserve_over (env : Env (Val (sizedTy sz al) β)) (n : Nat) :
    (tryReserve c env n).Over Prod.fst Eq (SVec.tryReserve c env n) := by
  unfold tryReserve SVec.tryReserve
  refine Exec.Over.bindEq Exec.Over.look fun v => ?_
  cases stdReserve (maxSlots c sz) (v.capacity c) v.len n env.infoGrow <;> dsimp only <;> repeat over_step

theorem divCeil_over {σ' σ : Type} {π : σ' → σ} (x y : Nat) : (SVec.divCeil x y : Exec σ' Nat).Over π Eq (SVec.divCeil x y) :=
  Exec.Over.bind (Exec.Over.assert _) fun _ _ _ => Exec.Over.pure rfl

omit [Inhabited β] in
theorem tryReserveAdditionalBytes_over (env : Env (Val (sizedTy sz al) β)) (b : Nat) :
    (tryReserveAdditionalBytes c env b).Over Prod.fst Eq (SVec.tryReserveAdditionalBytes c env b) := by
  unfold tryReserveAdditionalBytes SVec.tryReserveAdditionalBytes
  repeat over_step
  refine Exec.Over.bind (divCeil_over _ _) ?_
  rintro _ _ rfl
  exact tryReserve_over _ _

omit [Inhabited β] in
theorem insertUnchecked_over (i : Nat) (x : Val (sizedTy sz al) β) :
    (insertUnchecked c i x).Over Prod.fst Eq (SVec.insertUnchecked c i x) := by
  unfold insertUnchecked SVec.insertUnchecked memmove memwrite
  repeat over_step

omit [Inhabited β] in
theorem pushUnchecked_over (x : Val (sizedTy sz al) β) : (pushUnchecked c x).Over Prod.fst Eq (SVec.pushUnchecked c x) := by
  unfold pushUnchecked SVec.pushUnchecked memwrite
  repeat over_step

omit [Inhabited β] in
theorem pushWith_over (env : Env (Val (sizedTy sz al) β)) (l : Layout) (md : Unit) :
    Exec.Over Prod.fst (Prepared.Over Prod.fst) (pushWith c env l md) (SVec.pushWith c env l md) := by
  unfold pushWith SVec.pushWith memwrite
  refine Exec.Over.bind (tryReserve_over _ _) ?_
  rintro r _ rfl
  refine Exec.Over.bind (unwrapReserve_over _) fun _ _ _ => ?_
  repeat over_step
  refine Exec.Over.pure ⟨fun bs => ?_, ?_, ?_⟩ <;> repeat over_step

omit [Inhabited β] in
theorem insertWithUnchecked_over (env : Env (Val (sizedTy sz al) β)) (i : Nat) (l : Layout) (md : Unit) :
    Exec.Over Prod.fst (Prepared.Over Prod.fst) (insertWithUnchecked c env i l md) (SVec.insertWithUnchecked c env i l md) := by
  unfold insertWithUnchecked SVec.insertWithUnchecked memwrite memmove
  refine Exec.Over.bind (tryReserve_over _ _) ?_
  rintro r _ rfl
  refine Exec.Over.bind (unwrapReserve_over _) fun _ _ _ => ?_
  repeat over_step
  refine Exec.Over.pure ⟨fun bs => ?_, ?_, ?_⟩ <;> repeat over_step

omit [Inhabited β] in
theorem copyOut_over (i : Nat) (s : SVec sz al β × Nat) : (copyOut c i s).Over Prod.fst (SVec.copyOut c i s.1) := by
  unfold copyOut SVec.copyOut
  split
  · exact ⟨rfl, rfl⟩
  · trivial

omit [Inhabited β] in
theorem popIntoUnchecked_over (env : Env (Val (sizedTy sz al) β)) :
    Exec.Over Prod.fst (Started.Over Prod.fst) (popIntoUnchecked c env) (SVec.popIntoUnchecked c env) := by
  unfold popIntoUnchecked SVec.popIntoUnchecked
  repeat over_step
  exact Exec.Over.pure ⟨rfl, rfl, copyOut_over _, Exec.Over.lift _, Exec.Over.unit⟩

omit [Inhabited β] in
theorem removeIntoUnchecked_over (env : Env (Val (sizedTy sz al) β)) (i : Nat) :
    Exec.Over Prod.fst (Started.Over Prod.fst) (removeIntoUnchecked c env i) (SVec.removeIntoUnchecked c env i) := by
  unfold removeIntoUnchecked SVec.removeIntoUnchecked memmove
  repeat over_step
  refine Exec.Over.pure ⟨rfl, rfl, copyOut_over _, Exec.Over.lift _, ?_⟩
  repeat over_step

end SVec.Metered

section
variable {β : Type} [Inhabited β] {c : Cfg}

theorem unaligned_over (T : UTy) : (unalignedMetered (β := β) c T).Over Prod.fst (unalignedM c T) where
  P :=
    { newAlign1 := rfl
      newAlignPtr := rfl
      capacity := fun _ => rfl
      byteLen := fun _ => rfl
      byteCapacity := fun _ => rfl
      align := fun _ => rfl
      len := fun _ => rfl
      alignNew := rfl
      tryReserve := UVec.Metered.tryReserve_over
      tryReserveExact := UVec.Metered.tryReserve_over
      tryReserveAdditionalBytesAlign := UVec.Metered.tryReserveAdditionalBytesAlign_over
      shrinkTo := fun _ _ _ _ => Exec.Over.lift _
      insertUnchecked := UVec.Metered.insertUnchecked_over
      insertWithUnchecked := UVec.Metered.insertWithUnchecked_over
      removeIntoUnchecked := UVec.Metered.removeIntoUnchecked_over
      pushUnchecked := UVec.Metered.pushUnchecked_over
      pushWith := UVec.Metered.pushWith_over
      popIntoUnchecked := UVec.Metered.popIntoUnchecked_over
      getUnchecked := fun _ _ => rfl }
  read _ _ := rfl
  store _ _ := Exec.Over.paying _ _
  calls _ _ := rfl
  drop _ := Exec.Over.lift _
  drops _ := rfl
  note _ _ := rfl

theorem aligned_over (A : ATy) : (alignedMetered (β := β) c A).Over Prod.fst (alignedM c A) where
  P :=
    { newAlign1 := rfl
      newAlignPtr := rfl
      capacity := fun _ => rfl
      byteLen := fun _ => rfl
      byteCapacity := fun _ => rfl
      align := fun _ => rfl
      len := fun _ => rfl
      alignNew := rfl
      tryReserve := AVec.Metered.tryReserve_over
      tryReserveExact := AVec.Metered.tryReserve_over
      tryReserveAdditionalBytesAlign := fun env b _ => AVec.Metered.tryReserveAdditionalBytes_over env b
      shrinkTo := fun _ _ _ _ => Exec.Over.lift _
      insertUnchecked := AVec.Metered.insertUnchecked_over
      insertWithUnchecked := AVec.Metered.insertWithUnchecked_over
      removeIntoUnchecked := AVec.Metered.removeIntoUnchecked_over
      pushUnchecked := AVec.Metered.pushUnchecked_over
      pushWith := AVec.Metered.pushWith_over
      popIntoUnchecked := AVec.Metered.popIntoUnchecked_over
      getUnchecked := fun _ _ => rfl }
  read _ _ := rfl
  store _ _ := Exec.Over.paying _ _
  calls _ _ := rfl
  drop _ := Exec.Over.lift _
  drops _ := rfl
  note _ _ := rfl

omit [Inhabited β] in
theorem sized_over (sz al : Nat) : (sizedMetered (β := β) c sz al).Over Prod.fst (sizedM c sz al) where
  P :=
    { newAlign1 := rfl
      newAlignPtr := rfl
      capacity := fun _ => rfl
      byteLen := fun _ => rfl
      byteCapacity := fun _ => rfl
      align := fun _ => rfl
      len := fun _ => rfl
      alignNew := rfl
      tryReserve := SVec.Metered.tryReserve_over
      tryReserveExact := SVec.Metered.tryReserve_over
      tryReserveAdditionalBytesAlign := fun env b _ => SVec.Metered.tryReserveAdditionalBytes_over env b
      shrinkTo := fun _ _ _ _ => Exec.Over.lift _
      insertUnchecked := SVec.Metered.insertUnchecked_over
      insertWithUnchecked := SVec.Metered.insertWithUnchecked_over
      removeIntoUnchecked := SVec.Metered.removeIntoUnchecked_over
      pushUnchecked := SVec.Metered.pushUnchecked_over
      pushWith := SVec.Metered.pushWith_over
      popIntoUnchecked := SVec.Metered.popIntoUnchecked_over
      getUnchecked := fun _ _ => rfl }
  read _ _ := rfl
  store _ _ := Exec.Over.paying _ _
  calls _ _ := rfl
  drop _ := Exec.Over.lift _
  drops _ := rfl
  note _ _ := rfl

end
end Verif
