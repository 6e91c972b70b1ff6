import Verif.Proofs.Builds

/-!
# Debug builds stop early, but otherwise do the same
-/

namespace Verif
variable {c : Cfg}

/-! ## Computations -/

/-- From every state, the debug build (`d`) does what the release build (`r`) does, or it panics. -/
def Exec.Within {σ α : Type} (d r : Exec σ α) : Prop := ∀ s, d s = r s ∨ ∃ s', d s = .panic s'

namespace Exec.Within
variable {σ τ α γ : Type}

theorem refl (m : Exec σ α) : m.Within m := fun _ => .inl rfl

theorem of_eq {d r : Exec σ α} (h : d = r) : d.Within r := h ▸ refl d

theorem bind {d r : Exec σ γ} {f g : γ → Exec σ α} (h : d.Within r) (h' : ∀ a, (f a).Within (g a)) : (d >>= f).Within (r >>= g) := by
  intro s
  rcases h s with h1 | ⟨t, h1⟩
  · cases hr : r s with
    | ok a t => rw [Exec.bind_ok (h1.trans hr), Exec.bind_ok hr]; exact h' a t
    | panic t => exact .inr ⟨t, Exec.bind_panic (h1.trans hr)⟩
    | abort => rw [Exec.bind_abort (h1.trans hr), Exec.bind_abort hr]; exact .inl rfl
    | ub => rw [Exec.bind_ub (h1.trans hr), Exec.bind_ub hr]; exact .inl rfl
  · exact .inr ⟨t, Exec.bind_panic h1⟩

theorem debugAssert (p : Prop) [Decidable p] :
    (Exec.debugAssert c.checked.debug p : Exec σ Unit).Within (Exec.debugAssert c.release.debug p) := by
  intro s
  by_cases h : p
  · rw [Exec.debugAssert_pos h, Exec.debugAssert_pos h]; exact .inl rfl
  · refine .inr ⟨s, ?_⟩
    unfold Exec.debugAssert
    exact if_pos ⟨rfl, h⟩

theorem ite {p : Prop} [Decidable p] {d d' r r' : Exec σ α} (h : d.Within r) (h' : d'.Within r') :
    (if p then d else d').Within (if p then r else r') := by
  split
  · exact h
  · exact h'

/-- If the debug build returns, the release build does the same. -/
theorem of_ok {d r : Exec σ α} (h : d.Within r) {s t : σ} {a : α} (hd : d s = .ok a t) : d s = r s := by
  rcases h s with h | ⟨t, h⟩
  · exact h
  · rw [hd] at h; cases h

end Exec.Within

/-! ## Implementations -/

/-- The implementation in a debug build (`D`) and in a release build (`R`). -/
structure Provider.Builds {V : Type} {T : UTy} {β : Type} (D R : Provider V T β) : Prop where
  capacity : D.capacity = R.capacity
  byteLen : D.byteLen = R.byteLen
  byteCapacity : D.byteCapacity = R.byteCapacity
  len : D.len = R.len
  alignNew : D.alignNew = R.alignNew
  tryReserve : D.tryReserve = R.tryReserve
  tryReserveExact : D.tryReserveExact = R.tryReserveExact
  addBytes : D.tryReserveAdditionalBytesAlign = R.tryReserveAdditionalBytesAlign
  pushWith : D.pushWith = R.pushWith
  insertWith : D.insertWithUnchecked = R.insertWithUnchecked
  get : D.getUnchecked = R.getUnchecked
  shrinkTo : ∀ env n b a, (D.shrinkTo env n b a).Within (R.shrinkTo env n b a)
  push : ∀ x, (D.pushUnchecked x).Within (R.pushUnchecked x)
  insert : ∀ i x, (D.insertUnchecked i x).Within (R.insertUnchecked i x)
  pop : ∀ env v, R.len v ≠ 0 → D.popIntoUnchecked env v = R.popIntoUnchecked env v
  remove : ∀ env v i, i < R.len v → D.removeIntoUnchecked env i v = R.removeIntoUnchecked env i v

structure Machine.Builds {V : Type} {T : UTy} {β : Type} (D R : Machine V T β) : Prop where
  P : D.P.Builds R.P
  read : D.read = R.read
  store : D.store = R.store
  calls : D.calls = R.calls
  drop : D.drop = R.drop
  drops : D.drops = R.drops
  note : D.note = R.note

section
variable {β : Type} [Inhabited β]

theorem UVec.shrinkCommit_within {T : UTy} (env : Env (Val T β)) (n b : Nat) (f : Bool) :
    (UVec.shrinkCommit c.checked env n b f).Within (UVec.shrinkCommit c.release env n b f) := by
  have h1 : ∀ b, (UVec.realignUp c.checked b : Exec (UVec T β) Unit).Within (UVec.realignUp c.release b) := by
    intro b
    unfold UVec.realignUp
    simp only [builds]
    refine .bind (.refl _) fun _ => .bind (.debugAssert _) fun _ => .refl _
  have h2 : ∀ b, (UVec.realigner c.checked b : Exec (UVec T β) Unit).Within (UVec.realigner c.release b) := by
    intro b
    unfold UVec.realigner
    refine .bind (.refl _) fun _ => .bind (.refl _) fun _ => .bind (h1 _) fun _ => .refl _
  have h3 : ∀ l n a, (UVec.shrinkBlock c.checked env l n a f).Within (UVec.shrinkBlock c.release env l n a f) := by
    intro l n a
    unfold UVec.shrinkBlock
    simp only [builds]
    refine .bind (.refl _) fun _ => .bind (.refl _) fun _ => .bind (.refl _) fun o => ?_
    cases o with
    | none => exact .ite (.bind (h2 _) fun _ => .refl _) (.refl _)
    | some t => exact .refl _
  unfold UVec.shrinkCommit
  simp only [builds]
  refine .bind (.refl _) fun _ => .bind (.refl _) fun _ => .bind (.refl _) fun _ => .bind (.debugAssert _) fun _ =>
    .ite (.bind (.refl _) fun _ => .ite (.bind (h3 _ _ _) fun _ => .refl _) (.refl _)) (.refl _)

theorem UVec.shrinkTo_within {T : UTy} (env : Env (Val T β)) (n b a : Nat) :
    (UVec.shrinkTo c.checked env n b a).Within (UVec.shrinkTo c.release env n b a) := by
  have h1 : ∀ b, (UVec.realignDown c.checked b : Exec (UVec T β) Unit).Within (UVec.realignDown c.release b) := by
    intro b
    unfold UVec.realignDown
    simp only [builds]
    exact .bind (.refl _) fun _ => .bind (.debugAssert _) fun _ => .refl _
  unfold UVec.shrinkTo
  simp only [builds]
  exact .bind (.refl _) fun _ => .bind (.refl _) fun _ => .bind (.refl _) fun _ => .bind (.debugAssert _) fun _ =>
    .ite (.bind (h1 _) fun _ => UVec.shrinkCommit_within _ _ _ _) (UVec.shrinkCommit_within _ _ _ _)

theorem unaligned_builds (T : UTy) : (unalignedM (β := β) c.checked T).Builds (unalignedM c.release T) where
  P :=
    { capacity := rfl
      byteLen := by simp only [unalignedM, unalignedP, builds]
      byteCapacity := rfl
      len := rfl
      alignNew := rfl
      tryReserve := by simp only [unalignedM, unalignedP, builds]
      tryReserveExact := by simp only [unalignedM, unalignedP, builds]
      addBytes := by simp only [unalignedM, unalignedP, builds]
      pushWith := by simp only [unalignedM, unalignedP, builds]
      insertWith := by simp only [unalignedM, unalignedP, builds]
      get := by simp only [unalignedM, unalignedP, builds]
      shrinkTo := UVec.shrinkTo_within
      push := fun x => by
        show (UVec.pushUnchecked c.checked x).Within (UVec.pushUnchecked c.release x)
        unfold UVec.pushUnchecked
        simp only [builds]
        exact .bind (.refl _) fun _ => .bind (.debugAssert _) fun _ => .bind (.refl _) fun _ => .bind (.debugAssert _) fun _ =>
          .bind (.debugAssert _) fun _ => .refl _
      insert := fun i x => by
        show (UVec.insertUnchecked c.checked i x).Within (UVec.insertUnchecked c.release i x)
        unfold UVec.insertUnchecked
        simp only [builds]
        exact .bind (.refl _) fun _ => .bind (.debugAssert _) fun _ => .bind (.debugAssert _) fun _ => .bind (.refl _) fun _ =>
          .bind (.refl _) fun _ => .bind (.debugAssert _) fun _ => .bind (.debugAssert _) fun _ => .refl _
      pop := fun env _ h => UVec.popIntoUnchecked_build h env
      remove := fun env _ _ h => UVec.removeIntoUnchecked_build h env }
  read := rfl
  store := rfl
  calls := by simp only [unalignedM, builds]
  drop := by simp only [unalignedM, builds]
  drops := rfl
  note := rfl

theorem aligned_builds (A : ATy) : (alignedM (β := β) c.checked A).Builds (alignedM c.release A) where
  P :=
    { capacity := rfl
      byteLen := rfl
      byteCapacity := rfl
      len := rfl
      alignNew := rfl
      tryReserve := by simp only [alignedM, alignedP, builds]
      tryReserveExact := by simp only [alignedM, alignedP, builds]
      addBytes := by simp only [alignedM, alignedP, builds]
      pushWith := by simp only [alignedM, alignedP, builds]
      insertWith := by simp only [alignedM, alignedP, builds]
      get := by simp only [alignedM, alignedP, builds]
      shrinkTo := fun env n b a => .of_eq (by simp only [alignedM, alignedP, builds])
      push := fun x => by
        show (AVec.pushUnchecked c.checked x).Within (AVec.pushUnchecked c.release x)
        unfold AVec.pushUnchecked
        simp only [builds]
        exact .bind (.refl _) fun _ => .bind (.refl _) fun _ => .bind (.debugAssert _) fun _ => .bind (.debugAssert _) fun _ => .refl _
      insert := fun i x => by
        show (AVec.insertUnchecked c.checked i x).Within (AVec.insertUnchecked c.release i x)
        unfold AVec.insertUnchecked
        simp only [builds]
        exact .bind (.refl _) fun _ => .bind (.refl _) fun _ => .bind (.debugAssert _) fun _ => .bind (.debugAssert _) fun _ => .refl _
      pop := fun env _ h => AVec.popIntoUnchecked_build h env
      remove := fun env _ _ h => AVec.removeIntoUnchecked_build h env }
  read := rfl
  store := rfl
  calls := by simp only [alignedM, builds]
  drop := by simp only [alignedM, builds]
  drops := rfl
  note := rfl

omit [Inhabited β] in
theorem sized_builds (sz al : Nat) : (sizedM (β := β) c.checked sz al).Builds (sizedM c.release sz al) where
  P :=
    { capacity := rfl
      byteLen := rfl
      byteCapacity := rfl
      len := rfl
      alignNew := rfl
      tryReserve := by simp only [sizedM, sizedP, builds]
      tryReserveExact := by simp only [sizedM, sizedP, builds]
      addBytes := by simp only [sizedM, sizedP, builds]
      pushWith := by simp only [sizedM, sizedP, builds]
      insertWith := by simp only [sizedM, sizedP, builds]
      get := rfl
      shrinkTo := fun env n b a => .refl _
      push := fun x => by
        show (SVec.pushUnchecked c.checked x).Within (SVec.pushUnchecked c.release x)
        unfold SVec.pushUnchecked
        exact .bind (.refl _) fun _ => .bind (.debugAssert _) fun _ => .of_eq rfl
      insert := fun i x => by
        show (SVec.insertUnchecked c.checked i x).Within (SVec.insertUnchecked c.release i x)
        unfold SVec.insertUnchecked
        exact .bind (.refl _) fun _ => .bind (.debugAssert _) fun _ => .of_eq rfl
      pop := fun env _ h => SVec.popIntoUnchecked_build h env
      remove := fun env _ _ h => SVec.removeIntoUnchecked_build h env }
  read := rfl
  store := rfl
  calls := rfl
  drop := rfl
  drops := rfl
  note := rfl

end
end Verif
