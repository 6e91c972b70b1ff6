import Verif.Model.Meter

/-!
# The meter changes nothing: lemmas
-/

namespace Verif

/-- Outcomes that differ only in what `π` forgets about the state. -/
def Res.Over {σ' σ α' α : Type} (π : σ' → σ) (R : α' → α → Prop) : Res σ' α' → Res σ α → Prop
  | .ok a' s', .ok a s => π s' = s ∧ R a' a
  | .panic s', .panic s => π s' = s
  | .abort, .abort => True
  | .ub, .ub => True
  | _, _ => False

/-- `m'` does what `m` does, on states that carry more. -/
def Exec.Over {σ' σ α' α : Type} (π : σ' → σ) (R : α' → α → Prop) (m' : Exec σ' α') (m : Exec σ α) : Prop :=
  ∀ s', (m' s').Over π R (m (π s'))

namespace Exec.Over
variable {σ' σ τ' τ α' α γ' γ : Type} {π : σ' → σ} {ρ : τ' → τ} {R : α' → α → Prop} {Q : γ' → γ → Prop}

theorem mono {R' : α' → α → Prop} {m' : Exec σ' α'} {m : Exec σ α} (h : m'.Over π R m) (hR : ∀ a' a, R a' a → R' a' a) :
    m'.Over π R' m := by
  intro s'
  have := h s'
  revert this
  cases m' s' <;> cases m (π s') <;> simp only [Res.Over, imp_self]
  exact fun ⟨h1, h2⟩ => ⟨h1, hR _ _ h2⟩

theorem bind {m' : Exec σ' α'} {m : Exec σ α} {f' : α' → Exec σ' γ'} {f : α → Exec σ γ} (h : m'.Over π R m)
    (hf : ∀ a' a, R a' a → (f' a').Over π Q (f a)) : (m' >>= f').Over π Q (m >>= f) := by
  intro s'
  have := h s'
  revert this
  rw [Exec.bind_apply, Exec.bind_apply]
  cases m' s' <;> cases m (π s') <;> simp only [Res.Over, imp_self, false_implies]
  rintro ⟨rfl, hR⟩
  exact hf _ _ hR _

theorem bindEq {m' : Exec σ' α} {m : Exec σ α} {f' : α → Exec σ' γ'} {f : α → Exec σ γ} (h : m'.Over π Eq m)
    (hf : ∀ a, (f' a).Over π Q (f a)) : (m' >>= f').Over π Q (m >>= f) := bind h fun a' _ e => e ▸ hf a'

theorem pure {a' : α'} {a : α} (h : R a' a) : (Pure.pure a' : Exec σ' α').Over π R (Pure.pure a) := fun _ => ⟨rfl, h⟩
theorem unit : (Pure.pure () : Exec σ' Unit).Over π Eq (Pure.pure ()) := pure rfl
theorem get : (Exec.get : Exec σ' σ').Over π (fun s' s => π s' = s) Exec.get := fun _ => ⟨rfl, rfl⟩
theorem panic : (Exec.panic : Exec σ' α').Over π R Exec.panic := fun _ => rfl
theorem abort : (Exec.abort : Exec σ' α').Over π R Exec.abort := fun _ => trivial

theorem orUb (o : Option α) : (Exec.orUb o : Exec σ' α).Over π Eq (Exec.orUb o) := by
  cases o
  · exact fun _ => trivial
  · exact fun _ => ⟨rfl, rfl⟩

theorem require (p : Prop) [Decidable p] : (Exec.require p : Exec σ' Unit).Over π Eq (Exec.require p) := by
  intro s; unfold Exec.require; split
  · exact ⟨rfl, rfl⟩
  · trivial

theorem assert (p : Prop) [Decidable p] : (Exec.assert p : Exec σ' Unit).Over π Eq (Exec.assert p) := by
  intro s; unfold Exec.assert; split
  · exact ⟨rfl, rfl⟩
  · exact rfl

theorem debugAssert (b : Bool) (p : Prop) [Decidable p] : (Exec.debugAssert b p : Exec σ' Unit).Over π Eq (Exec.debugAssert b p) := by
  intro s; unfold Exec.debugAssert; split
  · exact rfl
  · exact ⟨rfl, rfl⟩

theorem modify {f' : σ' → σ'} {f : σ → σ} (h : ∀ s', π (f' s') = f (π s')) :
    (Exec.modify f' : Exec σ' Unit).Over π Eq (Exec.modify f) := fun s => ⟨h s, rfl⟩

theorem ite {p : Prop} [Decidable p] {m' n' : Exec σ' α'} {m n : Exec σ α} (h : m'.Over π R m) (h' : n'.Over π R n) :
    (if p then m' else n').Over π R (if p then m else n) := by
  split
  · exact h
  · exact h'

theorem onUnwind {m' : Exec σ' α'} {m : Exec σ α} {g' : Exec σ' Unit} {g : Exec σ Unit} (h : m'.Over π R m) (hg : g'.Over π Eq g) :
    (Exec.onUnwind m' g').Over π R (Exec.onUnwind m g) := by
  intro s'
  have := h s'
  revert this
  unfold Exec.onUnwind
  cases m' s' <;> cases m (π s') <;> simp only [Res.Over, imp_self, false_implies]
  rintro rfl
  rename_i t
  have := hg t
  revert this
  cases g' t <;> cases g (π t) <;> simp +contextual [Res.Over]

theorem liftL {m' : Exec σ' α'} {m : Exec σ α} (h : m'.Over π R m) :
    (Verif.liftL m' : Exec (σ' × τ') α').Over (Prod.map π ρ) R (Verif.liftL m) := by
  rintro ⟨s', t'⟩
  have := h s'
  revert this
  unfold Verif.liftL
  dsimp only [Prod.map]
  cases m' s' <;> cases m (π s') <;> simp +contextual [Res.Over]

theorem liftR {m' : Exec τ' α'} {m : Exec τ α} (h : m'.Over ρ R m) :
    (Verif.liftR m' : Exec (σ' × τ') α').Over (Prod.map π ρ) R (Verif.liftR m) := by
  rintro ⟨s', t'⟩
  have := h t'
  revert this
  unfold Verif.liftR
  dsimp only [Prod.map]
  cases m' t' <;> cases m (ρ t') <;> simp +contextual [Res.Over]

theorem refl {S : α → α → Prop} (hS : ∀ a, S a a) (m : Exec σ α) : m.Over id S m := by
  intro s
  show (m s).Over id S (m s)
  cases m s <;> simp [Res.Over, hS]

/-! ## The meter -/

theorem look : (Meter.look : Exec (σ × Nat) σ).Over Prod.fst Eq Exec.get := fun _ => ⟨rfl, rfl⟩

theorem lift (m : Exec σ α) : (Verif.liftL m : Exec (σ × Nat) α).Over Prod.fst Eq m := by
  rintro ⟨s, n⟩
  unfold Verif.liftL
  dsimp only
  cases m s <;> simp [Res.Over]

theorem count {n : Nat} {f : Unit → Exec (σ × Nat) α'} {m : Exec σ α} (h : (f ()).Over Prod.fst R m) :
    (Meter.count n >>= f).Over Prod.fst R m := fun s => h (s.1, s.2 + n)

theorem paying (n : Nat) (m : Exec σ α) : (Meter.paying n m).Over Prod.fst Eq m := count (lift m)

end Exec.Over

/-! ## The emplacement protocol -/

section
variable {σ' σ τ' τ β : Type} {T : UTy} {π : σ' → σ} {ρ : τ' → τ}

/-- Results of the inner closure that differ only in what `π` forgets. -/
def WriteRes.Over (π : σ' → σ) : WriteRes σ' β → WriteRes σ β → Prop
  | .done bs' s', .done bs s => bs' = bs ∧ π s' = s
  | .unwind bs' s', .unwind bs s => bs' = bs ∧ π s' = s
  | .abort, .abort => True
  | .ub, .ub => True
  | _, _ => False

structure Started.Over (π : σ' → σ) (e' : Started σ' T β) (e : Started σ T β) : Prop where
  layout : e'.layout = e.layout
  md : e'.md = e.md
  write : ∀ s', (e'.write s').Over π (e.write (π s'))
  dropVal : e'.dropVal.Over π Eq e.dropVal
  finish : e'.finish.Over π Eq e.finish

def Prepared.Over (ρ : τ' → τ) : Prepared τ' β → Prepared τ β → Prop
  | .place s' c' r', .place s c r => (∀ bs, (s' bs).Over ρ Eq (s bs)) ∧ c'.Over ρ Eq c ∧ r'.Over ρ Eq r
  | .dropIt c', .dropIt c => c'.Over ρ Eq c
  | .skip c', .skip c => c'.Over ρ Eq c
  | _, _ => False

theorem Started.Over.refl (e : Started σ T β) : e.Over id e :=
  ⟨rfl, rfl, fun s => by show (e.write s).Over id (e.write s); cases e.write s <;> simp [WriteRes.Over],
    Exec.Over.refl (fun _ => rfl) _, Exec.Over.refl (fun _ => rfl) _⟩

theorem Prepared.Over.refl (p : Prepared τ β) : p.Over id p := by
  cases p
  · exact ⟨fun _ => Exec.Over.refl (fun _ => rfl) _, Exec.Over.refl (fun _ => rfl) _, Exec.Over.refl (fun _ => rfl) _⟩
  · exact Exec.Over.refl (fun _ => rfl) _
  · exact Exec.Over.refl (fun _ => rfl) _

theorem placeInto_over {w' : σ' → WriteRes σ' β} {w : σ → WriteRes σ β} (hw : ∀ s', (w' s').Over π (w (π s')))
    {st' : List β → Exec τ' Unit} {st : List β → Exec τ Unit} (hs : ∀ bs, (st' bs).Over ρ Eq (st bs))
    {r' : Exec τ' Unit} {r : Exec τ Unit} (hr : r'.Over ρ Eq r) :
    (placeInto w' st' r').Over (Prod.map π ρ) Eq (placeInto w st r) := by
  rintro ⟨s', t'⟩
  have := hw s'
  revert this
  unfold placeInto
  dsimp only [Prod.map]
  cases w' s' <;> cases w (π s') <;> first | exact id | exact False.elim | skip
  · rintro ⟨rfl, rfl⟩
    exact Exec.Over.liftR (π := π) (hs _) (_, _)
  · rintro ⟨rfl, rfl⟩
    exact Exec.Over.onUnwind (π := Prod.map π ρ) (Exec.Over.bind (Exec.Over.liftR (hs _)) fun _ _ _ => Exec.Over.panic) (Exec.Over.liftR hr) (_, _)

theorem run_over {e' : Emplacable σ' T β} {e : Emplacable σ T β} (he : Exec.Over π (Started.Over π) e' e)
    {m' : Emplacer τ' T β} {m : Emplacer τ T β} (hm : ∀ l md, Exec.Over ρ (Prepared.Over ρ) (m' l md) (m l md)) :
    (run e' m').Over (Prod.map π ρ) Eq (run e m) := by
  refine Exec.Over.bind (Exec.Over.liftL he) fun st' st hst => ?_
  rw [hst.layout, hst.md]
  refine Exec.Over.bind (Exec.Over.liftR (hm _ _)) fun p' p hp => ?_
  have fin : Exec.Over (Prod.map π ρ) Eq (Verif.liftL st'.finish) (Verif.liftL st.finish) := Exec.Over.liftL hst.finish
  cases p' <;> cases p <;> first | exact hp.elim | skip
  · exact Exec.Over.bind (placeInto_over hst.write hp.1 hp.2.2) fun _ _ _ => Exec.Over.bind (Exec.Over.liftR hp.2.1) fun _ _ _ => fin
  · exact Exec.Over.bind (Exec.Over.liftL hst.dropVal) fun _ _ _ => Exec.Over.bind (Exec.Over.liftR hp) fun _ _ _ => fin
  · exact Exec.Over.bind (Exec.Over.liftR hp) fun _ _ _ => fin

theorem Source.drop_over {e' : Emplacable σ' T β} {e : Emplacable σ T β} (he : Exec.Over π (Started.Over π) e' e) :
    (Source.drop e').Over π Eq (Source.drop e) :=
  Exec.Over.bind he fun _ _ hst => Exec.Over.bind hst.dropVal fun _ _ _ => hst.finish

end

/-! ## The interface -/

section
variable {V' V β : Type} {T : UTy} {π : V' → V}

structure Provider.Over (π : V' → V) (P' : Provider V' T β) (P : Provider V T β) : Prop where
  newAlign1 : π P'.newAlign1 = P.newAlign1
  newAlignPtr : π P'.newAlignPtr = P.newAlignPtr
  capacity : ∀ s, P'.capacity s = P.capacity (π s)
  byteLen : ∀ s, P'.byteLen s = P.byteLen (π s)
  byteCapacity : ∀ s, P'.byteCapacity s = P.byteCapacity (π s)
  align : ∀ s, P'.align s = P.align (π s)
  len : ∀ s, P'.len s = P.len (π s)
  alignNew : P'.alignNew = P.alignNew
  tryReserve : ∀ env n, (P'.tryReserve env n).Over π Eq (P.tryReserve env n)
  tryReserveExact : ∀ env n, (P'.tryReserveExact env n).Over π Eq (P.tryReserveExact env n)
  tryReserveAdditionalBytesAlign : ∀ env b a,
    (P'.tryReserveAdditionalBytesAlign env b a).Over π Eq (P.tryReserveAdditionalBytesAlign env b a)
  shrinkTo : ∀ env n b a, (P'.shrinkTo env n b a).Over π Eq (P.shrinkTo env n b a)
  insertUnchecked : ∀ i x, (P'.insertUnchecked i x).Over π Eq (P.insertUnchecked i x)
  insertWithUnchecked : ∀ env i l md, Exec.Over π (Prepared.Over π) (P'.insertWithUnchecked env i l md) (P.insertWithUnchecked env i l md)
  removeIntoUnchecked : ∀ env i, Exec.Over π (Started.Over π) (P'.removeIntoUnchecked env i) (P.removeIntoUnchecked env i)
  pushUnchecked : ∀ x, (P'.pushUnchecked x).Over π Eq (P.pushUnchecked x)
  pushWith : ∀ env l md, Exec.Over π (Prepared.Over π) (P'.pushWith env l md) (P.pushWith env l md)
  popIntoUnchecked : ∀ env, Exec.Over π (Started.Over π) (P'.popIntoUnchecked env) (P.popIntoUnchecked env)
  getUnchecked : ∀ s i, P'.getUnchecked s i = P.getUnchecked (π s) i

theorem unwrapReserve_over (r : Except TRE Unit) : (unwrapReserve r : Exec V' Unit).Over π Eq (unwrapReserve r) := by
  match r with
  | .ok () => exact Exec.Over.unit
  | .error .capacityOverflow => exact Exec.Over.panic
  | .error .allocError => exact Exec.Over.abort

namespace Provider.Over
variable {P' : Provider V' T β} {P : Provider V T β} {c : Cfg} {env : Env (Val T β)}

theorem toAlign (h : P'.Over π P) (a : Nat) : (Api.toAlign P' a).Over π Eq (Api.toAlign P a) := by
  unfold Api.toAlign
  rw [h.alignNew]
  cases P.alignNew a
  · exact Exec.Over.panic
  · exact Exec.Over.pure rfl

theorem byteCapAssert (h : P'.Over π P) (b : Nat) : (Api.byteCapAssert c P' b).Over π Eq (Api.byteCapAssert c P b) := by
  refine Exec.Over.bind Exec.Over.get ?_
  rintro s' _ rfl
  rw [h.byteCapacity, h.byteLen]
  refine Exec.Over.bind (Exec.Over.orUb _) ?_
  rintro _ _ rfl
  refine Exec.Over.bind (Exec.Over.orUb _) ?_
  rintro _ _ rfl
  exact Exec.Over.debugAssert _ _

theorem reserveNeeded (h : P'.Over π P) (b n a : Nat) :
    (Api.reserveNeeded c P' env b n a).Over π Eq (Api.reserveNeeded c P env b n a) :=
  Exec.Over.bind (h.tryReserveAdditionalBytesAlign _ _ _) fun _ _ hr => Exec.Over.bind (h.byteCapAssert _) fun _ _ _ => Exec.Over.pure hr

theorem tryReserveCapacityBytesAlign (h : P'.Over π P) (n b a : Nat) :
    (Api.tryReserveCapacityBytesAlign c P' env n b a).Over π Eq (Api.tryReserveCapacityBytesAlign c P env n b a) := by
  refine Exec.Over.bind (h.tryReserve _ _) ?_
  rintro r _ rfl
  cases r with
  | error e => exact Exec.Over.pure rfl
  | ok u =>
    refine Exec.Over.bind Exec.Over.get ?_
    rintro s' _ rfl
    rw [h.capacity, h.len, h.byteCapacity, Api.unusedByteCap, h.byteCapacity, h.byteLen]
    refine Exec.Over.bind (Exec.Over.debugAssert _ _) fun _ _ _ => ?_
    refine Exec.Over.bind (h.toAlign _) ?_
    rintro al _ rfl
    refine Exec.Over.bind (Exec.Over.orUb _) ?_
    rintro _ _ rfl
    refine Exec.Over.bind (Exec.Over.orUb _) ?_
    rintro _ _ rfl
    refine Exec.Over.ite (Exec.Over.bind (h.tryReserveAdditionalBytesAlign _ _ _) ?_) (h.reserveNeeded _ _ _)
    rintro r _ rfl
    cases r with
    | error e => exact h.reserveNeeded _ _ _
    | ok u => exact Exec.Over.pure rfl

theorem tryReserveExactCapacityBytesAlign (h : P'.Over π P) (n b a : Nat) :
    (Api.tryReserveExactCapacityBytesAlign P' env n b a).Over π Eq (Api.tryReserveExactCapacityBytesAlign P env n b a) := by
  refine Exec.Over.bind (h.tryReserve _ _) ?_
  rintro r _ rfl
  cases r with
  | error e => exact Exec.Over.pure rfl
  | ok u =>
    refine Exec.Over.bind (h.toAlign _) ?_
    rintro al _ rfl
    exact h.tryReserveAdditionalBytesAlign _ _ _

theorem attempt (h : P'.Over π P) (q : Reservation) : (q.attempt c P' env).Over π Eq (q.attempt c P env) := by
  cases q with
  | elems n => exact h.tryReserve _ _
  | capBytes n b => exact h.tryReserveCapacityBytesAlign _ _ _
  | capBytesAlign n b a => exact h.tryReserveCapacityBytesAlign _ _ _
  | exact n => exact h.tryReserveExact _ _
  | exactCapBytes n b => exact h.tryReserveExactCapacityBytesAlign _ _ _
  | exactCapBytesAlign n b a => exact h.tryReserveExactCapacityBytesAlign _ _ _

theorem unwrap {m' : Exec V' (Except TRE Unit)} {m : Exec V (Except TRE Unit)} (h : m'.Over π Eq m) :
    (m' >>= unwrapReserve).Over π Eq (m >>= unwrapReserve) :=
  Exec.Over.bind h fun _ _ hr => hr ▸ unwrapReserve_over _

theorem reserve (h : P'.Over π P) (q : Reservation) : (q.run c P' env).Over π Eq (q.run c P env) := by
  cases q with
  | elems n => exact unwrap (h.tryReserve _ _)
  | capBytes n b => exact unwrap (h.tryReserveCapacityBytesAlign _ _ _)
  | capBytesAlign n b a => exact unwrap (h.tryReserveCapacityBytesAlign _ _ _)
  | exact n => exact unwrap (h.tryReserveExactCapacityBytesAlign _ _ _)
  | exactCapBytes n b => exact unwrap (h.tryReserveExactCapacityBytesAlign _ _ _)
  | exactCapBytesAlign n b a => exact unwrap (h.tryReserveExactCapacityBytesAlign _ _ _)

theorem shrinking (h : P'.Over π P) (q : Shrinking) : (q.run c P' env).Over π Eq (q.run c P env) := by
  cases q <;>
    exact Exec.Over.bind (h.toAlign _) fun _ _ ha => ha ▸ h.shrinkTo _ _ _ _

theorem push (h : P'.Over π P) (x : Val T β) : (Api.push c P' env x).Over π Eq (Api.push c P env x) :=
  Exec.Over.bind (unwrap (h.tryReserveCapacityBytesAlign _ _ _)) fun _ _ _ => h.pushUnchecked _

theorem insert (h : P'.Over π P) (i : Nat) (x : Val T β) : (Api.insert c P' env i x).Over π Eq (Api.insert c P env i x) := by
  refine Exec.Over.bind Exec.Over.get ?_
  rintro s' _ rfl
  rw [h.len]
  exact Exec.Over.bind (Exec.Over.assert _) fun _ _ _ =>
    Exec.Over.bind (unwrap (h.tryReserveCapacityBytesAlign _ _ _)) fun _ _ _ => h.insertUnchecked _ _

theorem removeInto (h : P'.Over π P) (i : Nat) : Exec.Over π (Started.Over π) (Api.removeInto P' env i) (Api.removeInto P env i) := by
  refine Exec.Over.bind Exec.Over.get ?_
  rintro s' _ rfl
  rw [h.len]
  exact Exec.Over.bind (Exec.Over.assert _) fun _ _ _ => h.removeIntoUnchecked _ _

theorem getOne (h : P'.Over π P) (s : V') (i : Nat) : Api.get P' s i = Api.get P (π s) i := by
  unfold Api.get
  rw [h.len, h.getUnchecked]

theorem index (h : P'.Over π P) (i : Nat) : (Api.index P' i).Over π Eq (Api.index P i) := by
  refine Exec.Over.bind Exec.Over.get ?_
  rintro s' _ rfl
  rw [h.getOne]
  refine Exec.Over.bind (Exec.Over.orUb _) ?_
  rintro o _ rfl
  cases o with
  | none => exact Exec.Over.panic
  | some r => exact Exec.Over.pure rfl

end Provider.Over

/-! ## Programs -/

structure Machine.Over (π : V' → V) (M' : Machine V' T β) (M : Machine V T β) : Prop where
  P : M'.P.Over π M.P
  read : ∀ s r, M'.read s r = M.read (π s) r
  store : ∀ r bs, (M'.store r bs).Over π Eq (M.store r bs)
  calls : ∀ s ks, M'.calls s ks = M.calls (π s) ks
  drop : ∀ env, (M'.drop env).Over π Eq (M.drop env)
  drops : ∀ s, M'.drops s = M.drops (π s)
  note : ∀ x s, π (M'.note x s) = M.note x (π s)

namespace Machine.Over
variable {M' : Machine V' T β} {M : Machine V T β} {c : Cfg} {env : Env (Val T β)}

theorem dropArg (h : M'.Over π M) (x : Val T β) : (M'.dropArg env x).Over π Eq (M.dropArg env x) :=
  Exec.Over.bind (Exec.Over.modify (h.note x)) fun _ _ _ => Exec.Over.ite Exec.Over.panic Exec.Over.unit

theorem giving (h : M'.Over π M) (x : Val T β) {m' : Exec V' Unit} {m : Exec V Unit} (hm : m'.Over π Eq m) :
    (M'.giving env x m').Over π Eq (M.giving env x m) := Exec.Over.onUnwind hm (h.dropArg x)

theorem notes (h : M'.Over π M) : ∀ (ds : List (Val T β)) (s : V'),
    π (ds.foldl (fun v x => M'.note x v) s) = ds.foldl (fun v x => M.note x v) (π s)
  | [], _ => rfl
  | x :: ds, s => by rw [List.foldl_cons, List.foldl_cons, notes h ds, h.note]

theorem onRight {α : Type} (h : M'.Over π M) {m' : Exec (List (Val T β) × V') α} {m : Exec (List (Val T β) × V) α}
    (hm : m'.Over (Prod.map id π) Eq m) : (Verif.onRight M' m').Over π Eq (Verif.onRight M m) := by
  intro s'
  have := hm ([], s')
  revert this
  unfold Verif.onRight
  dsimp only [Prod.map, id]
  cases m' ([], s') <;> cases m ([], π s') <;> simp only [Res.Over, imp_self]
  · rintro ⟨rfl, rfl⟩
    exact ⟨h.notes _ _, rfl⟩
  · rintro rfl
    exact h.notes _ _

theorem onLeft {τ : Type} (t : τ) {m' : Exec (V' × τ) Unit} {m : Exec (V × τ) Unit} (hm : m'.Over (Prod.map π id) Eq m) :
    (Verif.onLeft t m').Over π Eq (Verif.onLeft t m) := by
  intro s'
  have := hm (s', t)
  revert this
  unfold Verif.onLeft
  dsimp only [Prod.map, id]
  cases m' (s', t) <;> cases m (π s', t) <;> first | exact id | exact False.elim | skip
  · rintro ⟨rfl, -⟩
    exact ⟨rfl, rfl⟩
  · rintro rfl
    exact rfl

theorem storeAll (h : M'.Over π M) : ∀ rs bss, (Verif.storeAll M' rs bss).Over π Eq (Verif.storeAll M rs bss)
  | some r :: rs, bs :: bss => Exec.Over.bind (h.store r bs) fun _ _ _ => storeAll h rs bss
  | none :: rs, _ :: bss => storeAll h rs bss
  | [], _ => by unfold Verif.storeAll; exact Exec.Over.unit
  | some _ :: _, [] => Exec.Over.unit
  | none :: _, [] => Exec.Over.unit

theorem srcCode (s : Src T β) : Exec.Over id (Started.Over id) (s.code env) (s.code env) := Exec.Over.refl Started.Over.refl _
theorem dstCode (d : Dst) (l : Layout) (md : T.Meta) :
    Exec.Over id (Prepared.Over id) ((d.code : Emplacer (Option (Val T β)) T β) l md) (d.code l md) := Exec.Over.refl Prepared.Over.refl _

theorem exec (h : M'.Over π M) (op : Op T β) : (op.exec c M' env).Over π Eq (op.exec c M env) := by
  cases op with
  | push x => exact Exec.Over.bind (h.giving x (h.P.push x)) fun _ _ _ => Exec.Over.pure rfl
  | pushWith s => exact Exec.Over.bind (h.onRight (run_over (srcCode s) (h.P.pushWith env))) fun _ _ _ => Exec.Over.pure rfl
  | insert i x => exact Exec.Over.bind (h.giving x (h.P.insert i x)) fun _ _ _ => Exec.Over.pure rfl
  | insertWith i s =>
    refine Exec.Over.bind (h.onRight (Exec.Over.bind Exec.Over.get ?_)) fun _ _ _ => Exec.Over.pure rfl
    rintro s' _ rfl
    rw [h.P.len]
    exact Exec.Over.bind (Exec.Over.onUnwind (Exec.Over.assert _) (Exec.Over.liftL (Source.drop_over (srcCode s)))) fun _ _ _ =>
      run_over (srcCode s) (h.P.insertWithUnchecked env i)
  | pop d =>
    refine Exec.Over.bind Exec.Over.get ?_
    rintro s' _ rfl
    unfold Api.popInto
    rw [h.P.len]
    by_cases h0 : M.P.len (π s') ≠ 0
    · rw [if_pos h0, if_pos h0]
      exact Exec.Over.bind (onLeft none (run_over (h.P.popIntoUnchecked env) (dstCode d))) fun _ _ ht => Exec.Over.pure (ht ▸ rfl)
    · rw [if_neg h0, if_neg h0]
      exact Exec.Over.pure rfl
  | remove i d =>
    exact Exec.Over.bind (onLeft none (run_over (h.P.removeInto i) (dstCode d))) fun _ _ ht => Exec.Over.pure (ht ▸ rfl)
  | reserve q => exact Exec.Over.bind (h.P.reserve q) fun _ _ _ => Exec.Over.pure rfl
  | tryReserve q =>
    refine Exec.Over.bind (h.P.attempt q) ?_
    rintro r _ rfl
    cases r with
    | error e => exact Exec.Over.pure rfl
    | ok u => exact Exec.Over.pure rfl
  | shrink q => exact Exec.Over.bind (h.P.shrinking q) fun _ _ _ => Exec.Over.pure rfl
  | get i =>
    refine Exec.Over.bind Exec.Over.get ?_
    rintro s' _ rfl
    rw [h.P.getOne]
    refine Exec.Over.bind (Exec.Over.orUb _) ?_
    rintro o _ rfl
    cases o with
    | none => exact Exec.Over.pure rfl
    | some r => exact Exec.Over.pure (by rw [h.read])
  | index i =>
    refine Exec.Over.bind (h.P.index i) ?_
    rintro r _ rfl
    refine Exec.Over.bind Exec.Over.get ?_
    rintro s' _ rfl
    exact Exec.Over.pure (by rw [h.read])
  | set i bs =>
    refine Exec.Over.bind Exec.Over.get ?_
    rintro s' _ rfl
    rw [h.P.getOne]
    refine Exec.Over.bind (Exec.Over.orUb _) ?_
    rintro o _ rfl
    cases o with
    | none => exact Exec.Over.pure rfl
    | some r => exact Exec.Over.bind (h.store r bs) fun _ _ _ => Exec.Over.pure rfl
  | len =>
    refine Exec.Over.bind Exec.Over.get ?_
    rintro s' _ rfl
    exact Exec.Over.pure (by rw [h.P.len])
  | iter ks =>
    refine Exec.Over.bind Exec.Over.get ?_
    rintro s' _ rfl
    rw [h.calls]
    refine Exec.Over.bind (Exec.Over.orUb _) ?_
    rintro rs _ rfl
    refine Exec.Over.pure ?_
    rw [show M'.read s' = M.read (π s') from funext (h.read s')]
  | iterMut ks bss =>
    refine Exec.Over.bind Exec.Over.get ?_
    rintro s' _ rfl
    rw [h.calls]
    refine Exec.Over.bind (Exec.Over.orUb _) ?_
    rintro rs _ rfl
    exact Exec.Over.bind (h.storeAll rs bss) fun _ _ _ => Exec.Over.pure rfl

theorem caught {m' : Exec V' (Out T β)} {m : Exec V (Out T β)} (h : m'.Over π Eq m) : (Verif.caught m').Over π Eq (Verif.caught m) := by
  intro s'
  have := h s'
  revert this
  unfold Verif.caught
  cases m' s' <;> cases m (π s') <;> first | exact id | exact False.elim | skip
  rintro rfl
  exact ⟨rfl, rfl⟩

theorem runOps (h : M'.Over π M) : ∀ ops, (Verif.runOps c M' ops).Over π Eq (Verif.runOps c M ops)
  | [] => Exec.Over.pure rfl
  | (env, op) :: ops => by
    refine Exec.Over.bind (caught (h.exec op)) ?_
    rintro o _ rfl
    refine Exec.Over.bind (runOps h ops) ?_
    rintro os _ rfl
    exact Exec.Over.pure rfl

end Machine.Over
end
end Verif
