import Verif.Spec.NoLoss

/-!
# Relations between the states before and after

`m.Keeps R Q`: whatever the state is, if `m` returns or panics then the states before and after are in the relation `R`, and a
result satisfies `Q`. If `m` has undefined behaviour or ends the process, nothing is said. The rules here are for relations that
are reflexive and transitive.
-/

namespace Verif
section
variable {σ τ α γ : Type}

/-- The state left behind satisfies `S`, the result satisfies `Q`. -/
def Res.Leaves (S : σ → Prop) (Q : α → Prop) : Res σ α → Prop
  | .ok a s => S s ∧ Q a
  | .panic s => S s
  | _ => True

theorem Res.Leaves.mono {S S' : σ → Prop} {Q Q' : α → Prop} {r : Res σ α} (h : r.Leaves S Q) (h1 : ∀ s, S s → S' s)
    (h2 : ∀ a, Q a → Q' a) : r.Leaves S' Q' := by
  cases r with
  | ok a s => exact ⟨h1 _ h.1, h2 _ h.2⟩
  | panic s => exact h1 _ h
  | abort => trivial
  | ub => trivial

/-- A reflexive and transitive relation. -/
structure Pre (R : σ → σ → Prop) : Prop where
  refl : ∀ s, R s s
  trans : ∀ {s t u}, R s t → R t u → R s u

/-- `m` goes only to states in relation `R`, and its results satisfy `Q`. -/
def Exec.Keeps (R : σ → σ → Prop) (Q : α → Prop) (m : Exec σ α) : Prop := ∀ s, (m s).Leaves (R s) Q

namespace Exec.Keeps
variable {R : σ → σ → Prop} {Q : α → Prop} {Q' : γ → Prop}

theorem mono {m : Exec σ α} {R' : σ → σ → Prop} {Q1 : α → Prop} (h : m.Keeps R Q) (h1 : ∀ s t, R s t → R' s t) (h2 : ∀ a, Q a → Q1 a) :
    m.Keeps R' Q1 := fun s => (h s).mono (h1 s) h2

theorem any {m : Exec σ α} (h : m.Keeps R Q) : m.Keeps R (fun _ => True) := h.mono (fun _ _ h => h) (fun _ _ => trivial)

/-- At one state. -/
theorem bindAt (hR : Pre R) {m : Exec σ α} {f : α → Exec σ γ} {s : σ} (h : (m s).Leaves (R s) Q)
    (h' : ∀ a t, m s = .ok a t → (f a t).Leaves (R t) Q') : ((m >>= f) s).Leaves (R s) Q' := by
  rw [Exec.bind_apply]
  cases hm : m s with
  | ok a t =>
    rw [hm] at h
    exact (h' a t hm).mono (fun _ h2 => hR.trans h.1 h2) (fun _ h => h)
  | panic t => rw [hm] at h; exact h
  | abort => trivial
  | ub => trivial

theorem bind (hR : Pre R) {m : Exec σ α} {f : α → Exec σ γ} (h : m.Keeps R Q) (h' : ∀ a, Q a → (f a).Keeps R Q') : (m >>= f).Keeps R Q' := by
  intro s
  refine bindAt hR (h s) fun a t hm => h' a ?_ t
  have := h s
  rw [hm] at this
  exact this.2

theorem seq (hR : Pre R) {m : Exec σ α} {f : α → Exec σ γ} (h : m.Keeps R (fun _ => True)) (h' : ∀ a, (f a).Keeps R Q') :
    (m >>= f).Keeps R Q' := bind hR h fun a _ => h' a

theorem pure (hR : Pre R) {a : α} (h : Q a) : (Pure.pure a : Exec σ α).Keeps R Q := fun s => ⟨hR.refl s, h⟩
theorem unit (hR : Pre R) : (Pure.pure () : Exec σ Unit).Keeps R (fun _ => True) := pure hR trivial
theorem panic (hR : Pre R) : (Exec.panic : Exec σ α).Keeps R Q := fun s => hR.refl s
theorem abort : (Exec.abort : Exec σ α).Keeps R Q := fun _ => trivial
theorem ub : (Exec.ub : Exec σ α).Keeps R Q := fun _ => trivial
theorem get (hR : Pre R) : (Exec.get : Exec σ σ).Keeps R (fun _ => True) := fun s => ⟨hR.refl s, trivial⟩

theorem orUb (hR : Pre R) {o : Option α} (h : ∀ a, o = some a → Q a) : (Exec.orUb o : Exec σ α).Keeps R Q := by
  intro s
  cases o with
  | some a => exact ⟨hR.refl s, h a rfl⟩
  | none => trivial

theorem require (hR : Pre R) (p : Prop) [Decidable p] : (Exec.require p : Exec σ Unit).Keeps R (fun _ => True) := by
  intro s
  unfold Exec.require
  split
  · exact ⟨hR.refl s, trivial⟩
  · trivial

theorem assert (hR : Pre R) (p : Prop) [Decidable p] : (Exec.assert p : Exec σ Unit).Keeps R (fun _ => True) := by
  intro s
  unfold Exec.assert
  split
  · exact ⟨hR.refl s, trivial⟩
  · exact hR.refl s

theorem debugAssert (hR : Pre R) (b : Bool) (p : Prop) [Decidable p] : (Exec.debugAssert b p : Exec σ Unit).Keeps R (fun _ => True) := by
  intro s
  unfold Exec.debugAssert
  split
  · exact hR.refl s
  · exact ⟨hR.refl s, trivial⟩

theorem modify {f : σ → σ} (h : ∀ s, R s (f s)) : (Exec.modify f : Exec σ Unit).Keeps R (fun _ => True) := fun s => ⟨h s, trivial⟩

/-- Code that reads the state first. -/
theorem getBind {f : σ → Exec σ γ} (h : ∀ s, (f s s).Leaves (R s) Q') : (Exec.get >>= f).Keeps R Q' := h

theorem ite {p : Prop} [Decidable p] {m m' : Exec σ α} (h : m.Keeps R Q) (h' : m'.Keeps R Q) : (if p then m else m').Keeps R Q := by
  split
  · exact h
  · exact h'

theorem onUnwind (hR : Pre R) {m : Exec σ α} {g : Exec σ Unit} (h : m.Keeps R Q) (h' : g.Keeps R (fun _ => True)) :
    (Exec.onUnwind m g).Keeps R Q := by
  intro s
  unfold Exec.onUnwind
  have h1 := h s
  cases hm : m s with
  | ok a t => rw [hm] at h1; exact h1
  | panic t =>
    rw [hm] at h1
    have h2 := h' t
    dsimp only
    cases hg : g t with
    | ok a u => rw [hg] at h2; exact hR.trans h1 h2.1
    | panic u => trivial
    | abort => trivial
    | ub => trivial
  | abort => trivial
  | ub => trivial

theorem liftL {m : Exec σ α} (h : m.Keeps R Q) : (Verif.liftL m : Exec (σ × τ) α).Keeps (fun s t => R s.1 t.1) Q := by
  intro s
  unfold Verif.liftL
  have h1 := h s.1
  cases hm : m s.1 <;> rw [hm] at h1 <;> first | exact h1 | trivial

theorem liftR {m : Exec σ α} (h : m.Keeps R Q) : (Verif.liftR m : Exec (τ × σ) α).Keeps (fun s t => R s.2 t.2) Q := by
  intro s
  unfold Verif.liftR
  have h1 := h s.2
  cases hm : m s.2 <;> rw [hm] at h1 <;> first | exact h1 | trivial

end Exec.Keeps

/-- Nothing is said. -/
theorem Exec.keeps_true {m : Exec σ α} : m.Keeps (fun _ _ => True) (fun _ => True) := by
  intro s
  cases h : m s <;> simp [Res.Leaves]

theorem Pre.true : Pre (fun (_ _ : σ) => True) := ⟨fun _ => trivial, fun _ _ => trivial⟩
theorem Pre.left {R : σ → σ → Prop} (h : Pre R) : Pre (fun (s t : σ × τ) => R s.1 t.1) :=
  ⟨fun _ => h.refl _, fun h1 h2 => h.trans h1 h2⟩
theorem Pre.right {R : σ → σ → Prop} (h : Pre R) : Pre (fun (s t : τ × σ) => R s.2 t.2) :=
  ⟨fun _ => h.refl _, fun h1 h2 => h.trans h1 h2⟩

end

/-! ## Exchanges -/
section
variable {σ τ : Type} {T : UTy} {β : Type}

/-- The state left behind by the inner closure satisfies `S`. -/
def WriteRes.Leaves (S : σ → Prop) : WriteRes σ β → Prop
  | .done _ s | .unwind _ s => S s
  | _ => True

/-- All three continuations of an emplacable respect `R`. -/
structure Started.Keeps (R : σ → σ → Prop) (st : Started σ T β) : Prop where
  write : ∀ s, (st.write s).Leaves (R s)
  dropVal : st.dropVal.Keeps R (fun _ => True)
  finish : st.finish.Keeps R (fun _ => True)

/-- All continuations of an emplacer respect `R`. -/
def Prepared.Keeps (R : τ → τ → Prop) : Prepared τ β → Prop
  | .place store commit rollback => (∀ bs, (store bs).Keeps R (fun _ => True)) ∧ commit.Keeps R (fun _ => True) ∧ rollback.Keeps R (fun _ => True)
  | .dropIt commit => commit.Keeps R (fun _ => True)
  | .skip commit => commit.Keeps R (fun _ => True)

/-- A pair of relations. -/
def both (R : σ → σ → Prop) (R' : τ → τ → Prop) (s t : σ × τ) : Prop := R s.1 t.1 ∧ R' s.2 t.2

theorem Pre.both {R : σ → σ → Prop} {R' : τ → τ → Prop} (h : Pre R) (h' : Pre R') : Pre (both R R') :=
  ⟨fun _ => ⟨h.refl _, h'.refl _⟩, fun h1 h2 => ⟨h.trans h1.1 h2.1, h'.trans h1.2 h2.2⟩⟩

theorem Exec.Keeps.liftL_both {α : Type} {R : σ → σ → Prop} {R' : τ → τ → Prop} {Q : α → Prop} (hR' : Pre R') {m : Exec σ α} (h : m.Keeps R Q) :
    (Verif.liftL m : Exec (σ × τ) α).Keeps (both R R') Q := by
  intro s
  unfold Verif.liftL
  have h1 := h s.1
  cases hm : m s.1 <;> rw [hm] at h1
  · exact ⟨⟨h1.1, hR'.refl _⟩, h1.2⟩
  · exact ⟨h1, hR'.refl _⟩
  · trivial
  · trivial

theorem Exec.Keeps.liftR_both {α : Type} {R : σ → σ → Prop} {R' : τ → τ → Prop} {Q : α → Prop} (hR : Pre R) {m : Exec τ α} (h : m.Keeps R' Q) :
    (Verif.liftR m : Exec (σ × τ) α).Keeps (both R R') Q := by
  intro s
  unfold Verif.liftR
  have h1 := h s.2
  cases hm : m s.2 <;> rw [hm] at h1
  · exact ⟨⟨hR.refl _, h1.1⟩, h1.2⟩
  · exact ⟨hR.refl _, h1⟩
  · trivial
  · trivial

/-- An exchange respects the relations of the two sides. `L` is what is known about the layout and the metadata that are
announced. -/
theorem run_keeps {R : σ → σ → Prop} {R' : τ → τ → Prop} (hR : Pre R) (hR' : Pre R') {L : Layout → T.Meta → Prop} {e : Emplacable σ T β}
    {m : Emplacer τ T β} (he : Exec.Keeps R (fun st : Started σ T β => L st.layout st.md ∧ st.Keeps R) e)
    (hm : ∀ l md, L l md → Exec.Keeps R' (fun p => Prepared.Keeps R' p) (m l md)) :
    (run e m).Keeps (both R R') (fun _ => True) := by
  have hB := hR.both hR'
  unfold run
  refine Exec.Keeps.bind hB (he.liftL_both hR') fun st hst => ?_
  refine Exec.Keeps.bind hB ((hm _ _ hst.1).liftR_both hR) fun p hp => ?_
  have fin : (liftL st.finish : Exec (σ × τ) Unit).Keeps (both R R') (fun _ => True) := hst.2.finish.liftL_both hR'
  cases p with
  | place store commit rollback =>
    obtain ⟨h1, h2, h3⟩ := hp
    refine Exec.Keeps.seq hB ?_ fun _ => Exec.Keeps.seq hB (h2.liftR_both hR) fun _ => fin
    intro s
    have hw := hst.2.write s.1
    unfold placeInto
    cases hs : st.write s.1 with
    | done bs t =>
      rw [hs] at hw
      exact ((h1 bs).liftR_both hR (t, s.2)).mono (fun _ h => hB.trans (t := (t, s.2)) ⟨hw, hR'.refl _⟩ h) (fun _ h => h)
    | unwind bs t =>
      rw [hs] at hw
      refine (Exec.Keeps.onUnwind hB (Exec.Keeps.seq hB ((h1 bs).liftR_both hR) fun _ => Exec.Keeps.panic hB) (h3.liftR_both hR) (t, s.2)).mono
        (fun _ h => hB.trans (t := (t, s.2)) ⟨hw, hR'.refl _⟩ h) (fun _ h => h)
    | abort => trivial
    | ub => trivial
  | dropIt commit =>
    exact Exec.Keeps.seq hB (hst.2.dropVal.liftL_both hR') fun _ => Exec.Keeps.seq hB (Exec.Keeps.liftR_both hR hp) fun _ => fin
  | skip commit =>
    refine Exec.Keeps.seq hB ?_ fun _ => fin
    exact Exec.Keeps.liftR_both hR hp

theorem Source.drop_keeps {R : σ → σ → Prop} (hR : Pre R) {e : Emplacable σ T β} (he : Exec.Keeps R (fun st : Started σ T β => st.Keeps R) e) :
    (Source.drop e).Keeps R (fun _ => True) := by
  unfold Source.drop
  exact Exec.Keeps.bind hR he fun st hst => Exec.Keeps.seq hR hst.dropVal fun _ => hst.finish

end

/-! ## The public interface -/
section
variable {V : Type} {T : UTy} {β : Type}

/-- The functions of an implementation that reserve memory respect `R` if they are asked for alignments of at most `a`. -/
structure Provider.KeepsReserve (P : Provider V T β) (R : V → V → Prop) (a : Nat) : Prop where
  alignNew : ∀ {al al'}, P.alignNew al = some al' → al' = al
  tryReserve : ∀ env n, (P.tryReserve env n).Keeps R (fun _ => True)
  tryReserveExact : ∀ env n, (P.tryReserveExact env n).Keeps R (fun _ => True)
  addBytes : ∀ env n al, al ≤ a → (P.tryReserveAdditionalBytesAlign env n al).Keeps R (fun _ => True)

/-- The functions of an implementation that do not shrink respect `R` if they are asked for alignments of at most `a`. -/
structure Provider.Keeps (P : Provider V T β) (R : V → V → Prop) (a : Nat) : Prop extends P.KeepsReserve R a where
  insertUnchecked : ∀ i x, (P.insertUnchecked i x).Keeps R (fun _ => True)
  insertWith : ∀ env i l md, l.align ≤ a → (P.insertWithUnchecked env i l md).Keeps R (fun p => p.Keeps R)
  removeInto : ∀ env i, Exec.Keeps R (fun st : Started V T β => st.Keeps R) (P.removeIntoUnchecked env i)
  pushUnchecked : ∀ x, (P.pushUnchecked x).Keeps R (fun _ => True)
  pushWith : ∀ env l md, l.align ≤ a → (P.pushWith env l md).Keeps R (fun p => p.Keeps R)
  popInto : ∀ env, Exec.Keeps R (fun st : Started V T β => st.Keeps R) (P.popIntoUnchecked env)

variable {P : Provider V T β} {R : V → V → Prop} {a : Nat} {c : Cfg} {env : Env (Val T β)}

theorem unwrapReserve_keeps (hR : Pre R) (r : Except TRE Unit) : (unwrapReserve r : Exec V Unit).Keeps R (fun _ => True) := by
  unfold unwrapReserve
  split
  · exact Exec.Keeps.unit hR
  · exact Exec.Keeps.panic hR
  · exact Exec.Keeps.abort

namespace Provider.KeepsReserve
open Exec.Keeps

theorem toAlign (hR : Pre R) (h : P.KeepsReserve R a) {al : Nat} : (Api.toAlign P al : Exec V Nat).Keeps R (fun al' => al' = al) := by
  unfold Api.toAlign
  split
  · exact Exec.Keeps.pure hR (h.alignNew (by assumption))
  · exact Exec.Keeps.panic hR

theorem byteCapAssert (hR : Pre R) (n : Nat) : (Api.byteCapAssert c P n).Keeps R (fun _ => True) :=
  seq hR (Exec.Keeps.get hR) fun _ => seq hR (Exec.Keeps.orUb hR fun _ _ => trivial) fun _ =>
    seq hR (Exec.Keeps.orUb hR fun _ _ => trivial) fun _ => Exec.Keeps.debugAssert hR _ _

theorem reserveNeeded (hR : Pre R) (h : P.KeepsReserve R a) {n m al : Nat} (hal : al ≤ a) :
    (Api.reserveNeeded c P env n m al).Keeps R (fun _ => True) :=
  seq hR (h.addBytes _ _ _ hal) fun _ => seq hR (byteCapAssert hR _) fun _ => Exec.Keeps.pure hR trivial

theorem tryReserveCapacityBytesAlign (hR : Pre R) (h : P.KeepsReserve R a) {n m al : Nat} (hal : al ≤ a) :
    (Api.tryReserveCapacityBytesAlign c P env n m al).Keeps R (fun _ => True) := by
  unfold Api.tryReserveCapacityBytesAlign
  refine seq hR (h.tryReserve _ _) fun r => ?_
  split
  · exact Exec.Keeps.pure hR trivial
  · refine seq hR (Exec.Keeps.get hR) fun v => seq hR (Exec.Keeps.debugAssert hR _ _) fun _ => Exec.Keeps.bind hR (toAlign hR h) fun al' hal' => ?_
    refine seq hR (Exec.Keeps.orUb hR fun _ _ => trivial) fun bc => seq hR (Exec.Keeps.orUb hR fun _ _ => trivial) fun un => ?_
    subst hal'
    dsimp only
    generalize (if m - un > 0 then max (m - un) bc else 0) = opt
    split
    · refine seq hR (h.addBytes _ _ _ hal) fun r => ?_
      split
      · exact Exec.Keeps.pure hR trivial
      · exact reserveNeeded hR h hal
    · exact reserveNeeded hR h hal

theorem tryReserveExactCapacityBytesAlign (hR : Pre R) (h : P.KeepsReserve R a) {n m al : Nat} (hal : al ≤ a) :
    (Api.tryReserveExactCapacityBytesAlign P env n m al).Keeps R (fun _ => True) := by
  unfold Api.tryReserveExactCapacityBytesAlign
  refine seq hR (h.tryReserve _ _) fun r => ?_
  split
  · exact Exec.Keeps.pure hR trivial
  · refine Exec.Keeps.bind hR (toAlign hR h) fun al' hal' => ?_
    subst hal'
    exact h.addBytes _ _ _ hal

theorem attempt (hR : Pre R) (h : P.KeepsReserve R a) {q : Reservation} (hal : q.align ≤ a) : (q.attempt c P env).Keeps R (fun _ => True) := by
  cases q with
  | elems n => exact h.tryReserve _ _
  | capBytes n b => exact tryReserveCapacityBytesAlign hR h hal
  | capBytesAlign n b al => exact tryReserveCapacityBytesAlign hR h hal
  | exact n => exact h.tryReserveExact _ _
  | exactCapBytes n b => exact tryReserveExactCapacityBytesAlign hR h hal
  | exactCapBytesAlign n b al => exact tryReserveExactCapacityBytesAlign hR h hal

theorem reserve (hR : Pre R) (h : P.KeepsReserve R a) {q : Reservation} (hal : q.align ≤ a) : (q.run c P env).Keeps R (fun _ => True) := by
  cases q with
  | elems n => exact seq hR (h.tryReserve _ _) fun r => unwrapReserve_keeps hR r
  | capBytes n b => exact seq hR (tryReserveCapacityBytesAlign hR h hal) fun r => unwrapReserve_keeps hR r
  | capBytesAlign n b al => exact seq hR (tryReserveCapacityBytesAlign hR h hal) fun r => unwrapReserve_keeps hR r
  | exact n => exact seq hR (tryReserveExactCapacityBytesAlign hR h hal) fun r => unwrapReserve_keeps hR r
  | exactCapBytes n b => exact seq hR (tryReserveExactCapacityBytesAlign hR h hal) fun r => unwrapReserve_keeps hR r
  | exactCapBytesAlign n b al => exact seq hR (tryReserveExactCapacityBytesAlign hR h hal) fun r => unwrapReserve_keeps hR r

end Provider.KeepsReserve

namespace Provider.Keeps
open Exec.Keeps

theorem push (hR : Pre R) (h : P.Keeps R a) {x : Val T β} (hal : x.align ≤ a) : (Api.push c P env x).Keeps R (fun _ => True) :=
  seq hR (KeepsReserve.reserve (q := .capBytesAlign 1 x.size x.align) hR h.toKeepsReserve hal) fun _ => h.pushUnchecked x

theorem insert (hR : Pre R) (h : P.Keeps R a) {i : Nat} {x : Val T β} (hal : x.align ≤ a) : (Api.insert c P env i x).Keeps R (fun _ => True) :=
  seq hR (Exec.Keeps.get hR) fun _ => seq hR (Exec.Keeps.assert hR _) fun _ =>
    seq hR (KeepsReserve.reserve (q := .capBytesAlign 1 x.size x.align) hR h.toKeepsReserve hal) fun _ => h.insertUnchecked i x

end Provider.Keeps

/-- The parts of a machine that are not its interface: destructor logs and stores respect `R`. -/
structure Machine.Keeps (M : Machine V T β) (R : V → V → Prop) : Prop where
  note : ∀ x v, R v (M.note x v)
  store : ∀ r bs, (M.store r bs).Keeps R (fun _ => True)

variable {M : Machine V T β}
open Exec.Keeps

theorem Src.code_keeps (s : Src T β) {a : Nat} (h : (Op.pushWith s).asks ≤ a) :
    Exec.Keeps (fun _ _ => True) (fun st : Started (List (Val T β)) T β => st.layout.align ≤ a ∧ st.Keeps (fun _ _ => True)) (s.code env) := by
  have k : ∀ st : Started (List (Val T β)) T β, st.Keeps (fun _ _ => True) := fun st =>
    ⟨fun s => by unfold WriteRes.Leaves; split <;> trivial, Exec.keeps_true, Exec.keeps_true⟩
  cases s with
  | value x => exact Exec.Keeps.pure Pre.true ⟨h, k _⟩
  | panics => exact Exec.Keeps.panic Pre.true
  | fails md bs => exact Exec.Keeps.pure Pre.true ⟨h, k _⟩

theorem Dst.code_keeps (d : Dst) (l : Layout) (md : T.Meta) :
    Exec.Keeps (fun _ _ => True) (fun p => Prepared.Keeps (fun _ _ => True) p) ((d.code : Emplacer (Option (Val T β)) T β) l md) := by
  cases d with
  | take => exact Exec.Keeps.pure Pre.true ⟨fun _ => Exec.keeps_true, Exec.keeps_true, Exec.keeps_true⟩
  | drop => exact Exec.Keeps.pure Pre.true Exec.keeps_true
  | forget => exact Exec.Keeps.pure Pre.true Exec.keeps_true
  | panics => exact Exec.Keeps.panic Pre.true

theorem onRight_keeps (hR : Pre R) (hM : M.Keeps R) {α : Type} {m : Exec (List (Val T β) × V) α}
    (h : m.Keeps (both (fun _ _ => True) R) (fun _ => True)) : (onRight M m).Keeps R (fun _ => True) := by
  have notes : ∀ (ds : List (Val T β)) (v v' : V), R v v' → R v (ds.foldl (fun v x => M.note x v) v') := by
    intro ds
    induction ds with
    | nil => exact fun _ _ h => h
    | cons d ds ih => exact fun v v' h => ih v _ (hR.trans h (hM.note d v'))
  intro v
  have h1 := h ([], v)
  unfold onRight
  cases hm : m ([], v) with
  | ok x st => rw [hm] at h1; exact ⟨notes st.1 v st.2 h1.1.2, trivial⟩
  | panic st => rw [hm] at h1; exact notes st.1 v st.2 h1.2
  | abort => trivial
  | ub => trivial

theorem onLeft_keeps {τ : Type} {t : τ} {m : Exec (V × τ) Unit} (h : m.Keeps (both R (fun _ _ => True)) (fun _ => True)) :
    (onLeft t m).Keeps R (fun _ => True) := by
  intro v
  have h1 := h (v, t)
  unfold onLeft
  cases hm : m (v, t) with
  | ok x st => rw [hm] at h1; exact ⟨h1.1.1, trivial⟩
  | panic st => rw [hm] at h1; exact h1.1
  | abort => trivial
  | ub => trivial

theorem storeAll_keeps (hR : Pre R) (hM : M.Keeps R) : ∀ (rs : List (Option (Ref T))) (bss : List (List β)),
    (storeAll M rs bss).Keeps R (fun _ => True)
  | some r :: rs, bs :: bss => seq hR (hM.store r bs) fun _ => storeAll_keeps hR hM rs bss
  | none :: rs, _ :: bss => storeAll_keeps hR hM rs bss
  | [], _ => unit hR
  | some _ :: _, [] => unit hR
  | none :: _, [] => unit hR

theorem giving_keeps (hR : Pre R) (hM : M.Keeps R) {x : Val T β} {m : Exec V Unit} (h : m.Keeps R (fun _ => True)) :
    (M.giving env x m).Keeps R (fun _ => True) := by
  refine onUnwind hR h (seq hR (modify (hM.note x)) fun _ => ?_)
  split
  · exact Exec.Keeps.panic hR
  · exact unit hR

/-- Every call that does not shrink respects `R`. -/
theorem Op.exec_keeps (hR : Pre R) (hM : M.Keeps R) (hP : M.P.Keeps R a) {op : Op T β} (hg : op.Grows) (ha : op.asks ≤ a) :
    (op.exec c M env).Keeps R (fun _ => True) := by
  have ok : ∀ o : Out T β, (Pure.pure o : Exec V (Out T β)).Keeps R (fun _ => True) := fun _ => Exec.Keeps.pure hR trivial
  cases op with
  | push x => exact seq hR (giving_keeps hR hM (hP.push hR ha)) fun _ => ok _
  | pushWith s =>
    exact seq hR (onRight_keeps hR hM (run_keeps Pre.true hR (L := fun l _ => l.align ≤ a) (s.code_keeps ha)
      fun l md hl => hP.pushWith env l md hl)) fun _ => ok _
  | insert i x => exact seq hR (giving_keeps hR hM (hP.insert hR ha)) fun _ => ok _
  | insertWith i s =>
    have hs : (Op.pushWith s).asks ≤ a := by cases s <;> exact ha
    refine seq hR (onRight_keeps hR hM ?_) fun _ => ok _
    have hB := Pre.both (σ := List (Val T β)) Pre.true hR
    refine seq hB (Exec.Keeps.get hB) fun st => seq hB (onUnwind hB (Exec.Keeps.assert hB _) ?_) fun _ =>
      run_keeps Pre.true hR (L := fun l _ => l.align ≤ a) (s.code_keeps hs) fun l md hl => hP.insertWith env i l md hl
    exact (Exec.keeps_true (m := Source.drop (s.code env))).liftL_both hR
  | pop d =>
    refine seq hR (Exec.Keeps.get hR) fun v => ?_
    unfold Api.popInto
    by_cases h : M.P.len v ≠ 0
    · rw [if_pos h]
      exact seq hR (onLeft_keeps (run_keeps hR Pre.true (L := fun _ _ => True) ((hP.popInto env).mono (fun _ _ h => h) fun _ h => ⟨trivial, h⟩)
        fun l md _ => d.code_keeps l md)) fun _ => ok _
    · rw [if_neg h]
      exact ok _
  | remove i d =>
    refine seq hR (onLeft_keeps (run_keeps hR Pre.true (L := fun _ _ => True) ?_ fun l md _ => d.code_keeps l md)) fun _ => ok _
    exact seq hR (Exec.Keeps.get hR) fun _ => seq hR (Exec.Keeps.assert hR _) fun _ =>
      (hP.removeInto env i).mono (fun _ _ h => h) fun _ h => ⟨trivial, h⟩
  | reserve q => exact seq hR (hP.toKeepsReserve.reserve hR ha) fun _ => ok _
  | tryReserve q =>
    refine seq hR (hP.toKeepsReserve.attempt hR ha) fun r => ?_
    split <;> exact ok _
  | shrink q => exact hg.elim
  | get i =>
    refine seq hR (Exec.Keeps.get hR) fun v => seq hR (Exec.Keeps.orUb hR fun _ _ => trivial) fun r => ?_
    split <;> exact ok _
  | index i =>
    refine seq hR ?_ fun r => seq hR (Exec.Keeps.get hR) fun v => ok _
    refine seq hR (Exec.Keeps.get hR) fun v => seq hR (Exec.Keeps.orUb hR fun _ _ => trivial) fun r => ?_
    split
    · exact Exec.Keeps.pure hR trivial
    · exact Exec.Keeps.panic hR
  | set i bs =>
    refine seq hR (Exec.Keeps.get hR) fun v => seq hR (Exec.Keeps.orUb hR fun _ _ => trivial) fun r => ?_
    split
    · exact seq hR (hM.store _ _) fun _ => ok _
    · exact ok _
  | len => exact seq hR (Exec.Keeps.get hR) fun v => ok _
  | iter ks => exact seq hR (Exec.Keeps.get hR) fun v => seq hR (Exec.Keeps.orUb hR fun _ _ => trivial) fun rs => ok _
  | iterMut ks bss =>
    exact seq hR (Exec.Keeps.get hR) fun v => seq hR (Exec.Keeps.orUb hR fun _ _ => trivial) fun rs =>
      seq hR (storeAll_keeps hR hM rs bss) fun _ => ok _

/-- A program without calls of the shrink family respects `R`. -/
theorem runOps_keeps (hR : Pre R) (hM : M.Keeps R) (hP : M.P.Keeps R a) : ∀ (ops : List (Env (Val T β) × Op T β)),
    (∀ p ∈ ops, p.2.Grows ∧ p.2.asks ≤ a) → (runOps c M ops).Keeps R (fun _ => True)
  | [], _ => Exec.Keeps.pure hR trivial
  | (env, op) :: rest, h => by
    refine seq hR ?_ fun o => seq hR (runOps_keeps hR hM hP rest fun p hp => h p (List.mem_cons_of_mem _ hp)) fun _ => Exec.Keeps.pure hR trivial
    obtain ⟨h1, h2⟩ := h (env, op) (List.mem_cons_self ..)
    intro v
    have h3 := Op.exec_keeps (c := c) (env := env) hR hM hP h1 h2 v
    unfold caught
    cases hm : op.exec c M env v with
    | ok o v' => rw [hm] at h3; exact h3
    | panic v' => rw [hm] at h3; exact ⟨h3, trivial⟩
    | abort => trivial
    | ub => trivial

end
end Verif
