import Verif.Spec.Shape
import Verif.Proofs.Frame

/-!
# Length and metadata, for every program: the part common to the implementations
-/

namespace Verif
section
variable {σ α γ : Type}

/-- A return satisfies `okP`, a panic `panicP`; nothing is said about the other outcomes. -/
def Res.Ends (okP : α → σ → Prop) (panicP : σ → Prop) : Res σ α → Prop
  | .ok a s => okP a s
  | .panic s => panicP s
  | _ => True

namespace Res.Ends
variable {Q : α → σ → Prop} {Q' : γ → σ → Prop} {F F' : σ → Prop} {s : σ}

theorem mono {Q1 : α → σ → Prop} {r : Res σ α} (h : r.Ends Q F) (h1 : ∀ a s, Q a s → Q1 a s) (h2 : ∀ s, F s → F' s) : r.Ends Q1 F' := by
  cases r with
  | ok a s => exact h1 _ _ h
  | panic s => exact h2 _ h
  | abort => trivial
  | ub => trivial

theorem bind {m : Exec σ α} {f : α → Exec σ γ} (h : (m s).Ends (fun a t => (f a t).Ends Q' F) F) : ((m >>= f) s).Ends Q' F := by
  rw [Exec.bind_apply]
  revert h
  cases m s <;> exact fun h => h

theorem orUb {o : Option α} {f : α → Exec σ γ} (h : ∀ a, o = some a → (f a s).Ends Q' F) : ((Exec.orUb o >>= f) s).Ends Q' F := by
  cases o with
  | some a => exact h a rfl
  | none => trivial

theorem require {p : Prop} [Decidable p] {f : Unit → Exec σ γ} (h : p → (f () s).Ends Q' F) : ((Exec.require p >>= f) s).Ends Q' F := by
  refine bind ?_
  unfold Exec.require
  split
  · exact h (by assumption)
  · trivial

theorem assert {p : Prop} [Decidable p] {f : Unit → Exec σ γ} (h : p → (f () s).Ends Q' F) (h' : ¬ p → F s) :
    ((Exec.assert p >>= f) s).Ends Q' F := by
  refine bind ?_
  unfold Exec.assert
  split
  · exact h (by assumption)
  · exact h' (by assumption)

theorem debugAssert {b : Bool} {p : Prop} [Decidable p] {f : Unit → Exec σ γ} (h : (f () s).Ends Q' F) (h' : ¬ p → F s) :
    ((Exec.debugAssert b p >>= f) s).Ends Q' F := by
  refine bind ?_
  unfold Exec.debugAssert
  split
  · rename_i hp; exact h' hp.2
  · exact h

/-- A step that respects a relation. -/
theorem keep {R : σ → σ → Prop} {Q0 : α → Prop} {m : Exec σ α} {f : α → Exec σ γ} (hm : m.Keeps R Q0)
    (h : ∀ a t, R s t → Q0 a → (f a t).Ends Q' F) (h' : ∀ t, R s t → F t) : ((m >>= f) s).Ends Q' F := by
  refine bind ?_
  have := hm s
  revert this
  cases m s with
  | ok a t => exact fun k => h a t k.1 k.2
  | panic t => exact fun k => h' t k
  | abort => exact fun _ => trivial
  | ub => exact fun _ => trivial

end Res.Ends

theorem Exec.Keeps.ends {R : σ → σ → Prop} {Q : α → Prop} {m : Exec σ α} (h : m.Keeps R Q) (s : σ) :
    (m s).Ends (fun a t => R s t ∧ Q a) (R s) := by
  have := h s
  revert this
  cases m s <;> exact fun h => h

/-- Equality of a part of the state. -/
def Same {κ : Type} (f : σ → κ) (s t : σ) : Prop := f t = f s

theorem Same.pre {κ : Type} (f : σ → κ) : Pre (Same f) := ⟨fun _ => rfl, fun h h' => Eq.trans h' h⟩

end

section
variable {V : Type} {T : UTy} {β M κ : Type}

/-- What an emplacer prepared in the state `v1` does: nothing to the records, until the value has been written; then `Q`. -/
def Prepared.Adds (rec : V → κ) (v1 : V) (Q : V → Prop) (F : V → Prop) (p : Prepared V β) : Prop :=
  ∃ store commit rollback, p = .place store commit rollback ∧ (∀ bs, (store bs).Keeps (Same rec) (fun _ => True)) ∧
    rollback.Keeps (Same rec) (fun _ => True) ∧ ∀ v2, rec v2 = rec v1 → (commit v2).Ends (fun _ v => Q v) F

/-- What an emplacable that started in the state `v1` does: nothing to the records, until it has given the value away; then
`Q`. -/
structure Started.Takes (rec : V → κ) (v1 : V) (Q : V → Prop) (F : V → Prop) (st : Started V T β) : Prop where
  write : ∀ s, (st.write s).Leaves (Same rec s)
  dropVal : st.dropVal.Keeps (Same rec) (fun _ => True)
  finish : ∀ v2, rec v2 = rec v1 → (st.finish v2).Ends (fun _ v => Q v) F

/-- What the functions of an implementation do to the entries, from every state. -/
structure Recording.Lawful (K : Recording V T β M) (rec : V → κ) (N : Machine V T β) : Prop where
  len : ∀ v, N.P.len v = (K.entries v).length
  same : ∀ v v', rec v' = rec v → K.entries v' = K.entries v
  reserve : ∀ a, N.P.KeepsReserve (Same K.entries) a
  shrink : ∀ env n b a, (N.P.shrinkTo env n b a).Keeps (Same K.entries) (fun _ => True)
  push : ∀ x v, (N.P.pushUnchecked x v).Ends (fun _ v' => K.entries v' = K.entries v ++ [K.entry x.size x.md]) (Same K.entries v)
  insert : ∀ i x v, (N.P.insertUnchecked i x v).Ends
    (fun _ v' => K.entries v' = (K.entries v).take i ++ K.entry x.size x.md :: (K.entries v).drop i) (Same K.entries v)
  pushWith : ∀ env l md v, (N.P.pushWith env l md v).Ends
    (fun p v1 => Same K.entries v v1 ∧ p.Adds rec v1 (fun v' => K.entries v' = K.entries v ++ [K.entry l.size md]) (Same K.entries v))
    (Same K.entries v)
  insertWith : ∀ env i l md v, (N.P.insertWithUnchecked env i l md v).Ends
    (fun p v1 => Same K.entries v v1 ∧ p.Adds rec v1
      (fun v' => K.entries v' = (K.entries v).take i ++ K.entry l.size md :: (K.entries v).drop i) (Same K.entries v))
    (Same K.entries v)
  pop : ∀ env v, K.entries v ≠ [] → ((N.P.popIntoUnchecked env : Exec V (Started V T β)) v).Ends
    (fun st v1 => K.entries v1 = (K.entries v).dropLast ∧ (∃ m, (K.entries v).getLast? = some m ∧ ∀ bs, K.shows m ⟨st.md, bs⟩) ∧
      st.Takes rec v1 (fun v' => K.entries v' = (K.entries v).dropLast) (fun v' => K.entries v' = (K.entries v).dropLast))
    (fun _ => False)
  remove : ∀ env i v, i < (K.entries v).length → ((N.P.removeIntoUnchecked env i : Exec V (Started V T β)) v).Ends
    (fun st v1 => K.entries v1 = K.failed (K.entries v) ∧ (∃ m, (K.entries v)[i]? = some m ∧ ∀ bs, K.shows m ⟨st.md, bs⟩) ∧
      st.Takes rec v1 (fun v' => K.entries v' = (K.entries v).eraseIdx i) (fun v' => K.entries v' = K.failed (K.entries v)))
    (fun _ => False)
  get : ∀ v i r, N.P.getUnchecked v i = some r → ∃ m, (K.entries v)[i]? = some m ∧ K.shows m (N.read v r)
  note : ∀ x v, rec (N.note x v) = rec v
  store : ∀ r bs v, (N.store r bs v).Ends (fun _ => Same rec v) (fun _ => False)

variable {K : Recording V T β M} {rec : V → κ} {N : Machine V T β} {c : Cfg} {env : Env (Val T β)}

/-- An exchange whose destination is a vector, with code that cannot reach the vector as source. -/
theorem run_into {σ : Type} {e : Emplacable σ T β} {m : Emplacer V T β} {s : σ} {v : V} {Q : V → Prop}
    {F : V → Prop} (hF : F v) {ann : Layout → T.Meta → Prop}
    (he : (e s).Ends (fun st _ => ann st.layout st.md ∧ st.finish = pure ()) (fun _ => True))
    (hm : ∀ l md, ann l md → (m l md v).Ends (fun p v1 => F v1 ∧ p.Adds rec v1 Q F) F) (hrec : ∀ v1 v2, rec v2 = rec v1 → F v1 → F v2) :
    (run e m (s, v)).Ends (fun _ t => Q t.2 ∧ ∃ st s1 bs s2, e s = .ok st s1 ∧ st.write s1 = .done bs s2) (fun t => F t.2) := by
  unfold run
  refine Res.Ends.bind ?_
  unfold liftL
  cases hs : e s with
  | panic t => exact hF
  | abort => trivial
  | ub => trivial
  | ok st t =>
    rw [hs] at he
    dsimp only [Res.Ends] at he ⊢
    obtain ⟨he, hfin⟩ := he
    refine Res.Ends.bind ?_
    have h1 := hm _ _ he
    unfold liftR
    dsimp only
    cases hp : m st.layout st.md v with
    | panic v1 => rw [hp] at h1; exact h1
    | abort => trivial
    | ub => trivial
    | ok p v1 =>
      rw [hp] at h1
      obtain ⟨hF1, store, commit, rollback, rfl, k1, k2, k3⟩ := h1
      dsimp only [Res.Ends]
      refine Res.Ends.bind ?_
      unfold placeInto
      dsimp only
      cases hw : st.write t with
      | abort => trivial
      | ub => trivial
      | done bs t' =>
        dsimp only
        have k := k1 bs v1
        unfold liftR
        dsimp only
        revert k
        cases store bs v1 with
        | ok _ v2 =>
          rintro ⟨k, -⟩
          dsimp only [Res.Ends]
          refine Res.Ends.bind ?_
          have k' := k3 v2 k
          revert k'
          dsimp only
          cases commit v2 with
          | ok _ v3 =>
            intro k'
            dsimp only [Res.Ends] at k' ⊢
            rw [hfin]
            exact ⟨k', _, _, _, _, rfl, hw⟩
          | panic v3 => exact fun k' => k'
          | abort => exact fun _ => trivial
          | ub => exact fun _ => trivial
        | panic v2 => exact fun k => hrec _ _ k hF1
        | abort => exact fun _ => trivial
        | ub => exact fun _ => trivial
      | unwind bs t' =>
        dsimp only
        have hB := Pre.both (σ := σ) Pre.true (Same.pre rec)
        have k := Exec.Keeps.onUnwind hB (Exec.Keeps.seq hB ((k1 bs).liftR_both Pre.true) fun _ => Exec.Keeps.panic (α := Unit) (Q := fun _ => False) hB)
          (k2.liftR_both Pre.true) (t', v1)
        revert k
        generalize Exec.onUnwind _ _ _ = r
        cases r with
        | ok a t2 => exact fun k => k.2.elim
        | panic t2 => exact fun k => hrec _ _ k.2 hF1
        | abort => exact fun _ => trivial
        | ub => exact fun _ => trivial

/-- The state left behind by an emplacer, prepared in the state `t`, satisfies `X`. -/
def Prepared.Leaves {τ : Type} (X : τ → Prop) (p : Prepared τ β) (t : τ) : Prop :=
  match p with
  | .place store commit _ => ∀ bs, (store bs t).Ends (fun _ t2 => (commit t2).Ends (fun _ t3 => X t3) (fun _ => True)) (fun _ => True)
  | .dropIt commit => (commit t).Ends (fun _ t3 => X t3) (fun _ => True)
  | .skip commit => (commit t).Ends (fun _ t3 => X t3) (fun _ => True)

/-- An exchange whose source is a vector, with code that cannot reach the vector as destination. -/
theorem run_from {τ : Type} {e : Emplacable V T β} {m : Emplacer τ T β} {v : V} {t : τ} {Q F F0 : V → Prop} {G : T.Meta → Prop}
    {X : T.Meta → τ → Prop}
    (he : (e v).Ends (fun st v1 => F v1 ∧ G st.md ∧ st.Takes rec v1 Q F) F0) (h0 : ∀ v, F0 v → F v)
    (hrec : ∀ v1 v2, rec v2 = rec v1 → F v1 → F v2)
    (hm : ∀ l md, (m l md t).Ends (fun p t1 => p.Leaves (X md) t1) (fun _ => True)) :
    (run e m (v, t)).Ends (fun _ s => Q s.1 ∧ ∃ md, G md ∧ X md s.2) (fun s => F s.1) := by
  unfold run
  refine Res.Ends.bind ?_
  have he' := he
  unfold liftL
  dsimp only
  revert he
  cases e v with
  | panic v1 => exact fun he => h0 _ he
  | abort => exact fun _ => trivial
  | ub => exact fun _ => trivial
  | ok st v1 =>
    rintro ⟨hF1, hG, hT⟩
    dsimp only [Res.Ends]
    refine Res.Ends.bind ?_
    have h1 := hm st.layout st.md
    unfold liftR
    dsimp only
    revert h1
    have fin : ∀ v2 (t' : τ), rec v2 = rec v1 → X st.md t' →
        (liftL st.finish (v2, t')).Ends (fun _ s => Q s.1 ∧ ∃ md, G md ∧ X md s.2) (fun s => F s.1) := by
      intro v2 t' e1 hX
      have := hT.finish v2 e1
      unfold liftL
      dsimp only
      revert this
      cases st.finish v2 with
      | ok _ v3 => exact fun k => ⟨k, _, hG, hX⟩
      | panic v3 => exact fun k => k
      | abort => exact fun _ => trivial
      | ub => exact fun _ => trivial
    cases m st.layout st.md t with
    | panic t1 => exact fun _ => hF1
    | abort => exact fun _ => trivial
    | ub => exact fun _ => trivial
    | ok p t1 =>
      intro h1
      dsimp only [Res.Ends] at h1 ⊢
      cases p with
      | place store commit rollback =>
        dsimp only [Prepared.Leaves] at h1 ⊢
        refine Res.Ends.bind ?_
        unfold placeInto
        dsimp only
        have hw := hT.write v1
        revert hw
        cases st.write v1 with
        | abort => exact fun _ => trivial
        | ub => exact fun _ => trivial
        | unwind bs v2 =>
          intro hw
          dsimp only
          have hB := Pre.both (τ := τ) (Same.pre rec) Pre.true
          have k := Exec.Keeps.onUnwind hB (Exec.Keeps.seq hB ((Exec.keeps_true (m := store bs)).liftR_both (Same.pre rec)) fun _ => Exec.Keeps.panic (α := Unit) (Q := fun _ => False) hB)
            ((Exec.keeps_true (m := rollback)).liftR_both (Same.pre rec)) (v2, t1)
          revert k
          generalize Exec.onUnwind _ _ _ = r
          cases r with
          | ok a s => exact fun k => k.2.elim
          | panic s => exact fun k => hrec _ _ (Eq.trans k.1 hw) hF1
          | abort => exact fun _ => trivial
          | ub => exact fun _ => trivial
        | done bs v2 =>
          intro hw
          dsimp only
          have k := h1 bs
          unfold liftR
          dsimp only
          revert k
          cases store bs t1 with
          | panic t2 => exact fun _ => hrec _ _ hw hF1
          | abort => exact fun _ => trivial
          | ub => exact fun _ => trivial
          | ok _ t2 =>
            intro k
            dsimp only [Res.Ends] at k ⊢
            refine Res.Ends.bind ?_
            dsimp only
            revert k
            cases commit t2 with
            | panic t3 => exact fun _ => hrec _ _ hw hF1
            | abort => exact fun _ => trivial
            | ub => exact fun _ => trivial
            | ok _ t3 => exact fun k => fin v2 t3 hw k
      | dropIt commit =>
        dsimp only [Prepared.Leaves] at h1 ⊢
        refine Res.Ends.bind ?_
        have hw := hT.dropVal v1
        dsimp only
        revert hw
        cases st.dropVal v1 with
        | panic v2 => exact fun hw => hrec _ _ hw hF1
        | abort => exact fun _ => trivial
        | ub => exact fun _ => trivial
        | ok _ v2 =>
          intro hw
          dsimp only [Res.Ends]
          refine Res.Ends.bind ?_
          dsimp only
          revert h1
          cases commit t1 with
          | panic t3 => exact fun _ => hrec _ _ hw.1 hF1
          | abort => exact fun _ => trivial
          | ub => exact fun _ => trivial
          | ok _ t3 => exact fun k => fin v2 t3 hw.1 k
      | skip commit =>
        dsimp only [Prepared.Leaves] at h1 ⊢
        refine Res.Ends.bind ?_
        dsimp only
        revert h1
        cases commit t1 with
        | panic t3 => exact fun _ => hF1
        | abort => exact fun _ => trivial
        | ub => exact fun _ => trivial
        | ok _ t3 => exact fun k => fin v1 t3 rfl k

theorem giving_ends {x : Val T β} {m : Exec V Unit} {v : V} {Q : Unit → V → Prop} {F : V → Prop} (h : (m v).Ends Q F)
    (hn : ∀ v, F v → F (N.note x v)) : (N.giving env x m v).Ends Q F := by
  unfold Machine.giving Exec.onUnwind
  revert h
  cases m v with
  | ok _ _ => exact fun h => h
  | abort => exact fun h => h
  | ub => exact fun h => h
  | panic v1 =>
    intro h
    have h := hn _ h
    unfold Machine.dropArg
    dsimp only
    rw [Exec.modify_bind]
    by_cases hd : env.dropPanics x
    · rw [if_pos hd]; trivial
    · rw [if_neg hd]; exact h

theorem onRight_ends (hn : ∀ x v, rec (N.note x v) = rec v) {m : Exec (List (Val T β) × V) Unit} {v : V} {Q F : V → Prop} {X : Prop}
    (h : (m ([], v)).Ends (fun _ t => Q t.2 ∧ X) (fun t => F t.2)) (hQ : ∀ v1 v2, rec v2 = rec v1 → Q v1 → Q v2)
    (hF : ∀ v1 v2, rec v2 = rec v1 → F v1 → F v2) : (onRight N m v).Ends (fun _ v => Q v ∧ X) F := by
  have notes : ∀ (ds : List (Val T β)) (v : V), rec (ds.foldl (fun v x => N.note x v) v) = rec v := by
    intro ds
    induction ds with
    | nil => exact fun _ => rfl
    | cons d ds ih => exact fun v => (ih _).trans (hn d v)
  unfold onRight
  revert h
  cases m ([], v) with
  | ok _ t => exact fun h => ⟨hQ _ _ (notes t.1 t.2) h.1, h.2⟩
  | panic t => exact fun h => hF _ _ (notes t.1 t.2) h
  | abort => exact fun h => h
  | ub => exact fun h => h

theorem onLeft_ends {τ : Type} {t : τ} {m : Exec (V × τ) Unit} {v : V} {Q : τ → V → Prop} {F : V → Prop}
    (h : (m (v, t)).Ends (fun _ s => Q s.2 s.1) (fun s => F s.1)) : (onLeft t m v).Ends Q F := by
  unfold onLeft
  revert h
  cases m (v, t) <;> exact fun h => h

theorem Src.code_ends (s : Src T β) (ds : List (Val T β)) : ((s.code env) ds).Ends
    (fun st _ => (∃ x : Val T β, s = .value x ∧ st.layout.size = x.size ∧ st.md = x.md) ∨ (¬ ∃ x, s = .value x) ∧ ∀ t bs t', st.write t ≠ .done bs t')
    (fun _ => True) ∧
    ((s.code env) ds).Ends (fun st _ => st.finish = pure ()) (fun _ => True) := by
  cases s with
  | value x => exact ⟨.inl ⟨x, rfl, rfl, rfl⟩, rfl⟩
  | panics => exact ⟨trivial, trivial⟩
  | fails md bs =>
    refine ⟨.inr ⟨?_, ?_⟩, rfl⟩
    · rintro ⟨x, hx⟩; cases hx
    · intro t b t' h; cases h

/-- The part of a program's `push_with` and `insert_with` after the bounds check. -/
theorem emplace_ends (h : K.Lawful rec N) {s : Src T β} {ds : List (Val T β)} {v : V} {m : Emplacer V T β} {new : M → List M}
    (hm : ∀ l md, (m l md v).Ends (fun p v1 => Same K.entries v v1 ∧ p.Adds rec v1 (fun v' => K.entries v' = new (K.entry l.size md)) (Same K.entries v))
      (Same K.entries v)) :
    (run (s.code env) m (ds, v)).Ends (fun _ t => ∃ x, s = .value x ∧ K.entries t.2 = new (K.entry x.size x.md)) (fun t => Same K.entries v t.2) := by
  have hrec : ∀ v1 v2, rec v2 = rec v1 → Same K.entries v v1 → Same K.entries v v2 := fun v1 v2 e h1 => (h.same _ _ e).trans h1
  have hc := s.code_ends (env := env) ds
  by_cases hs : ∃ x, s = .value x
  · obtain ⟨x, rfl⟩ := hs
    refine (run_into (rec := rec) (Q := fun v' => K.entries v' = new (K.entry x.size x.md)) (F := Same K.entries v)
      (e := (Src.value x).code env) (s := ds) (ann := fun l md => l.size = x.size ∧ md = x.md) rfl ⟨⟨rfl, rfl⟩, rfl⟩ ?_ hrec).mono (fun _ _ k => ⟨x, rfl, k.1⟩) (fun _ k => k)
    rintro l md ⟨h1, rfl⟩
    have := hm l x.md
    rw [h1] at this
    exact this
  · refine (run_into (rec := rec) (Q := fun _ => True) (F := Same K.entries v) (ann := fun _ _ => True) rfl ?_ ?_ hrec).mono ?_ (fun _ k => k)
    · revert hc
      cases s.code env ds with
      | ok st t => exact fun hc => ⟨trivial, hc.2⟩
      | panic t => exact fun _ => trivial
      | abort => exact fun _ => trivial
      | ub => exact fun _ => trivial
    · intro l md _
      refine (hm l md).mono (fun p v1 k => ⟨k.1, ?_⟩) (fun _ k => k)
      obtain ⟨-, st, cm, rb, rfl, k1, k2, k3⟩ := k
      exact ⟨st, cm, rb, rfl, k1, k2, fun v2 e => (k3 v2 e).mono (fun _ _ _ => trivial) (fun _ k => k)⟩
    · rintro _ _ ⟨-, st, s1, bs, s2, e1, e2⟩
      rw [e1] at hc
      rcases hc.1 with ⟨x, rfl, -⟩ | ⟨-, hw⟩
      · exact (hs ⟨x, rfl⟩).elim
      · exact (hw _ _ _ e2).elim

/-- What comes out of the exchange of a removed element. -/
theorem dst_ends (d : Dst) (l : Layout) (md : T.Meta) : ((d.code : Emplacer (Option (Val T β)) T β) l md none).Ends (fun p t1 => p.Leaves (fun t3 => t3 = none ∨ ∃ bs, t3 = some ⟨md, bs⟩) t1) (fun _ => True) := by
  cases d with
  | take => exact fun bs => .inr ⟨bs, rfl⟩
  | drop => exact .inl rfl
  | forget => exact .inl rfl
  | panics => trivial

theorem reserve_ends (h : K.Lawful rec N) (q : Reservation) (v : V) : (q.run c N.P env v).Ends (fun _ => Same K.entries v) (Same K.entries v) :=
  (((h.reserve q.align).reserve (Same.pre _) (Nat.le_refl _)).ends v).mono (fun _ _ k => k.1) (fun _ k => k)

theorem shrink_keeps (h : K.Lawful rec N) (q : Shrinking) : (q.run c N.P env).Keeps (Same K.entries) (fun _ => True) := by
  have hR := Same.pre K.entries
  have ta : ∀ al, (Api.toAlign N.P al : Exec V Nat).Keeps (Same K.entries) (fun _ => True) := by
    intro al
    unfold Api.toAlign
    split
    · exact Exec.Keeps.pure hR trivial
    · exact Exec.Keeps.panic hR
  cases q <;> exact Exec.Keeps.seq hR (ta _) fun a => h.shrink _ _ _ _

theorem storeAll_ends (h : K.Lawful rec N) : ∀ (rs : List (Option (Ref T))) (bss : List (List β)) (v : V),
    (storeAll N rs bss v).Ends (fun _ => Same rec v) (fun _ => False)
  | some r :: rs, bs :: bss, v => Res.Ends.bind ((h.store r bs v).mono (fun _ v1 e => (storeAll_ends h rs bss v1).mono (fun _ _ e' => Eq.trans e' e) (fun _ k => k)) (fun _ k => k))
  | none :: rs, _ :: bss, v => storeAll_ends h rs bss v
  | [], _, _ => rfl
  | some _ :: _, [], _ => rfl
  | none :: _, [], _ => rfl

/-- One call. -/
theorem Op.exec_ends (h : K.Lawful rec N) (op : Op T β) (v : V) : (op.exec c N env v).Ends
    (fun o v' => K.Sees o (K.entries v) op ∧ K.entries v' = K.after o (K.entries v) op)
    (fun v' => K.Sees .panicked (K.entries v) op ∧ K.entries v' = K.after .panicked (K.entries v) op) := by
  have note : ∀ x v1 v2, K.entries v2 = K.entries v1 → K.entries (N.note x v2) = K.entries v1 := fun x v1 v2 e => (h.same _ _ (h.note x v2)).trans e
  cases op with
  | push x =>
    refine Res.Ends.bind ((giving_ends (F := Same K.entries v) (Q := fun _ v' => K.entries v' = K.entries v ++ [K.entry x.size x.md]) ?_
      (fun v1 e => note x v v1 e)).mono (fun _ v' e => ⟨.inl rfl, e⟩) (fun v' e => ⟨.inr rfl, e⟩))
    refine Res.Ends.bind ((reserve_ends h (.capBytesAlign 1 x.size x.align) v).mono (fun _ v1 e => ?_) (fun _ k => k))
    have k := h.push x v1
    have e : K.entries v1 = K.entries v := e
    unfold Same at k
    rw [e] at k
    exact k
  | pushWith s =>
    refine Res.Ends.bind ((onRight_ends (rec := rec) (X := True) (F := Same K.entries v)
      (Q := fun v' => ∃ x, s = .value x ∧ K.entries v' = K.entries v ++ [K.entry x.size x.md]) h.note ?_ ?_ ?_).mono ?_ ?_)
    · exact (emplace_ends (new := fun m => K.entries v ++ [m]) h fun l md => h.pushWith env l md v).mono (fun _ _ k => ⟨k, trivial⟩) (fun _ k => k)
    · rintro v1 v2 e ⟨x, hx, k⟩; exact ⟨x, hx, (h.same _ _ e).trans k⟩
    · exact fun v1 v2 e k => (h.same _ _ e).trans k
    · rintro _ v' ⟨⟨x, rfl, k⟩, -⟩; exact ⟨.inl ⟨rfl, x, rfl⟩, k⟩
    · intro v' k; exact ⟨.inr rfl, by cases s <;> exact k⟩
  | insert i x =>
    refine Res.Ends.bind ((giving_ends (F := Same K.entries v)
      (Q := fun _ v' => i ≤ (K.entries v).length ∧ K.entries v' = (K.entries v).take i ++ K.entry x.size x.md :: (K.entries v).drop i) ?_
      (fun v1 e => note x v v1 e)).mono (fun _ v' e => ⟨.inl ⟨rfl, e.1⟩, e.2⟩) (fun v' e => ⟨.inr rfl, e⟩))
    unfold Api.insert
    rw [Exec.get_bind]
    refine Res.Ends.assert (fun hi => ?_) (fun _ => rfl)
    rw [h.len] at hi
    refine Res.Ends.bind ((reserve_ends h (.capBytesAlign 1 x.size x.align) v).mono (fun _ v1 e => ?_) (fun _ k => k))
    have k := h.insert i x v1
    have e : K.entries v1 = K.entries v := e
    unfold Same at k
    rw [e] at k
    exact k.mono (fun _ _ k => ⟨hi, k⟩) (fun _ k => k)
  | insertWith i s =>
    refine Res.Ends.bind ((onRight_ends (rec := rec) (X := i ≤ (K.entries v).length) (F := Same K.entries v)
      (Q := fun v' => ∃ x, s = .value x ∧ K.entries v' = (K.entries v).take i ++ K.entry x.size x.md :: (K.entries v).drop i) h.note ?_ ?_ ?_).mono ?_ ?_)
    · unfold Api.insertWithRun
      rw [Exec.get_bind]
      refine Res.Ends.bind ?_
      unfold Exec.onUnwind Exec.assert
      by_cases hi : i ≤ N.P.len v
      · rw [if_pos hi]
        rw [h.len] at hi
        exact (emplace_ends (new := fun m => (K.entries v).take i ++ m :: (K.entries v).drop i) h fun l md => h.insertWith env i l md v).mono
          (fun _ _ k => ⟨k, hi⟩) (fun _ k => k)
      · rw [if_neg hi]
        dsimp only
        unfold liftL
        dsimp only
        cases Source.drop (s.code env) [] with
        | ok _ _ => exact rfl
        | panic _ => trivial
        | abort => trivial
        | ub => trivial
    · rintro v1 v2 e ⟨x, hx, k⟩; exact ⟨x, hx, (h.same _ _ e).trans k⟩
    · exact fun v1 v2 e k => (h.same _ _ e).trans k
    · rintro _ v' ⟨⟨x, rfl, k⟩, hi⟩; exact ⟨.inl ⟨rfl, hi, x, rfl⟩, k⟩
    · intro v' k; exact ⟨.inr rfl, by cases s <;> exact k⟩
  | pop d =>
    dsimp only [Op.exec]
    rw [Exec.get_bind]
    unfold Api.popInto
    by_cases hl : N.P.len v ≠ 0
    · rw [if_pos hl]
      have hl' : K.entries v ≠ [] := by
        intro e; rw [h.len, e] at hl; exact hl rfl
      dsimp only
      refine Res.Ends.bind ((onLeft_ends (Q := fun t v' => K.entries v' = (K.entries v).dropLast ∧
        (t = none ∨ ∃ x m, t = some x ∧ (K.entries v).getLast? = some m ∧ K.shows m x)) (F := fun v' => K.entries v' = (K.entries v).dropLast) ?_).mono ?_ ?_)
      · refine (run_from (rec := rec) (Q := fun v' => K.entries v' = (K.entries v).dropLast) (F := fun v' => K.entries v' = (K.entries v).dropLast)
          (F0 := fun _ => False) (G := fun md => ∃ m, (K.entries v).getLast? = some m ∧ ∀ bs, K.shows m ⟨md, bs⟩)
          (X := fun md t3 => t3 = none ∨ ∃ bs, t3 = some ⟨md, bs⟩) (h.pop env v hl') (fun _ k => k.elim)
          (fun v1 v2 e k => (h.same _ _ e).trans k) (fun l md => dst_ends d l md)).mono ?_ (fun _ k => k)
        rintro _ ⟨v', t⟩ ⟨k, md, ⟨m, hm, hs⟩, ht⟩
        refine ⟨k, ?_⟩
        rcases ht with ht | ⟨bs, ht⟩
        · exact .inl ht
        · exact .inr ⟨_, m, ht, hm, hs bs⟩
      · rintro t v' ⟨k, ht⟩
        refine ⟨.inr ⟨hl', ?_⟩, k⟩
        rcases ht with rfl | ⟨x, m, rfl, hm, hs⟩
        · exact .inl rfl
        · exact .inr (.inr ⟨x, m, rfl, hm, hs⟩)
      · intro v' k
        exact ⟨.inr ⟨hl', .inr (.inl rfl)⟩, k⟩
    · rw [if_neg hl]
      have hl' : K.entries v = [] := by
        rw [h.len] at hl
        exact List.length_eq_zero_iff.1 (by omega)
      refine ⟨.inl ⟨rfl, hl'⟩, ?_⟩
      show K.entries v = (K.entries v).dropLast
      rw [hl']; rfl
  | remove i d =>
    have af : ∀ o : Option (Val T β), K.after (outOf o) (K.entries v) (.remove i d) = (K.entries v).eraseIdx i := by
      intro o; cases o <;> rfl
    by_cases hi : i < (K.entries v).length
    · refine Res.Ends.bind ((onLeft_ends (Q := fun t v' => K.entries v' = (K.entries v).eraseIdx i ∧
        (t = none ∨ ∃ x m, t = some x ∧ (K.entries v)[i]? = some m ∧ K.shows m x)) (F := fun v' => K.entries v' = K.failed (K.entries v)) ?_).mono ?_ ?_)
      · refine (run_from (rec := rec) (Q := fun v' => K.entries v' = (K.entries v).eraseIdx i) (F := fun v' => K.entries v' = K.failed (K.entries v))
          (F0 := fun _ => False) (G := fun md => ∃ m, (K.entries v)[i]? = some m ∧ ∀ bs, K.shows m ⟨md, bs⟩)
          (X := fun md t3 => t3 = none ∨ ∃ bs, t3 = some ⟨md, bs⟩) ?_ (fun _ k => k.elim)
          (fun v1 v2 e k => (h.same _ _ e).trans k) (fun l md => dst_ends d l md)).mono ?_ (fun _ k => k)
        · unfold Api.removeInto
          rw [Exec.get_bind]
          refine Res.Ends.assert (fun _ => h.remove env i v hi) (fun hn => ?_)
          rw [h.len] at hn
          exact hn hi
        · rintro _ ⟨v', t⟩ ⟨k, md, ⟨m, hm, hs⟩, ht⟩
          refine ⟨k, ?_⟩
          rcases ht with ht | ⟨bs, ht⟩
          · exact .inl ht
          · exact .inr ⟨_, m, ht, hm, hs bs⟩
      · rintro t v' ⟨k, ht⟩
        refine ⟨.inl ⟨hi, ?_⟩, k.trans (af t).symm⟩
        rcases ht with rfl | ⟨x, m, rfl, hm, hs⟩
        · exact .inl rfl
        · exact .inr ⟨x, m, rfl, hm, hs⟩
      · intro v' k
        refine ⟨.inr rfl, k.trans ?_⟩
        show _ = if i < (K.entries v).length then _ else _
        rw [if_pos hi]
    · have hx : Op.exec c N env (.remove i d) v = .panic v := by
        have e : onLeft (none : Option (Val T β)) (run (Api.removeInto N.P env i) d.code) v = .panic v := by
          have e1 : Api.removeInto N.P env i v = .panic v := by
            unfold Api.removeInto
            rw [Exec.get_bind]
            refine Exec.bind_panic ?_
            unfold Exec.assert
            rw [h.len, if_neg hi]
          have e2 : run (Api.removeInto N.P env i) d.code (v, (none : Option (Val T β))) = .panic (v, none) := by
            unfold run
            refine Exec.bind_panic ?_
            unfold liftL
            rw [e1]
          unfold onLeft
          rw [e2]
        exact Exec.bind_panic e
      rw [hx]
      refine ⟨.inr rfl, ?_⟩
      show _ = if i < (K.entries v).length then _ else _
      rw [if_neg hi]
  | reserve q => exact Res.Ends.bind ((reserve_ends h q v).mono (fun _ _ k => ⟨trivial, k⟩) (fun _ k => ⟨trivial, k⟩))
  | tryReserve q =>
    refine Res.Ends.bind ((((h.reserve q.align).attempt (Same.pre _) (Nat.le_refl _)).ends v).mono (fun r v' k => ?_) (fun _ k => ⟨trivial, k⟩))
    cases r with
    | ok u => exact ⟨trivial, k.1⟩
    | error e => exact ⟨trivial, k.1⟩
  | shrink q => exact Res.Ends.bind (((shrink_keeps h q).ends v).mono (fun _ _ k => ⟨trivial, k.1⟩) (fun _ k => ⟨trivial, k⟩))
  | get i =>
    dsimp only [Op.exec]
    rw [Exec.get_bind]
    refine Res.Ends.orUb fun o ho => ?_
    unfold Api.get at ho
    rw [h.len] at ho
    split at ho
    · obtain ⟨r, hr, rfl⟩ := Option.map_eq_some_iff.1 ho
      obtain ⟨m, hm, hs⟩ := h.get v i r hr
      exact ⟨.inr ⟨_, m, rfl, hm, hs⟩, rfl⟩
    · cases ho
      exact ⟨.inl ⟨rfl, by omega⟩, rfl⟩
  | index i =>
    dsimp only [Op.exec]
    unfold Api.index
    refine Res.Ends.bind ?_
    rw [Exec.get_bind]
    refine Res.Ends.orUb fun o ho => ?_
    unfold Api.get at ho
    rw [h.len] at ho
    split at ho
    · obtain ⟨r, hr, rfl⟩ := Option.map_eq_some_iff.1 ho
      obtain ⟨m, hm, hs⟩ := h.get v i r hr
      exact ⟨.inr ⟨_, m, rfl, hm, hs⟩, rfl⟩
    · cases ho
      exact ⟨.inl ⟨rfl, by omega⟩, rfl⟩
  | set i bs =>
    dsimp only [Op.exec]
    rw [Exec.get_bind]
    refine Res.Ends.orUb fun o ho => ?_
    unfold Api.get at ho
    rw [h.len] at ho
    split at ho
    · obtain ⟨r, hr, rfl⟩ := Option.map_eq_some_iff.1 ho
      exact Res.Ends.bind ((h.store r bs v).mono (fun _ v' e => ⟨.inr ⟨rfl, by assumption⟩, h.same _ _ e⟩) (fun _ k => k.elim))
    · cases ho
      exact ⟨.inl ⟨rfl, by omega⟩, rfl⟩
  | len => exact ⟨congrArg _ (h.len v), rfl⟩
  | iter ks =>
    dsimp only [Op.exec]
    rw [Exec.get_bind]
    exact Res.Ends.orUb fun o ho => ⟨trivial, rfl⟩
  | iterMut ks bss =>
    dsimp only [Op.exec]
    rw [Exec.get_bind]
    exact Res.Ends.orUb fun o ho => Res.Ends.bind ((storeAll_ends h o bss v).mono (fun _ v' e => ⟨trivial, h.same _ _ e⟩) (fun _ k => k.elim))

/-- A program. -/
theorem runOps_follows (h : K.Lawful rec N) : ∀ (ops : List (Env (Val T β) × Op T β)) (v : V),
    (runOps c N ops v).Ends (fun os v' => K.Follows ops os (K.entries v) (K.entries v')) (fun _ => False)
  | [], v => ⟨rfl, rfl⟩
  | (env, op) :: rest, v => by
    refine Res.Ends.bind ?_
    have k := Op.exec_ends (c := c) (env := env) h op v
    have next : ∀ o v', K.Sees o (K.entries v) op ∧ K.entries v' = K.after o (K.entries v) op →
        ((runOps c N rest >>= fun os => pure (o :: os)) v').Ends (fun os v2 => K.Follows ((env, op) :: rest) os (K.entries v) (K.entries v2)) (fun _ => False) := by
      rintro o v' ⟨k1, k2⟩
      refine Res.Ends.bind ((runOps_follows h rest v').mono (fun os v2 k3 => ?_) (fun _ k => k))
      rw [k2] at k3
      exact ⟨o, os, rfl, k1, k3⟩
    unfold caught
    revert k
    cases op.exec c N env v with
    | ok o v' => exact fun k => next o v' k
    | panic v' => exact fun k => next .panicked v' k
    | abort => exact fun _ => trivial
    | ub => exact fun _ => trivial

end
end Verif
