import Verif.Spec.History
import Verif.Proofs.Run
import Verif.Proofs.Exec
import Verif.Proofs.Iter

/-!
# Programs: from single calls to sequences of calls
-/

namespace Verif
section
variable {V : Type} {T : UTy} {β : Type} {c : Cfg}

/-! ## The sources -/

theorem Src.sound {s : Src T β} {xs : List (Val T β)} (h : (Op.pushWith s).WF c xs) (env : Env (Val T β)) (ds : List (Val T β)) :
    Emplacable.Sound c (s.code env) ds := by
  cases s with
  | value x =>
    have hx : x.WF c := h
    constructor
    · intro h; cases h
    · intro st s1 h; cases h; rfl
    · intro st s1 h; cases h; exact hx.metaOk
    · intro st s1 h h'; cases h; cases h'
    · intro st s1 bs s2 h h'; cases h; cases h'; exact ⟨hx.bytes_len, by intro h; cases h⟩
    · intro st s1 bs s2 h h'; cases h; cases h'
  | panics =>
    constructor
    · intro h; cases h
    · intro st s1 h; cases h
    · intro st s1 h; cases h
    · intro st s1 h; cases h
    · intro st s1 bs s2 h; cases h
    · intro st s1 bs s2 h; cases h
  | fails md bs =>
    have h1 : MetaOk c md ∧ bs.length ≤ T.sizeOf md := h
    constructor
    · intro h; cases h
    · intro st s1 h; cases h; rfl
    · intro st s1 h; cases h; exact h1.1
    · intro st s1 h h'; cases h; cases h'
    · intro st s1 bs s2 h h'; cases h; cases h'
    · intro st s1 bs s2 h h'; cases h; cases h'; exact h1.2

/-- Only a source that has a value delivers, and it delivers that value. -/
theorem Src.runs {s : Src T β} {env : Env (Val T β)} {ds : List (Val T β)} {x : Val T β} {r : Res (List (Val T β)) Unit}
    (h : Emplacable.Runs (s.code env) ds x r) : s = .value x ∧ r = .ok () ds := by
  obtain ⟨st, s1, s2, h1, h2, h3, h4⟩ := h
  cases s with
  | value y =>
    cases h1
    have h5 : y.md = x.md := h2
    have h7 : (WriteRes.done y.bytes ds : WriteRes (List (Val T β)) β) = .done x.bytes s2 := h3
    have h6 : y.bytes = x.bytes := by injection h7
    have h8 : ds = s2 := by injection h7
    refine ⟨?_, by rw [h8]; exact h4.symm⟩
    cases x; cases y
    cases h5; cases h6; rfl
  | panics => cases h1
  | fails md bs => cases h1; cases h3

theorem Src.no_unwind {x : Val T β} {env : Env (Val T β)} {ds ds' : List (Val T β)}
    (h : Emplacable.Unwinds ((Src.value x).code env) ds ds') : False := by
  rcases h with h | ⟨st, s1, bs, h1, h2⟩
  · cases h
  · cases h1; cases h2

theorem Src.unwinds {s : Src T β} {env : Env (Val T β)} {ds ds' : List (Val T β)}
    (h : Emplacable.Unwinds (s.code env) ds ds') : ds' = ds := by
  cases s with
  | value x => exact (Src.no_unwind h).elim
  | panics =>
    rcases h with h | ⟨st, s1, bs, h1, h2⟩
    · cases h; rfl
    · cases h1
  | fails md bs =>
    rcases h with h | ⟨st, s1, bs, h1, h2⟩
    · cases h
    · cases h1; cases h2; rfl

theorem Src.no_abort {s : Src T β} {env : Env (Val T β)} {ds : List (Val T β)} (h : Emplacable.Aborts (s.code env) ds) : False := by
  cases s with
  | value x =>
    rcases h with h | ⟨st, s1, h1, h2 | ⟨bs, s2, h2, h3⟩⟩
    · cases h
    · cases h1; cases h2
    · cases h1; cases h3
  | panics =>
    rcases h with h | ⟨st, s1, h1, _⟩
    · cases h
    · cases h1
  | fails md bs =>
    rcases h with h | ⟨st, s1, h1, h2 | ⟨bs, s2, h2, h3⟩⟩
    · cases h
    · cases h1; cases h2
    · cases h1; cases h2

theorem Src.announces_log {s : Src T β} {env : Env (Val T β)} {md : T.Meta} {ds ds' : List (Val T β)}
    (h : Emplacable.Announces (s.code env) ds md ds') : ds' = ds := by
  obtain ⟨st, h1, rfl⟩ := h
  cases s <;> cases h1 <;> rfl

theorem Src.announces {s : Src T β} {env : Env (Val T β)} {md : T.Meta} {ds ds' : List (Val T β)}
    (h : Emplacable.Announces (s.code env) ds md ds') : (∃ x, s = .value x ∧ md = x.md) ∨ ∃ bs, s = .fails md bs := by
  obtain ⟨st, h1, rfl⟩ := h
  cases s with
  | value x => cases h1; exact .inl ⟨x, rfl, rfl⟩
  | panics => cases h1
  | fails md bs => cases h1; exact .inr ⟨bs, rfl⟩

/-- What happens when such an emplacable is dropped. -/
theorem Src.dropped (s : Src T β) (env : Env (Val T β)) (ds : List (Val T β)) :
    run (s.code env) Sink.dropping (ds, ()) =
      (match s with
      | .value x => if env.dropPanics x then .panic (ds ++ [x], ()) else .ok () (ds ++ [x], ())
      | .panics => .panic (ds, ())
      | .fails _ _ => .ok () (ds, ())) := by
  rw [run_dropping]
  cases s with
  | value x =>
    obtain ⟨d, hd, h1⟩ : ∃ d : Exec (List (Val T β)) Unit,
        (d ds = if env.dropPanics x then .panic (ds ++ [x]) else .ok () (ds ++ [x])) ∧
          Source.drop ((Src.value x).code env) ds = (d >>= fun _ => pure ()) ds := ⟨_, rfl, rfl⟩
    dsimp only
    by_cases hp : env.dropPanics x = true
    · rw [if_pos hp] at hd ⊢
      exact liftL_panic (h1.trans (Exec.bind_panic hd))
    · rw [if_neg hp] at hd ⊢
      exact liftL_ok (h1.trans (Exec.bind_ok hd))
  | panics => rfl
  | fails md bs => rfl

/-! ## The sinks -/

/-- What a sink does with a plain value does not depend on the layout that is announced. -/
theorem Dst.givenAs_run (d : Dst) (lay lay' : Layout) (env : Env (Val T β)) (x : Val T β) (ds : List (Val T β)) :
    run (givenAs lay env x) d.code (ds, (none : Option (Val T β))) = run (givenAs lay' env x) d.code (ds, none) := by
  cases d <;> rfl

/-- What a sink does with a plain value. -/
theorem Dst.given_run (d : Dst) (env : Env (Val T β)) (x : Val T β) (ds : List (Val T β)) :
    run (given env x) d.code (ds, (none : Option (Val T β))) =
      (match d with
      | .take => .ok () (ds, some x)
      | .drop => if env.dropPanics x then .panic (ds ++ [x], none) else .ok () (ds ++ [x], none)
      | .forget => .ok () (ds, none)
      | .panics => .panic (ds, none)) := by
  cases d with
  | take => rfl
  | forget => rfl
  | panics => rfl
  | drop =>
    have h1 : dropGiven env x ds = if env.dropPanics x then .panic (ds ++ [x]) else .ok () (ds ++ [x]) := rfl
    rw [run_dropIt (e := given env x) (m := (Dst.drop).code) rfl rfl]
    dsimp only
    by_cases hd : env.dropPanics x = true
    · rw [if_pos hd] at h1 ⊢
      exact Exec.bind_panic (liftL_panic h1)
    · rw [if_neg hd] at h1 ⊢
      rw [Exec.bind_ok (liftL_ok h1)]
      rfl

/-! ## Single calls -/

/-- What is known about the calls of one implementation. -/
structure Client (c : Cfg) (M : Machine V T β) where
  H : V → List (Val T β) → Prop
  EnvOk : Env (Val T β) → Prop
  Short : Env (Val T β) → Op T β → V → List (Val T β) → Prop
  Covered : Env (Val T β) → Op T β → V → List (Val T β) → Prop
  len : ∀ {v xs}, H v xs → M.P.len v = xs.length
  note : ∀ {v xs x}, H v xs → H (M.note x v) xs ∧ M.drops (M.note x v) = M.drops v ++ [x]
  push : ∀ {v xs env x}, H v xs → EnvOk env → x.WF c → Covered env (.push x) v xs →
    (Api.push c M.P env x v).Meets (fun _ v' => H v' (xs ++ [x]) ∧ M.drops v' = M.drops v)
      (fun v' => (H v' xs ∧ M.drops v' = M.drops v) ∧ Short env (.push x) v xs) (Short env (.push x) v xs)
  insert : ∀ {v xs env x i}, H v xs → EnvOk env → x.WF c → Covered env (.insert i x) v xs → i ≤ xs.length →
    (Api.insert c M.P env i x v).Meets (fun _ v' => H v' (xs.take i ++ x :: xs.drop i) ∧ M.drops v' = M.drops v)
      (fun v' => (H v' xs ∧ M.drops v' = M.drops v) ∧ Short env (.insert i x) v xs) (Short env (.insert i x) v xs)
  insert_out : ∀ {v xs env x i}, H v xs → xs.length < i → Api.insert c M.P env i x v = .panic v
  pushWith : ∀ {v xs env} {s : Src T β}, H v xs → EnvOk env → (Op.pushWith s).WF c xs → Covered env (.pushWith s) v xs →
    (Api.pushWithRun M.P env (s.code env) ([], v)).Meets
      (fun _ st => st.1 = [] ∧ ∃ x, s = .value x ∧ H st.2 (xs ++ [x]) ∧ M.drops st.2 = M.drops v)
      (fun st => st.1 = [] ∧ (H st.2 xs ∧ M.drops st.2 = M.drops v) ∧ ((∃ x, s = .value x) → Short env (.pushWith s) v xs))
      (Short env (.pushWith s) v xs)
  insertWith : ∀ {v xs env} {s : Src T β} {i}, H v xs → EnvOk env → (Op.pushWith s).WF c xs → Covered env (.insertWith i s) v xs →
    i ≤ xs.length →
    (Api.insertWithRun M.P env i (s.code env) ([], v)).Meets
      (fun _ st => st.1 = [] ∧ ∃ x, s = .value x ∧ H st.2 (xs.take i ++ x :: xs.drop i) ∧ M.drops st.2 = M.drops v)
      (fun st => st.1 = [] ∧ (H st.2 xs ∧ M.drops st.2 = M.drops v) ∧ ((∃ x, s = .value x) → Short env (.insertWith i s) v xs))
      (Short env (.insertWith i s) v xs)
  insertWith_out : ∀ {v xs env} {s : Src T β} {i}, H v xs → xs.length < i →
    RejectedWith v (run (s.code env) Sink.dropping ([], ())) (Api.insertWithRun M.P env i (s.code env) ([], v))
  pop : ∀ {v xs x} env (d : Dst), H v (xs ++ [x]) → ∃ e, Api.popInto M.P env v = some e ∧
    SameOutcome (run e d.code (v, none)) (run (given env x) d.code (M.drops v, none)) (fun v' ds => H v' xs ∧ M.drops v' = ds)
      (fun v' ds => H v' xs ∧ M.drops v' = ds)
  pop_nil : ∀ {v} env, H v [] → Api.popInto M.P env v = none
  remove : ∀ {v xs env i} {d : Dst}, H v xs → (hi : i < xs.length) → Covered env (.remove i d) v xs →
    SameOutcome (run (Api.removeInto M.P env i) d.code (v, none)) (run (given env xs[i]) d.code (M.drops v, none))
      (fun v' ds => H v' (xs.eraseIdx i) ∧ M.drops v' = ds) (fun v' ds => H v' xs ∧ M.drops v' = ds)
  /-- a destructor that panics is not covered -/
  remove_drop : ∀ {v xs env i}, H v xs → (hi : i < xs.length) → Covered env (.remove i .drop) v xs → env.dropPanics xs[i] = false
  remove_out : ∀ {v xs env i}, H v xs → xs.length ≤ i → Api.removeInto M.P env i v = .panic v
  reserve : ∀ {v xs env} {q : Reservation}, H v xs → EnvOk env → Covered env (.reserve q) v xs →
    (q.run c M.P env v).Meets (fun _ v' => H v' xs ∧ M.drops v' = M.drops v)
      (fun v' => (H v' xs ∧ M.drops v' = M.drops v) ∧ Short env (.reserve q) v xs) (Short env (.reserve q) v xs)
  tryReserve : ∀ {v xs env} {q : Reservation}, H v xs → EnvOk env → Covered env (.tryReserve q) v xs →
    (q.attempt c M.P env v).Meets
      (fun r v' => (H v' xs ∧ M.drops v' = M.drops v) ∧ (r = .ok () ∨ Short env (.tryReserve q) v xs))
      (fun v' => (H v' xs ∧ M.drops v' = M.drops v) ∧ Short env (.tryReserve q) v xs) False
  shrink : ∀ {v xs env} {q : Shrinking}, H v xs → EnvOk env → Covered env (.shrink q) v xs →
    (q.run c M.P env v).Meets (fun _ v' => H v' xs ∧ M.drops v' = M.drops v) (fun _ => False) (Short env (.shrink q) v xs)
  get : ∀ {v xs i}, H v xs → (hi : i < xs.length) → ∃ r, Api.get M.P v i = some (some r) ∧ M.read v r = xs[i]
  get_out : ∀ {v xs i}, H v xs → xs.length ≤ i → Api.get M.P v i = some none
  store : ∀ {v xs i bs}, H v xs → (hi : i < xs.length) → bs.length = xs[i].size →
    ∃ r v', Api.get M.P v i = some (some r) ∧ M.store r bs v = .ok () v' ∧ H v' (xs.set i ⟨xs[i].md, bs⟩) ∧ M.drops v' = M.drops v
  /-- writing through a reference does not change what other references refer to -/
  keep : ∀ {v xs i bs v'} {r : Ref T}, H v xs → i < xs.length → Api.get M.P v i = some (some r) → M.store r bs v = .ok () v' →
    ∀ j, refTo M.P v' j = refTo M.P v j
  calls : ∀ {v xs env ks}, H v xs → Covered env (.iter ks) v xs →
    M.calls v ks = some ((visited ks xs).map (·.bind (refTo M.P v)))
  coveredMut : ∀ {v xs env ks bss}, Covered env (.iterMut ks bss) v xs → Covered env (.iter ks) v xs

theorem modify_some {α : Type} {f : α → α} {i : Nat} {xs : List α} {x : α} (h : xs[i]? = some x) : xs.modify i f = xs.set i (f x) := by
  obtain ⟨hi, rfl⟩ := List.getElem?_eq_some_iff.mp h
  rw [List.modify_eq_take_cons_drop hi, List.set_eq_take_append_cons_drop, if_pos hi]

theorem filterMap_same {α γ : Type} {f g : α → Option γ} : ∀ {l : List α}, (∀ a ∈ l, f a = g a) → l.filterMap f = l.filterMap g
  | [], _ => rfl
  | a :: l, h => by
    rw [List.filterMap_cons, List.filterMap_cons, h a List.mem_cons_self, filterMap_same fun b hb => h b (List.mem_cons_of_mem _ hb)]

namespace Client
variable {M : Machine V T β} (K : Client c M) {v : V} {xs : List (Val T β)}

/-- The vector in state `v` is the list in state `s`. -/
def Rel (v : V) (s : Ideal T β) : Prop := Tracks M K.H v s

theorem index_in (h : K.H v xs) {i : Nat} (hi : i < xs.length) : ∃ r, Api.index M.P i v = .ok r v ∧ M.read v r = xs[i] := by
  obtain ⟨r, h1, h2⟩ := K.get h hi
  refine ⟨r, ?_, h2⟩
  unfold Api.index
  rw [Exec.get_bind, Exec.orUb_bind h1]; rfl

theorem index_out (h : K.H v xs) {i : Nat} (hi : xs.length ≤ i) : Api.index M.P i v = .panic v := by
  unfold Api.index
  rw [Exec.get_bind, Exec.orUb_bind (K.get_out h hi)]; rfl

/-- The judgement on one call. -/
def Good (env : Env (Val T β)) (op : Op T β) (v : V) (s : Ideal T β) : Prop :=
  (caught (op.exec c M env) v).Meets
    (fun o v' => ∃ s', K.Rel v' s' ∧ op.Allows (K.Short env op v s.contents) env.dropPanics s o s')
    (fun _ => False) (K.Short env op v s.contents ∨ op.Dies env.dropPanics s.contents)

theorem good_of_meets {env : Env (Val T β)} {op : Op T β} {s : Ideal T β} {α : Type} {m : Exec V α} {f : α → Exec V (Out T β)}
    (he : op.exec c M env = m >>= f) {okP : α → V → Prop} {panicP : V → Prop} {abortP : Prop} (hm : (m v).Meets okP panicP abortP)
    (hok : ∀ a v', okP a v' → ∃ o, f a v' = .ok o v' ∧ ∃ s', K.Rel v' s' ∧ op.Allows (K.Short env op v s.contents) env.dropPanics s o s')
    (hp : ∀ v', panicP v' → ∃ s', K.Rel v' s' ∧ op.Allows (K.Short env op v s.contents) env.dropPanics s .panicked s')
    (ha : abortP → K.Short env op v s.contents ∨ op.Dies env.dropPanics s.contents) : K.Good env op v s := by
  unfold Good caught
  rw [he]
  cases h1 : m v with
  | ok a v' =>
    rw [h1] at hm
    obtain ⟨o, h2, h3⟩ := hok a v' hm
    rw [Exec.bind_ok h1, h2]
    exact h3
  | panic v' => rw [h1] at hm; rw [Exec.bind_panic h1]; exact hp v' hm
  | abort => rw [h1] at hm; rw [Exec.bind_abort h1]; exact ha hm
  | ub => rw [h1] at hm; exact hm.elim

theorem good_of_ok {env : Env (Val T β)} {op : Op T β} {s : Ideal T β} {o : Out T β} {v' : V} {s' : Ideal T β}
    (he : op.exec c M env v = .ok o v') (hr : K.Rel v' s') (ha : (o, s') = op.onList env.dropPanics s) : K.Good env op v s := by
  unfold Good caught
  rw [he]
  exact ⟨s', hr, .inl ha⟩

theorem good_of_panic {env : Env (Val T β)} {op : Op T β} {s : Ideal T β} {v' : V} {s' : Ideal T β}
    (he : op.exec c M env v = .panic v') (hr : K.Rel v' s') (ha : (.panicked, s') = op.onList env.dropPanics s) : K.Good env op v s := by
  unfold Good caught
  rw [he]
  exact ⟨s', hr, .inl ha⟩

theorem good_of_abort {env : Env (Val T β)} {op : Op T β} {s : Ideal T β} (he : op.exec c M env v = .abort)
    (ha : op.Dies env.dropPanics s.contents) : K.Good env op v s := by
  unfold Good caught
  rw [he]
  exact .inr ha

theorem onRight_meets {α : Type} {m : Exec (List (Val T β) × V) α} {okP : α → V → Prop} {panicP : V → Prop} {abortP : Prop}
    (h : (m ([], v)).Meets (fun a st => st.1 = [] ∧ okP a st.2) (fun st => st.1 = [] ∧ panicP st.2) abortP) :
    (onRight M m v).Meets okP panicP abortP := by
  unfold onRight
  cases h1 : m ([], v) with
  | ok a st =>
    rw [h1] at h
    obtain ⟨ds, v'⟩ := st
    obtain ⟨h2, h3⟩ := h
    cases h2; exact h3
  | panic st =>
    rw [h1] at h
    obtain ⟨ds, v'⟩ := st
    obtain ⟨h2, h3⟩ := h
    cases h2; exact h3
  | abort => rw [h1] at h; exact h
  | ub => rw [h1] at h; exact h

/-- A function that owns its argument `x`: if it panics, `x` is dropped once. -/
theorem giving_meets {env : Env (Val T β)} {x : Val T β} {m : Exec V Unit} {okP : V → Prop} {why : Prop}
    (h : (m v).Meets (fun _ v' => okP v') (fun v' => (K.H v' xs ∧ M.drops v' = M.drops v) ∧ why) why) :
    (M.giving env x m v).Meets (fun _ v' => okP v')
      (fun v' => (K.H v' xs ∧ M.drops v' = M.drops v ++ [x] ∧ env.dropPanics x = false) ∧ why) why := by
  unfold Machine.giving Exec.onUnwind
  cases h1 : m v with
  | ok u v' => rw [h1] at h; exact h
  | abort => rw [h1] at h; exact h
  | ub => rw [h1] at h; exact h
  | panic v' =>
    rw [h1] at h
    obtain ⟨⟨h2, h3⟩, h4⟩ := h
    obtain ⟨h5, h6⟩ := K.note (x := x) h2
    dsimp only
    unfold Machine.dropArg
    rw [Exec.modify_bind]
    by_cases hd : env.dropPanics x = true
    · rw [if_pos hd]; exact h4
    · rw [if_neg hd]; exact ⟨⟨h5, by rw [h6, h3], by simpa using hd⟩, h4⟩

/-- A function that owns its argument `x` and panics. -/
theorem giving_panic {env : Env (Val T β)} (x : Val T β) {m : Exec V Unit} (hm : m v = .panic v) :
    M.giving env x m v = if env.dropPanics x then .abort else .panic (M.note x v) := by
  unfold Machine.giving Exec.onUnwind
  rw [hm]
  dsimp only
  unfold Machine.dropArg
  rw [Exec.modify_bind]
  by_cases hd : env.dropPanics x = true
  · rw [if_pos hd, if_pos hd]; rfl
  · rw [if_neg hd, if_neg hd]; rfl

/-- The outcome of using up a removed value. -/
theorem taken {e : Emplacable V T β} {env : Env (Val T β)} {x : Val T β} {d : Dst} {Q Q' : V → List (Val T β) → Prop}
    (h : SameOutcome (run e d.code (v, none)) (run (given env x) d.code (M.drops v, none)) Q Q') :
    ∃ v' ds, (d.onList env.dropPanics x (M.drops v)).2 = ds ∧
      (((onLeft none (run e d.code) >>= fun t => pure (outOf t)) v = .ok (d.onList env.dropPanics x (M.drops v)).1 v' ∧ Q v' ds ∧
          d ≠ .panics) ∨
        ((onLeft none (run e d.code) >>= fun t => pure (outOf t)) v = .panic v' ∧
          (d.onList env.dropPanics x (M.drops v)).1 = .panicked ∧ Q' v' ds ∧ (d = .panics ∨ (d = .drop ∧ env.dropPanics x = true)))) := by
  rw [Dst.given_run] at h
  have hok : ∀ {t ds}, SameOutcome (run e d.code (v, none)) (.ok () (ds, t)) Q Q' → ∃ v',
      (onLeft none (run e d.code) >>= fun t => pure (outOf t)) v = .ok (outOf t) v' ∧ Q v' ds := by
    intro t ds h
    cases h1 : run e d.code (v, none) with
    | ok u st =>
      rw [h1] at h
      obtain ⟨rfl, h2⟩ := h
      refine ⟨st.1, ?_, h2⟩
      rw [Exec.bind_ok (a := st.2) (s' := st.1) (by unfold onLeft; rw [h1])]
      rfl
    | panic st => rw [h1] at h; exact h.elim
    | abort => rw [h1] at h; exact h.elim
    | ub => rw [h1] at h; exact h.elim
  have hpanic : ∀ {t ds}, SameOutcome (run e d.code (v, none)) (.panic (ds, t)) Q Q' → ∃ v',
      (onLeft none (run e d.code) >>= fun t => pure (outOf t)) v = .panic v' ∧ Q' v' ds := by
    intro t ds h
    cases h1 : run e d.code (v, none) with
    | panic st =>
      rw [h1] at h
      obtain ⟨rfl, h2⟩ := h
      refine ⟨st.1, ?_, h2⟩
      rw [Exec.bind_panic (s' := st.1) (by unfold onLeft; rw [h1])]
    | ok u st => rw [h1] at h; exact h.elim
    | abort => rw [h1] at h; exact h.elim
    | ub => rw [h1] at h; exact h.elim
  cases d with
  | take => obtain ⟨v', h1, h2⟩ := hok h; exact ⟨v', _, rfl, .inl ⟨h1, h2, by decide⟩⟩
  | forget => obtain ⟨v', h1, h2⟩ := hok h; exact ⟨v', _, rfl, .inl ⟨h1, h2, by decide⟩⟩
  | panics => obtain ⟨v', h1, h2⟩ := hpanic h; exact ⟨v', _, rfl, .inr ⟨h1, rfl, h2, .inl rfl⟩⟩
  | drop =>
    dsimp only at h
    by_cases hd : env.dropPanics x = true
    · rw [if_pos hd] at h
      obtain ⟨v', h1, h2⟩ := hpanic h
      exact ⟨v', _, rfl, .inr ⟨h1, if_pos hd, h2, .inr ⟨rfl, hd⟩⟩⟩
    · rw [if_neg hd] at h
      obtain ⟨v', h1, h2⟩ := hok h
      refine ⟨v', _, rfl, .inl ⟨?_, h2, by decide⟩⟩
      rw [h1]
      show Res.ok Out.done v' = .ok (if env.dropPanics x then .panicked else .done) v'
      rw [if_neg hd]

theorem refTo_read (h : K.H v xs) (i : Nat) : (refTo M.P v i).map (M.read v) = xs[i]? := by
  unfold refTo
  by_cases hi : i < xs.length
  · obtain ⟨r, h1, h2⟩ := K.get h hi
    rw [h1, List.getElem?_eq_getElem hi, ← h2]; rfl
  · rw [K.get_out h (by omega), List.getElem?_eq_none (by omega)]; rfl

/-- Writing through references that were obtained earlier, one after the other. -/
theorem storeAll_ok {refs : Nat → Option (Ref T)} : ∀ (is : List (Option Nat)) (bss : List (List β)) {v : V} {xs : List (Val T β)},
    K.H v xs → (∀ j, refTo M.P v j = refs j) →
    (∀ p ∈ is.zip bss, ∀ x, p.1.bind (xs[·]?) = some x → p.2.length = x.size) →
    ∃ v', storeAll M (is.map (·.bind refs)) bss v = .ok () v' ∧ K.H v' (overwrite is bss xs) ∧ M.drops v' = M.drops v
  | [], _, v, xs, h, _, _ => ⟨v, rfl, h, rfl⟩
  | none :: is, [], v, xs, h, _, _ => ⟨v, rfl, h, rfl⟩
  | some i :: is, [], v, xs, h, _, _ => by
    refine ⟨v, ?_, h, rfl⟩
    show storeAll M ((refs i) :: _) [] v = _
    cases refs i <;> rfl
  | none :: is, bs :: bss, v, xs, h, hr, hw =>
    storeAll_ok is bss h hr fun p hp => hw p (List.mem_cons_of_mem _ hp)
  | some i :: is, bs :: bss, v, xs, h, hr, hw => by
    show ∃ v', storeAll M (refs i :: _) (bs :: bss) v = _ ∧ K.H v' (overwrite is bss (xs.modify i _)) ∧ _
    by_cases hi : i < xs.length
    · have hget : xs[i]? = some xs[i] := List.getElem?_eq_getElem hi
      obtain ⟨r, v1, h1, h2, h3, h4⟩ := K.store h hi (hw (some i, bs) List.mem_cons_self _ hget)
      have h5 : refs i = some r := by rw [← hr i]; unfold refTo; rw [h1]; rfl
      have hw1 : ∀ p ∈ is.zip bss, ∀ x, p.1.bind ((xs.set i ⟨xs[i].md, bs⟩)[·]?) = some x → p.2.length = x.size := by
        rintro ⟨o, b⟩ hp x hx
        cases o with
        | none => cases hx
        | some j =>
          have hx' : (xs.set i ⟨xs[i].md, bs⟩)[j]? = some x := hx
          have := hw (some j, b) (List.mem_cons_of_mem _ hp)
          rw [List.getElem?_set] at hx'
          split at hx'
          · next hij =>
            subst hij
            cases hx'
            exact this xs[i] hget
          · exact this x hx'
      obtain ⟨v', g1, g2, g3⟩ := storeAll_ok is bss h3 (fun j => (K.keep h hi h1 h2 j).trans (hr j)) hw1
      refine ⟨v', ?_, by rw [modify_some hget]; exact g2, g3.trans h4⟩
      rw [h5]
      show (M.store r bs >>= fun _ => storeAll M _ bss) v = _
      rw [Exec.bind_ok h2]; exact g1
    · have h5 : refs i = none := by rw [← hr i]; unfold refTo; rw [K.get_out h (by omega)]; rfl
      rw [h5, List.modify_eq_self (by omega)]
      exact storeAll_ok is bss h hr fun p hp => hw p (List.mem_cons_of_mem _ hp)

/-- Every covered call does what the list does. -/
theorem step {env : Env (Val T β)} (he : K.EnvOk env) {s : Ideal T β} (hr : K.Rel v s) (op : Op T β) (hw : op.WF c s.contents)
    (hc : K.Covered env op v s.contents) : K.Good env op v s := by
  obtain ⟨xs, ds⟩ := s
  obtain ⟨h, hd⟩ := hr
  dsimp only at h hd hw hc
  cases op with
  | push x =>
    refine K.good_of_meets (f := fun _ => pure .done) rfl (K.giving_meets (K.push h he hw hc)) ?_ ?_ .inl
    · rintro _ v' ⟨h1, h2⟩
      exact ⟨.done, rfl, _, ⟨h1, h2.trans hd⟩, .inl rfl⟩
    · rintro v' ⟨⟨h1, h2, _⟩, h3⟩
      exact ⟨⟨xs, ds ++ [x]⟩, ⟨h1, by rw [h2, hd]⟩, .inr ⟨h3, trivial, rfl, rfl⟩⟩
  | insert i x =>
    by_cases hi : i ≤ xs.length
    · refine K.good_of_meets (f := fun _ => pure .done) rfl (K.giving_meets (K.insert h he hw hc hi)) ?_ ?_ .inl
      · rintro _ v' ⟨h1, h2⟩
        refine ⟨.done, rfl, ⟨_, ds⟩, ⟨h1, h2.trans hd⟩, .inl ?_⟩
        show _ = if i ≤ xs.length then _ else _
        rw [if_pos hi]
      · rintro v' ⟨⟨h1, h2, _⟩, h3⟩
        exact ⟨⟨xs, ds ++ [x]⟩, ⟨h1, by rw [h2, hd]⟩, .inr ⟨h3, trivial, rfl, rfl⟩⟩
    · have h1 := giving_panic (M := M) (env := env) x (K.insert_out (env := env) (x := x) h (show xs.length < i by omega))
      by_cases hp : env.dropPanics x = true
      · rw [if_pos hp] at h1
        exact K.good_of_abort (Exec.bind_abort h1) ⟨by show xs.length < i; omega, hp⟩
      · rw [if_neg hp] at h1
        obtain ⟨h2, h3⟩ := K.note (x := x) h
        refine K.good_of_panic (s' := ⟨xs, ds ++ [x]⟩) (Exec.bind_panic h1) ⟨h2, by rw [h3, hd]⟩ ?_
        show _ = if i ≤ xs.length then _ else _
        rw [if_neg hi]
  | pushWith s =>
    refine K.good_of_meets (f := fun _ => pure .done) rfl (onRight_meets (okP := fun _ v' => ∃ x, s = .value x ∧ K.H v' (xs ++ [x]) ∧ M.drops v' = M.drops v)
      (panicP := fun v' => (K.H v' xs ∧ M.drops v' = M.drops v) ∧ ((∃ x, s = .value x) → K.Short env (.pushWith s) v xs))
      (K.pushWith h he hw hc)) ?_ ?_ .inl
    · rintro _ v' ⟨x, rfl, h1, h2⟩
      exact ⟨.done, rfl, ⟨_, ds⟩, ⟨h1, h2.trans hd⟩, .inl rfl⟩
    · rintro v' ⟨⟨h1, h2⟩, h3⟩
      refine ⟨⟨xs, ds⟩, ⟨h1, h2.trans hd⟩, ?_⟩
      cases s with
      | value x => exact .inr ⟨h3 ⟨x, rfl⟩, trivial, rfl, rfl⟩
      | panics => exact .inl rfl
      | fails md bs => exact .inl rfl
  | insertWith i s =>
    have hw' : (Op.pushWith s).WF c xs := by cases s <;> exact hw
    by_cases hi : i ≤ xs.length
    · refine K.good_of_meets (f := fun _ => pure .done) rfl (onRight_meets
        (okP := fun _ v' => ∃ x, s = .value x ∧ K.H v' (xs.take i ++ x :: xs.drop i) ∧ M.drops v' = M.drops v)
        (panicP := fun v' => (K.H v' xs ∧ M.drops v' = M.drops v) ∧ ((∃ x, s = .value x) → K.Short env (.insertWith i s) v xs))
        (K.insertWith h he hw' hc hi)) ?_ ?_ .inl
      · rintro _ v' ⟨x, rfl, h1, h2⟩
        refine ⟨.done, rfl, ⟨_, ds⟩, ⟨h1, h2.trans hd⟩, .inl ?_⟩
        show _ = if i ≤ xs.length then _ else _
        rw [if_pos hi]
      · rintro v' ⟨⟨h1, h2⟩, h3⟩
        refine ⟨⟨xs, ds⟩, ⟨h1, h2.trans hd⟩, ?_⟩
        cases s with
        | value x => exact .inr ⟨h3 ⟨x, rfl⟩, trivial, rfl, (if_pos hi).symm⟩
        | panics => exact .inl rfl
        | fails md bs => exact .inl rfl
    · have h1 := K.insertWith_out (env := env) (s := s) h (show xs.length < i by omega)
      rw [Src.dropped] at h1
      have hi' : xs.length < i := by omega
      cases hr : Api.insertWithRun M.P env i (s.code env) ([], v) with
      | ok u st => rw [hr] at h1; cases s <;> dsimp only at h1 <;> (try split at h1) <;> exact h1.elim
      | ub => rw [hr] at h1; cases s <;> dsimp only at h1 <;> (try split at h1) <;> exact h1.elim
      | abort =>
        rw [hr] at h1
        refine K.good_of_abort (Exec.bind_abort (by unfold onRight; rw [hr])) ?_
        cases s with
        | value x =>
          dsimp only at h1
          split at h1
          · next hp => exact ⟨hi', hp⟩
          · exact h1.elim
        | panics => exact hi'
        | fails md bs => exact h1.elim
      | panic st =>
        rw [hr] at h1
        obtain ⟨ds', v'⟩ := st
        have h2 : (Op.insertWith i s).exec c M env v = .panic (ds'.foldl (fun v x => M.note x v) v') :=
          Exec.bind_panic (by unfold onRight; rw [hr])
        cases s with
        | value x =>
          dsimp only at h1
          split at h1
          · exact h1.elim
          · obtain ⟨rfl, rfl⟩ := h1
            obtain ⟨h3, h4⟩ := K.note (x := x) h
            refine K.good_of_panic (s' := ⟨xs, ds ++ [x]⟩) h2 ⟨h3, h4.trans (by rw [hd])⟩ ?_
            show _ = if i ≤ xs.length then _ else _
            rw [if_neg hi]
        | panics => exact h1.elim
        | fails md bs =>
          obtain ⟨rfl, rfl⟩ := h1
          exact K.good_of_panic (s' := ⟨xs, ds⟩) h2 ⟨h, hd⟩ rfl
  | pop d =>
    rcases List.eq_nil_or_concat xs with rfl | ⟨ys, x, rfl⟩
    · refine K.good_of_ok (o := .nothing) (v' := v) (s' := ⟨[], ds⟩) ?_ ⟨h, hd⟩ rfl
      show (Exec.get >>= _ : Exec V _) v = _
      rw [Exec.get_bind, K.pop_nil env h]; rfl
    · rw [List.concat_eq_append] at h hc hw ⊢
      obtain ⟨e, h1, h2⟩ := K.pop env d h
      have hx : ∀ w, (Op.pop d).exec c M env v = w ↔ (onLeft none (run e d.code) >>= fun t => pure (outOf t)) v = w := by
        intro w
        show (Exec.get >>= _ : Exec V _) v = _ ↔ _
        rw [Exec.get_bind, h1]
      have hl : (Op.pop d).onList env.dropPanics ⟨ys ++ [x], ds⟩ =
          ((d.onList env.dropPanics x ds).1, ⟨ys, (d.onList env.dropPanics x ds).2⟩) := by
        simp only [Op.onList, List.getLast?_concat, List.dropLast_concat]
      obtain ⟨v', ds', h3, ⟨h4, h5, _⟩ | ⟨h4, h5, h6, _⟩⟩ := taken h2
      · rw [hd] at h3 h4
        refine K.good_of_ok ((hx _).2 h4) (s' := ⟨ys, ds'⟩) h5 ?_
        rw [hl, h3]
      · rw [hd] at h3 h5
        refine K.good_of_panic ((hx _).2 h4) (s' := ⟨ys, ds'⟩) h6 ?_
        rw [hl, h3, h5]
  | remove i d =>
    by_cases hi : i < xs.length
    · have hget : xs[i]? = some xs[i] := List.getElem?_eq_getElem hi
      have hl : (Op.remove i d).onList env.dropPanics ⟨xs, ds⟩ = ((d.onList env.dropPanics xs[i] ds).1,
          ⟨if d = .panics then xs else xs.eraseIdx i, (d.onList env.dropPanics xs[i] ds).2⟩) := by
        simp only [Op.onList, hget]
      obtain ⟨v', ds', h3, ⟨h4, h5, h6⟩ | ⟨h4, h5, h6, h7⟩⟩ := taken (K.remove h hi hc)
      · rw [hd] at h3 h4
        refine K.good_of_ok h4 (s' := ⟨xs.eraseIdx i, ds'⟩) h5 ?_
        rw [hl, h3, if_neg h6]
      · rw [hd] at h3 h5
        rcases h7 with rfl | ⟨rfl, h7⟩
        · refine K.good_of_panic h4 (s' := ⟨xs, ds'⟩) h6 ?_
          rw [hl, h3, h5]; rfl
        · rw [K.remove_drop h hi hc] at h7; cases h7
    · refine K.good_of_panic (v' := v) (s' := ⟨xs, ds⟩) ?_ ⟨h, hd⟩ ?_
      · refine Exec.bind_panic (s' := v) ?_
        unfold onLeft run
        rw [Exec.bind_panic (liftL_panic (K.remove_out h (by omega)))]
      · have : xs[i]? = none := List.getElem?_eq_none (by omega)
        simp only [Op.onList, this]
  | reserve q =>
    refine K.good_of_meets (f := fun _ => pure .done) rfl (K.reserve h he hc) ?_ ?_ .inl
    · rintro _ v' ⟨h1, h2⟩
      exact ⟨.done, rfl, ⟨xs, ds⟩, ⟨h1, h2.trans hd⟩, .inl rfl⟩
    · rintro v' ⟨⟨h1, h2⟩, h3⟩
      exact ⟨⟨xs, ds⟩, ⟨h1, h2.trans hd⟩, .inr ⟨h3, trivial, rfl, rfl⟩⟩
  | tryReserve q =>
    refine K.good_of_meets (okP := _) (panicP := _) (abortP := False) rfl (K.tryReserve h he hc) ?_ ?_ False.elim
    · rintro r v' ⟨⟨h1, h2⟩, h3⟩
      match r, h3 with
      | .ok (), _ => exact ⟨.done, rfl, ⟨xs, ds⟩, ⟨h1, h2.trans hd⟩, .inl rfl⟩
      | .error e, .inr h3 => exact ⟨.failed e, rfl, ⟨xs, ds⟩, ⟨h1, h2.trans hd⟩, .inr ⟨h3, trivial, .inr ⟨e, rfl⟩, rfl⟩⟩
    · rintro v' ⟨⟨h1, h2⟩, h3⟩
      exact ⟨⟨xs, ds⟩, ⟨h1, h2.trans hd⟩, .inr ⟨h3, trivial, .inl rfl, rfl⟩⟩
  | shrink q =>
    refine K.good_of_meets (f := fun _ => pure .done) rfl (K.shrink h he hc) ?_ (fun _ h => h.elim) .inl
    rintro _ v' ⟨h1, h2⟩
    exact ⟨.done, rfl, ⟨xs, ds⟩, ⟨h1, h2.trans hd⟩, .inl rfl⟩
  | get i =>
    by_cases hi : i < xs.length
    · obtain ⟨r, h1, h2⟩ := K.get h hi
      have hget : xs[i]? = some xs[i] := List.getElem?_eq_getElem hi
      refine K.good_of_ok (o := .value xs[i]) (v' := v) (s' := ⟨xs, ds⟩) ?_ ⟨h, hd⟩ (by simp only [Op.onList, hget])
      show (Exec.get >>= _ : Exec V _) v = _
      rw [Exec.get_bind, Exec.orUb_bind h1, ← h2]; rfl
    · have hget : xs[i]? = none := List.getElem?_eq_none (by omega)
      refine K.good_of_ok (o := .nothing) (v' := v) (s' := ⟨xs, ds⟩) ?_ ⟨h, hd⟩ (by simp only [Op.onList, hget])
      show (Exec.get >>= _ : Exec V _) v = _
      rw [Exec.get_bind, Exec.orUb_bind (K.get_out h (by omega))]; rfl
  | index i =>
    by_cases hi : i < xs.length
    · obtain ⟨r, h1, h2⟩ := K.index_in h hi
      have hget : xs[i]? = some xs[i] := List.getElem?_eq_getElem hi
      refine K.good_of_ok (o := .value xs[i]) (v' := v) (s' := ⟨xs, ds⟩) ?_ ⟨h, hd⟩ (by simp only [Op.onList, hget])
      show (Api.index M.P i >>= _ : Exec V _) v = _
      rw [Exec.bind_ok h1, ← h2]; rfl
    · have hget : xs[i]? = none := List.getElem?_eq_none (by omega)
      refine K.good_of_panic (v' := v) (s' := ⟨xs, ds⟩) ?_ ⟨h, hd⟩ (by simp only [Op.onList, hget])
      exact Exec.bind_panic (K.index_out h (by omega))
  | set i bs =>
    by_cases hi : i < xs.length
    · have hget : xs[i]? = some xs[i] := List.getElem?_eq_getElem hi
      obtain ⟨r, v', h1, h2, h3, h4⟩ := K.store h hi (hw _ hget)
      refine K.good_of_ok (o := .done) (v' := v') (s' := ⟨_, ds⟩) ?_ ⟨h3, h4.trans hd⟩ (by simp only [Op.onList, hget])
      show (Exec.get >>= _ : Exec V _) v = _
      rw [Exec.get_bind, Exec.orUb_bind h1]
      show (M.store r bs >>= _ : Exec V _) v = _
      rw [Exec.bind_ok h2]; rfl
    · have hget : xs[i]? = none := List.getElem?_eq_none (by omega)
      refine K.good_of_ok (o := .nothing) (v' := v) (s' := ⟨xs, ds⟩) ?_ ⟨h, hd⟩ (by simp only [Op.onList, hget])
      show (Exec.get >>= _ : Exec V _) v = _
      rw [Exec.get_bind, Exec.orUb_bind (K.get_out h (by omega))]; rfl
  | len =>
    refine K.good_of_ok (o := .number xs.length) (v' := v) (s' := ⟨xs, ds⟩) ?_ ⟨h, hd⟩ rfl
    show (Exec.get >>= _ : Exec V _) v = _
    rw [Exec.get_bind, K.len h]; rfl
  | iter ks =>
    refine K.good_of_ok (o := .values ((visited ks xs).map (·.bind (xs[·]?)))) (v' := v) (s' := ⟨xs, ds⟩) ?_ ⟨h, hd⟩ rfl
    show (Exec.get >>= _ : Exec V _) v = _
    rw [Exec.get_bind, Exec.orUb_bind (K.calls h hc)]
    show Res.ok (Out.values _) v = _
    rw [List.map_map]
    congr 2
    refine List.map_congr_left fun o _ => ?_
    cases o with
    | none => rfl
    | some i => exact K.refTo_read h i
  | iterMut ks bss =>
    obtain ⟨v', h1, h2, h3⟩ := K.storeAll_ok (visited ks xs) bss h (refs := refTo M.P v) (fun _ => rfl) hw
    refine K.good_of_ok (o := .done) (v' := v') (s' := ⟨overwrite (visited ks xs) bss xs, ds⟩) ?_ ⟨h2, h3.trans hd⟩ rfl
    show (Exec.get >>= _ : Exec V _) v = _
    rw [Exec.get_bind, Exec.orUb_bind (K.calls h (K.coveredMut hc))]
    show (storeAll M _ bss >>= _ : Exec V _) v = _
    rw [Exec.bind_ok h1]; rfl

/-! ## Sequences of calls -/

/-- The program respects the obligations of safe code and consists of covered calls, along the run. -/
def Safe (ops : List (Env (Val T β) × Op T β)) (v : V) (s : Ideal T β) : Prop :=
  Along c M K.H (fun env op v xs => K.EnvOk env ∧ op.WF c xs ∧ K.Covered env op v xs) ops v s

/-- Memory is never short along the run. -/
def Plenty (ops : List (Env (Val T β) × Op T β)) (v : V) (s : Ideal T β) : Prop :=
  Along c M K.H (fun env op v xs => ¬ K.Short env op v xs) ops v s

/-- Memory is never short along the run, and no rejected argument has a destructor that panics. -/
def Quiet (ops : List (Env (Val T β) × Op T β)) (v : V) (s : Ideal T β) : Prop :=
  Along c M K.H (fun env op v xs => ¬ K.Short env op v xs ∧ ¬ op.Dies env.dropPanics xs) ops v s

theorem _root_.Verif.Op.Allows.weaken {op : Op T β} {p q : Prop} (h : p → q) {panics : Val T β → Bool} {s s' : Ideal T β} {o : Out T β}
    (ha : op.Allows p panics s o s') : op.Allows q panics s o s' := by
  rcases ha with ha | ⟨h1, h2⟩
  · exact .inl ha
  · exact .inr ⟨h h1, h2⟩

theorem Good.caught_ok {env : Env (Val T β)} {op : Op T β} {s : Ideal T β} (h : K.Good env op v s) :
    (∃ o v' s', caught (op.exec c M env) v = .ok o v' ∧ K.Rel v' s' ∧
        op.Allows (K.Short env op v s.contents) env.dropPanics s o s') ∨
      (caught (op.exec c M env) v = .abort ∧ (K.Short env op v s.contents ∨ op.Dies env.dropPanics s.contents)) := by
  unfold Good at h
  cases h1 : caught (op.exec c M env) v with
  | ok o v' => rw [h1] at h; obtain ⟨s', h2, h3⟩ := h; exact .inl ⟨o, v', s', rfl, h2, h3⟩
  | panic v' => rw [h1] at h; exact h.elim
  | abort => rw [h1] at h; exact .inr ⟨rfl, h⟩
  | ub => rw [h1] at h; exact h.elim

/-- A program made of covered calls has no undefined behaviour, and what it observes is what a list would show, except that calls
that need memory may fail; the final state is that of the list. If memory is never short, there is no exception. -/
theorem history : ∀ (ops : List (Env (Val T β) × Op T β)) (v : V) (s : Ideal T β), K.Rel v s → K.Safe ops v s →
    (runOps c M ops v).Meets
      (fun os v' => ∃ s', K.Rel v' s' ∧ Explains ops s os s' ∧ (K.Plenty ops v s → (os, s') = listRun ops s))
      (fun _ => False) (¬ K.Quiet ops v s)
  | [], v, s, hr, _ => ⟨s, hr, ⟨rfl, rfl⟩, fun _ => rfl⟩
  | (env, op) :: rest, v, s, hr, hs => by
    obtain ⟨⟨he, hw, hc⟩, hrest⟩ := hs
    unfold runOps
    rcases Good.caught_ok K (K.step he hr op hw hc) with ⟨o, v1, s1, h1, h2, h3⟩ | ⟨h1, h2⟩
    · rw [Exec.bind_ok h1]
      have ih := history rest v1 s1 h2 (hrest o v1 s1 h1 h2 (h3.weaken fun _ => trivial))
      cases h4 : runOps c M rest v1 with
      | ok os v' =>
        rw [h4] at ih
        obtain ⟨s', h5, h6, h7⟩ := ih
        rw [Exec.bind_ok h4]
        refine ⟨s', h5, ⟨o, os, s1, rfl, h3.weaken fun _ => trivial, h6⟩, fun hp => ?_⟩
        obtain ⟨hp1, hp2⟩ := hp
        rcases h3 with h3 | ⟨h3, _⟩
        · have h8 := h7 (hp2 o v1 s1 h1 h2 (.inl h3))
          unfold listRun
          rw [← h3, ← h8]
        · exact absurd h3 hp1
      | panic v' => rw [h4] at ih; exact ih.elim
      | abort =>
        rw [h4] at ih
        rw [Exec.bind_abort h4]
        exact fun hp => ih (hp.2 o v1 s1 h1 h2 (h3.weaken fun _ => trivial))
      | ub => rw [h4] at ih; exact ih.elim
    · rw [Exec.bind_abort h1]
      exact fun hp => h2.elim hp.1.1 hp.1.2

theorem _root_.Verif.AlongList.along {H : V → List (Val T β) → Prop} {Q : Env (Val T β) → Op T β → List (Val T β) → Prop}
    {Q' : Env (Val T β) → Op T β → V → List (Val T β) → Prop} (hq : ∀ env op v xs, Q env op xs → Q' env op v xs) :
    ∀ (ops : List (Env (Val T β) × Op T β)) (v : V) (s : Ideal T β), AlongList Q ops s → Along c M H Q' ops v s
  | [], _, _, _ => trivial
  | (_, _) :: rest, _, _, h => ⟨hq _ _ _ _ h.1, fun _ v' s' _ _ ha => AlongList.along hq rest v' s' (h.2 _ _ ha)⟩

end Client

/-! ## Ownership -/

theorem Dst.onList_ledger (d : Dst) (panics : Val T β → Bool) (x : Val T β) (ds : List (Val T β)) :
    List.Perm (x :: ds) ((d.onList panics x ds).2 ++ if d = .drop then [] else [x]) := by
  cases d with
  | take => exact (List.perm_append_singleton x ds).symm
  | drop =>
    show List.Perm _ ((ds ++ [x]) ++ [])
    rw [List.append_nil]
    exact (List.perm_append_singleton x ds).symm
  | forget => exact (List.perm_append_singleton x ds).symm
  | panics => exact (List.perm_append_singleton x ds).symm

theorem perm_of_counts {α : Type} {l l' : List α}
    (h : ∀ [DecidableEq α] (a : α), l.count a = l'.count a) : List.Perm l l' := by
  classical
  exact List.perm_iff_count.mpr fun a => h a

theorem ledger_insert {α : Type} (x : α) (i : Nat) (xs ds : List α) :
    List.Perm ([x] ++ (xs ++ ds)) (xs.take i ++ x :: xs.drop i ++ ds ++ []) := by
  refine perm_of_counts fun a => ?_
  have : (xs.take i).count a + (xs.drop i).count a = xs.count a := by rw [← List.count_append, List.take_append_drop]
  simp only [List.count_append, List.count_cons, List.count_nil]
  omega

theorem ledger_erase {α : Type} {x : α} {i : Nat} {xs ds r ds' : List α} (h : xs[i]? = some x) (hp : List.Perm (x :: ds) (ds' ++ r)) :
    List.Perm (xs ++ ds) (xs.eraseIdx i ++ ds' ++ r) := by
  refine perm_of_counts fun a => ?_
  obtain ⟨hi, rfl⟩ := List.getElem?_eq_some_iff.mp h
  have h1 := hp.count_eq a
  have h2 : (xs.take i).count a + (xs[i] :: xs.drop (i + 1)).count a = xs.count a := by
    rw [← List.count_append, ← List.drop_eq_getElem_cons hi, List.take_append_drop]
  rw [List.eraseIdx_eq_take_drop_succ]
  simp only [List.count_append, List.count_cons] at h1 h2 ⊢
  omega

theorem ledger_set {α : Type} {x y : α} {i : Nat} {xs ds : List α} (h : xs[i]? = some x) :
    List.Perm ([y] ++ (xs ++ ds)) (xs.set i y ++ ds ++ [x]) := by
  refine perm_of_counts fun a => ?_
  obtain ⟨hi, rfl⟩ := List.getElem?_eq_some_iff.mp h
  have h2 : (xs.take i).count a + (xs[i] :: xs.drop (i + 1)).count a = xs.count a := by
    rw [← List.count_append, ← List.drop_eq_getElem_cons hi, List.take_append_drop]
  rw [List.set_eq_take_append_cons_drop, if_pos hi]
  simp only [List.count_append, List.count_cons, List.count_nil] at h2 ⊢
  omega

/-- The argument is dropped. -/
theorem ledger_reject {α : Type} (x : α) (xs ds : List α) : List.Perm ([x] ++ (xs ++ ds)) (xs ++ (ds ++ [x]) ++ []) := by
  refine perm_of_counts fun a => ?_
  simp only [List.count_append, List.count_cons, List.count_nil]
  omega

theorem ledger_same {α : Type} (xs ds : List α) : List.Perm ([] ++ (xs ++ ds)) (xs ++ ds ++ []) := by
  rw [List.nil_append, List.append_nil]

/-- Overwriting different elements. -/
theorem ledger_overwrite : ∀ (is : List (Option Nat)) (bss : List (List β)) (xs ds : List (Val T β)), (is.filterMap id).Nodup →
    List.Perm ((is.zip bss).filterMap (fun p => (p.1.bind (xs[·]?)).map fun x => (⟨x.md, p.2⟩ : Val T β)) ++ (xs ++ ds))
      (overwrite is bss xs ++ ds ++ (is.zip bss).filterMap fun p => p.1.bind (xs[·]?))
  | [], _, xs, ds, _ => ledger_same _ _
  | none :: is, [], xs, ds, _ => ledger_same _ _
  | some _ :: is, [], xs, ds, _ => ledger_same _ _
  | none :: is, bs :: bss, xs, ds, hn => ledger_overwrite is bss xs ds hn
  | some i :: is, bs :: bss, xs, ds, hn => by
    have hn' : i ∉ is.filterMap id ∧ (is.filterMap id).Nodup := List.nodup_cons.1 hn
    cases hx : xs[i]? with
    | none =>
      rw [List.zip_cons_cons, List.filterMap_cons_none (by simp [hx]), List.filterMap_cons_none (by simp [hx])]
      have : (xs.modify i fun x => (⟨x.md, bs⟩ : Val T β)) = xs := List.modify_eq_self (List.getElem?_eq_none_iff.1 hx)
      show List.Perm _ (overwrite is bss (xs.modify i _) ++ _ ++ _)
      rw [this]
      exact ledger_overwrite is bss xs ds hn'.2
    | some x =>
      rw [List.zip_cons_cons, List.filterMap_cons_some (b := ⟨x.md, bs⟩) (by simp [hx]),
        List.filterMap_cons_some (b := x) (by simp [hx])]
      show List.Perm _ (overwrite is bss (xs.modify i _) ++ _ ++ _)
      have hset : (xs.modify i fun x => (⟨x.md, bs⟩ : Val T β)) = xs.set i ⟨x.md, bs⟩ := modify_some hx
      rw [hset]
      have ih := ledger_overwrite is bss (xs.set i ⟨x.md, bs⟩) ds hn'.2
      have hsame : ∀ p ∈ is.zip bss, p.1.bind ((xs.set i ⟨x.md, bs⟩)[·]?) = p.1.bind (xs[·]?) := by
        rintro ⟨o, b⟩ hp
        cases o with
        | none => rfl
        | some j =>
          have hj : j ∈ is.filterMap id := List.mem_filterMap.2 ⟨_, (List.of_mem_zip hp).1, rfl⟩
          have hij : i ≠ j := fun e => hn'.1 (e ▸ hj)
          exact List.getElem?_set_ne hij
      rw [filterMap_same (fun p hp => by rw [hsame p hp]), filterMap_same hsame] at ih
      refine perm_of_counts fun a => ?_
      have h1 := ih.count_eq a
      have h2 := (ledger_set (y := (⟨x.md, bs⟩ : Val T β)) (ds := ds) hx).count_eq a
      simp only [List.count_append, List.count_cons, List.count_nil] at h1 h2 ⊢
      omega

/-- No call duplicates or loses a value. -/
theorem Op.Allows.ledger {op : Op T β} {p : Prop} {panics : Val T β → Bool} {s s' : Ideal T β} {o : Out T β}
    (h : op.Allows p panics s o s') :
    List.Perm (op.gained s.contents o ++ (s.contents ++ s.dropped)) (s'.contents ++ s'.dropped ++ op.released s.contents) := by
  obtain ⟨xs, ds⟩ := s
  rcases h with h | ⟨_, ha, hf, rfl⟩
  rotate_left
  · cases op with
    | push x => cases hf; exact ledger_reject _ _ _
    | pushWith s => cases hf; cases s <;> exact ledger_same _ _
    | insert i x => cases hf; exact ledger_reject _ _ _
    | insertWith i s =>
      cases hf
      cases s with
      | value x =>
        show List.Perm ((if i ≤ xs.length then [] else [x]) ++ _) ((if i ≤ xs.length then _ else _ : Ideal T β).contents ++
          (if i ≤ xs.length then _ else _ : Ideal T β).dropped ++ [])
        by_cases hi : i ≤ xs.length
        · rw [if_pos hi, if_pos hi]; exact ledger_same _ _
        · rw [if_neg hi, if_neg hi]; exact ledger_reject _ _ _
      | panics => exact ledger_same _ _
      | fails md bs => exact ledger_same _ _
    | reserve q => cases hf; exact ledger_same _ _
    | tryReserve q => exact ledger_same _ _
    | _ => exact ha.elim
  cases op with
  | push x =>
    cases h
    have := ledger_insert x xs.length xs ds
    rwa [List.take_length, List.drop_length] at this
  | pushWith s =>
    cases s with
    | value x =>
      cases h
      have := ledger_insert x xs.length xs ds
      rwa [List.take_length, List.drop_length] at this
    | panics => cases h; exact ledger_same _ _
    | fails md bs => cases h; exact ledger_same _ _
  | insert i x =>
    simp only [Op.onList] at h
    split at h
    · cases h; exact ledger_insert x i xs ds
    · cases h; exact ledger_reject _ _ _
  | insertWith i s =>
    cases s with
    | value x =>
      simp only [Op.onList] at h
      split at h
      · cases h; exact ledger_insert x i xs ds
      · next hi =>
        cases h
        show List.Perm ((if i ≤ xs.length then [] else [x]) ++ _) _
        rw [if_neg hi]
        exact ledger_reject _ _ _
    | panics => cases h; exact ledger_same _ _
    | fails md bs => cases h; exact ledger_same _ _
  | pop d =>
    have hgain : ∀ o, (Op.pop d : Op T β).gained xs o = [] := fun _ => rfl
    rw [hgain]
    rcases List.eq_nil_or_concat xs with rfl | ⟨ys, x, rfl⟩
    · cases h
      cases d <;> exact ledger_same _ _
    · rw [List.concat_eq_append] at h ⊢
      simp only [Op.onList, List.getLast?_concat, List.dropLast_concat] at h
      cases h
      have h1 : (ys ++ [x])[ys.length]? = some x := List.getElem?_concat_length
      have h2 := ledger_erase h1 (d.onList_ledger panics x ds)
      have h3 : (Op.pop d : Op T β).released (ys ++ [x]) = if d = .drop then [] else [x] := by
        cases d <;> simp [Op.released]
      rw [h3, List.nil_append]
      rwa [List.eraseIdx_append_of_length_le (Nat.le_refl _), Nat.sub_self, List.eraseIdx_cons_zero, List.append_nil] at h2
  | remove i d =>
    have hgain : ∀ o, (Op.remove i d : Op T β).gained xs o = [] := fun _ => rfl
    rw [hgain]
    simp only [Op.onList] at h
    cases hx : xs[i]? with
    | none =>
      rw [hx] at h
      cases h
      have h3 : (Op.remove i d : Op T β).released xs = [] := by cases d <;> simp [Op.released, hx]
      rw [h3]
      exact ledger_same _ _
    | some x =>
      rw [hx] at h
      cases h
      by_cases hd : d = .panics
      · subst hd
        exact ledger_same _ _
      · have h3 : (Op.remove i d : Op T β).released xs = if d = .drop then [] else [x] := by
          cases d with
          | panics => exact absurd rfl hd
          | _ => simp [Op.released, hx]
        rw [h3, List.nil_append]
        show List.Perm _ ((if d = .panics then xs else xs.eraseIdx i) ++ _ ++ _)
        rw [if_neg hd]
        exact ledger_erase hx (d.onList_ledger panics x ds)
  | reserve q => cases h; exact ledger_same _ _
  | tryReserve q => cases h; exact ledger_same _ _
  | shrink q => cases h; exact ledger_same _ _
  | get i =>
    simp only [Op.onList] at h
    split at h <;> cases h <;> exact ledger_same _ _
  | index i =>
    simp only [Op.onList] at h
    split at h <;> cases h <;> exact ledger_same _ _
  | set i bs =>
    simp only [Op.onList] at h
    cases hx : xs[i]? with
    | none =>
      rw [hx] at h
      cases h
      show List.Perm _ (_ ++ _ ++ xs[i]?.toList)
      rw [hx]
      exact ledger_same _ _
    | some x =>
      rw [hx] at h
      cases h
      show List.Perm ((xs[i]?.map _).toList ++ _) (_ ++ _ ++ xs[i]?.toList)
      rw [hx]
      exact ledger_set hx
  | len => cases h; exact ledger_same _ _
  | iter k => cases h; exact ledger_same _ _
  | iterMut ks bss =>
    cases h
    refine ledger_overwrite _ bss xs ds ?_
    exact (List.nodup_append.1 (ICall.specRun_nodup ks (List.nodup_range (n := xs.length))).1).1

/-- The observations determine a ledger. -/
theorem Explains.ledger : ∀ {ops : List (Env (Val T β) × Op T β)} {s : Ideal T β} {os : List (Out T β)} {s' : Ideal T β},
    Explains ops s os s' → ∃ g r, Ledger ops s os s' g r
  | [], s, os, s', h => by
    obtain ⟨rfl, rfl⟩ := h
    exact ⟨[], [], .nil _⟩
  | (env, op) :: rest, s, os, s', ⟨o, os', s1, h1, h2, h3⟩ => by
    obtain ⟨g, r, h4⟩ := Explains.ledger h3
    subst h1
    exact ⟨_, _, .cons h2 h4⟩

/-- The books balance. -/
theorem Ledger.balance {ops : List (Env (Val T β) × Op T β)} {s : Ideal T β} {os : List (Out T β)} {s' : Ideal T β} {g r : List (Val T β)}
    (h : Ledger ops s os s' g r) : List.Perm (g ++ (s.contents ++ s.dropped)) (s'.contents ++ s'.dropped ++ r) := by
  induction h with
  | nil s => exact ledger_same _ _
  | cons h _ ih =>
    refine perm_of_counts fun a => ?_
    have h1 := (h.ledger).count_eq a
    have h2 := ih.count_eq a
    simp only [List.count_append] at h1 h2 ⊢
    omega

end
end Verif
