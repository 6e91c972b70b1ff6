import Verif.Proofs.HistoryInst
import Verif.Props.Move
import Verif.Spec.Several

/-!
# Programs that use several vectors: proofs

`Mover` adds to a `Client` what is known about moving elements. The three implementations are instances.
-/

namespace Verif
section
variable {V : Type} {T : UTy} {β : Type} {c : Cfg}

/-! ## Replacing one vector of several -/

theorem put_same {X : Type} (f : Nat → X) (k : Nat) (a : X) : put f k a k = a := if_pos rfl
theorem put_other {X : Type} (f : Nat → X) {k n : Nat} (a : X) (h : n ≠ k) : put f k a n = f n := if_neg h
theorem put_self {X : Type} (f : Nat → X) (k : Nat) : put f k (f k) = f := by
  funext n
  by_cases h : n = k
  · subst h; exact put_same _ _ _
  · exact put_other _ _ h

theorem TracksAll.put {M : Machine V T β} {H : V → List (Val T β) → Prop} {f : Nat → V} {s : Nat → Ideal T β} (h : TracksAll M H f s)
    {k : Nat} {v : V} {u : Ideal T β} (hv : Tracks M H v u) : TracksAll M H (put f k v) (put s k u) := by
  intro n
  by_cases hn : n = k
  · subst hn; rw [put_same, put_same]; exact hv
  · rw [put_other _ _ hn, put_other _ _ hn]; exact h n

/-! ## What is known about moving elements -/

/-- What is known about the emplacables that `pop_into` and `remove_into` return, and about calls that use them. -/
structure Mover {M : Machine V T β} (K : Client c M) where
  /-- the layout that is announced -/
  lay : Val T β → Layout
  /-- what is left if the user of the result of `remove_into` unwinds -/
  left : List (Val T β) → List (Val T β)
  wf : ∀ {v xs}, K.H v xs → ∀ x ∈ xs, x.WF c
  pop : ∀ {b ys x} (env : Env (Val T β)), K.H b (ys ++ [x]) → ∃ e, Api.popInto M.P env b = some e ∧
    ∀ {τ : Type} (m : Emplacer τ T β) (t : τ), SameOutcome (run e m (b, t)) (run (givenAs (lay x) env x) m (M.drops b, t))
      (fun v ds => K.H v ys ∧ M.drops v = ds) (fun v ds => K.H v ys ∧ M.drops v = ds)
  remove : ∀ {b ys i} {env : Env (Val T β)}, K.H b ys → (hi : i < ys.length) → K.Covered env (.remove i .take) b ys →
    ∀ {τ : Type} (m : Emplacer τ T β) (t : τ),
      SameOutcome (run (Api.removeInto M.P env i) m (b, t)) (run (givenAs (lay ys[i]) env ys[i]) m (M.drops b, t))
        (fun v ds => K.H v (ys.eraseIdx i) ∧ M.drops v = ds) (fun v ds => K.H v (left ys) ∧ M.drops v = ds)
  push : ∀ {a xs env x} (ds : List (Val T β)), K.H a xs → K.EnvOk env → x.WF c → K.Covered env (.pushWith (.value x)) a xs →
    (Api.pushWithRun M.P env (givenAs (lay x) env x) (ds, a)).Meets
      (fun _ st => st.1 = ds ∧ K.H st.2 (xs ++ [x]) ∧ M.drops st.2 = M.drops a)
      (fun st => st.1 = ds ∧ (K.H st.2 xs ∧ M.drops st.2 = M.drops a) ∧ K.Short env (.pushWith (.value x)) a xs)
      (K.Short env (.pushWith (.value x)) a xs)
  insert : ∀ {a xs env x i} (ds : List (Val T β)), K.H a xs → K.EnvOk env → x.WF c → K.Covered env (.insertWith i (.value x)) a xs →
    i ≤ xs.length →
    (Api.insertWithRun M.P env i (givenAs (lay x) env x) (ds, a)).Meets
      (fun _ st => st.1 = ds ∧ K.H st.2 (xs.take i ++ x :: xs.drop i) ∧ M.drops st.2 = M.drops a)
      (fun st => st.1 = ds ∧ (K.H st.2 xs ∧ M.drops st.2 = M.drops a) ∧ K.Short env (.insertWith i (.value x)) a xs)
      (K.Short env (.insertWith i (.value x)) a xs)

theorem givenAs_dropping (lay : Layout) (env : Env (Val T β)) (x : Val T β) (ds : List (Val T β)) :
    run (givenAs lay env x) Sink.dropping (ds, ()) = if env.dropPanics x then .panic (ds ++ [x], ()) else .ok () (ds ++ [x], ()) := by
  have h1 : dropGiven env x ds = if env.dropPanics x then .panic (ds ++ [x]) else .ok () (ds ++ [x]) := rfl
  rw [run_dropIt (e := givenAs lay env x) (m := Sink.dropping) rfl rfl]
  by_cases hd : env.dropPanics x = true
  · rw [if_pos hd] at h1 ⊢
    exact Exec.bind_panic (liftL_panic h1)
  · rw [if_neg hd] at h1 ⊢
    rw [Exec.bind_ok (liftL_ok h1)]
    rfl

namespace Mover
variable {M : Machine V T β} {K : Client c M} (N : Mover K)

/-- Memory is short for a command. -/
def Short (_ : Mover K) (env : Env (Val T β)) (cmd : Cmd T β) (f : Nat → V) (s : Nat → List (Val T β)) : Prop :=
  cmd.Lacks (fun op k => K.Short env op (f k) (s k)) s

/-- The command respects the obligations of safe code and is covered. -/
def Covered (N : Mover K) (env : Env (Val T β)) (cmd : Cmd T β) (f : Nat → V) (s : Nat → List (Val T β)) : Prop :=
  K.EnvOk env ∧ cmd.Asks c (fun op k => K.Covered env op (f k) (s k)) s ∧
    (cmd.Removes → (∀ xs, N.left xs = xs) ∨ ¬ N.Short env cmd f s)

/-- The judgement on one command. -/
def Good (env : Env (Val T β)) (cmd : Cmd T β) (f : Nat → V) (s : Nat → Ideal T β) : Prop :=
  (∃ o f' s', caught (cmd.exec c M env) f = .ok o f' ∧ TracksAll M K.H f' s' ∧
      cmd.Allows (N.Short env cmd f (listsOf s)) env.dropPanics s o s') ∨
    (caught (cmd.exec c M env) f = .abort ∧ (N.Short env cmd f (listsOf s) ∨ cmd.Dies env.dropPanics (listsOf s)))

/-- What is left if the user of the element unwinds. -/
def after (xs : List (Val T β)) : Take → List (Val T β)
  | .last => xs.dropLast
  | .at _ => N.left xs

/-- The argument is evaluated. -/
theorem open_some {b : V} {xs : List (Val T β)} (h : K.H b xs) (env : Env (Val T β)) (t : Take) {x : Val T β} {ys : List (Val T β)}
    (hp : t.pick xs = some (x, ys)) (hc : ∀ i, t = .at i → K.Covered env (.remove i .take) b xs) :
    x ∈ xs ∧ ∃ e, t.open M.P env b = .ok e b ∧ ∀ {τ : Type} (m : Emplacer τ T β) (u : τ),
      SameOutcome (run e m (b, u)) (run (givenAs (N.lay x) env x) m (M.drops b, u))
        (fun v ds => K.H v ys ∧ M.drops v = ds)
        (fun v ds => K.H v (N.after xs t) ∧ M.drops v = ds) := by
  cases t with
  | last =>
    unfold Take.pick at hp
    obtain ⟨x', h1, h2⟩ := Option.map_eq_some_iff.mp hp
    cases h2
    obtain ⟨zs, rfl⟩ := List.getLast?_eq_some_iff.mp h1
    obtain ⟨e, h3, h4⟩ := N.pop env h
    refine ⟨by simp, e, ?_, fun m u => ?_⟩
    · unfold Take.open
      dsimp only
      rw [Exec.get_bind, h3]; rfl
    · have h5 := h4 m u
      unfold after
      simp only [List.dropLast_concat]
      exact h5
  | «at» i =>
    unfold Take.pick at hp
    obtain ⟨x', h1, h2⟩ := Option.map_eq_some_iff.mp hp
    cases h2
    obtain ⟨hi, rfl⟩ := List.getElem?_eq_some_iff.mp h1
    refine ⟨List.getElem_mem hi, Api.removeInto M.P env i, ?_, fun m u => N.remove h hi (hc i rfl) m u⟩
    unfold Take.open
    dsimp only
    rw [Exec.get_bind]
    exact Exec.bind_ok (if_pos (by rw [K.len h]; exact hi))

theorem open_none {b : V} {xs : List (Val T β)} (h : K.H b xs) (env : Env (Val T β)) (t : Take) (hp : t.pick xs = none) :
    t.open M.P env b = .panic b := by
  cases t with
  | last =>
    unfold Take.pick at hp
    rw [Option.map_eq_none_iff, List.getLast?_eq_none_iff] at hp
    subst hp
    unfold Take.open
    dsimp only
    rw [Exec.get_bind, K.pop_nil env h]; rfl
  | «at» i =>
    unfold Take.pick at hp
    rw [Option.map_eq_none_iff, List.getElem?_eq_none_iff] at hp
    unfold Take.open
    dsimp only
    rw [Exec.get_bind]
    exact Exec.bind_panic (if_neg (by rw [K.len h]; omega))

/-- The use of the argument, when there is room for it or memory is short. -/
theorem place_some {a b : V} {xs ys : List (Val T β)} {env : Env (Val T β)} (he : K.EnvOk env) (ha : K.H a xs) {x : Val T β} (hx : x.WF c)
    {p : Put} {zs ks : List (Val T β)} (hp : p.place x xs = some zs) (hc : K.Covered env (p.op x) a xs) {e : Emplacable V T β}
    (hm : ∀ {τ : Type} (m : Emplacer τ T β) (u : τ), SameOutcome (run e m (b, u)) (run (givenAs (N.lay x) env x) m (M.drops b, u))
      (fun v ds => K.H v ys ∧ M.drops v = ds) (fun v ds => K.H v ks ∧ M.drops v = ds)) :
    (p.run M.P env e (b, a)).Meets
      (fun _ st => (K.H st.1 ys ∧ M.drops st.1 = M.drops b) ∧ K.H st.2 zs ∧ M.drops st.2 = M.drops a)
      (fun st => ((K.H st.1 ks ∧ M.drops st.1 = M.drops b) ∧ K.H st.2 xs ∧ M.drops st.2 = M.drops a) ∧ K.Short env (p.op x) a xs)
      (K.Short env (p.op x) a xs) := by
  cases p with
  | push =>
    cases hp
    refine ((hm (Api.pushWith M.P env) a).meets (N.push (M.drops b) ha he hx hc)).mono ?_ ?_ id
    · rintro _ ⟨b', a'⟩ ⟨ds, ⟨h1, h2⟩, rfl, h4, h5⟩
      exact ⟨⟨h1, h2⟩, h4, h5⟩
    · rintro ⟨b', a'⟩ ⟨ds, ⟨h1, h2⟩, rfl, ⟨h4, h5⟩, h6⟩
      exact ⟨⟨⟨h1, h2⟩, h4, h5⟩, h6⟩
  | insert i =>
    unfold Put.place at hp
    by_cases hi : i ≤ xs.length
    · simp only [if_pos hi, Option.some.injEq] at hp
      subst hp
      have hg : ∀ {σ : Type} (e : Emplacable σ T β) (s : σ), Api.insertWithRun M.P env i e (s, a) = run e (M.P.insertWithUnchecked env i) (s, a) := by
        intro σ e s
        unfold Api.insertWithRun
        rw [Exec.get_bind, Exec.guardedAssert_bind (by rw [K.len ha]; exact hi)]
      have h0 := N.insert (M.drops b) ha he hx hc hi
      rw [hg] at h0
      show (Api.insertWithRun M.P env i e (b, a)).Meets _ _ _
      rw [hg]
      refine ((hm _ a).meets h0).mono ?_ ?_ id
      · rintro _ ⟨b', a'⟩ ⟨ds, ⟨h1, h2⟩, rfl, h4, h5⟩
        exact ⟨⟨h1, h2⟩, h4, h5⟩
      · rintro ⟨b', a'⟩ ⟨ds, ⟨h1, h2⟩, rfl, ⟨h4, h5⟩, h6⟩
        exact ⟨⟨⟨h1, h2⟩, h4, h5⟩, h6⟩
    · simp only [if_neg hi] at hp
      exact nomatch hp

/-- The index is wrong: the value is dropped. -/
theorem place_none {a b : V} {xs ys ks : List (Val T β)} {env : Env (Val T β)} (ha : K.H a xs) {x : Val T β}
    {p : Put} (hp : p.place x xs = none) {e : Emplacable V T β}
    (hm : ∀ {τ : Type} (m : Emplacer τ T β) (u : τ), SameOutcome (run e m (b, u)) (run (givenAs (N.lay x) env x) m (M.drops b, u))
      (fun v ds => K.H v ys ∧ M.drops v = ds) (fun v ds => K.H v ks ∧ M.drops v = ds)) :
    (p.run M.P env e (b, a)).Meets (fun _ _ => False)
      (fun st => (K.H st.1 ys ∧ M.drops st.1 = M.drops b ++ [x]) ∧ st.2 = a) (env.dropPanics x = true) := by
  cases p with
  | push => exact nomatch hp
  | insert i =>
    unfold Put.place at hp
    by_cases hi : i ≤ xs.length
    · simp only [if_pos hi] at hp
      exact nomatch hp
    · have h1 : RejectedWith a (run e Sink.dropping (b, ())) (Api.insertWithRun M.P env i e (b, a)) := by
        unfold Api.insertWithRun
        rw [Exec.get_bind]
        exact rejectedWith e b a (by rw [K.len ha]; exact hi) _
      have h2 := hm Sink.dropping ()
      rw [givenAs_dropping] at h2
      show (Api.insertWithRun M.P env i e (b, a)).Meets _ _ _
      by_cases hd : env.dropPanics x = true
      · rw [if_pos hd] at h2
        cases h3 : run e Sink.dropping (b, ()) with
        | panic st =>
          rw [h3] at h1
          cases h4 : Api.insertWithRun M.P env i e (b, a) with
          | abort => exact hd
          | _ => rw [h4] at h1; exact h1.elim
        | _ => rw [h3] at h2; exact h2.elim
      · rw [if_neg hd] at h2
        cases h3 : run e Sink.dropping (b, ()) with
        | ok u st =>
          rw [h3] at h1 h2
          obtain ⟨b', w⟩ := st
          cases h4 : Api.insertWithRun M.P env i e (b, a) with
          | panic st =>
            rw [h4] at h1
            obtain ⟨b'', a'⟩ := st
            obtain ⟨rfl, rfl⟩ := h1
            exact ⟨h2.2, rfl⟩
          | _ => rw [h4] at h1; exact h1.elim
        | _ => rw [h3] at h2; exact h2.elim

theorem move_exec {env : Env (Val T β)} {t : Take} {j k : Nat} {p : Put} {f : Nat → V} :
    caught ((Cmd.move t j p k).exec c M env) f =
      match moving M.P env t p (f j, f k) with
      | .ok _ (b, v) => .ok .done (put (put f j b) k v)
      | .panic (b, v) => .ok .panicked (put (put f j b) k v)
      | .abort => .abort
      | .ub => .ub := by
  unfold caught Cmd.exec
  dsimp only
  cases h : moving M.P env t p (f j, f k) with
  | ok u st =>
    have h1 : onTwo j k (moving M.P env t p) f = .ok u (put (put f j st.1) k st.2) := by unfold onTwo; rw [h]
    rw [Exec.bind_ok h1]; rfl
  | panic st =>
    have h1 : onTwo j k (moving M.P env t p) f = .panic (put (put f j st.1) k st.2) := by unfold onTwo; rw [h]
    rw [Exec.bind_panic h1]
  | abort =>
    have h1 : onTwo j k (moving M.P env t p) f = .abort := by unfold onTwo; rw [h]
    rw [Exec.bind_abort h1]
  | ub =>
    have h1 : onTwo j k (moving M.P env t p) f = .ub := by unfold onTwo; rw [h]
    rw [Exec.bind_ub h1]

theorem call_exec {env : Env (Val T β)} {k : Nat} {op : Op T β} {f : Nat → V} :
    caught ((Cmd.call k op).exec c M env) f =
      match caught (op.exec c M env) (f k) with
      | .ok o v => .ok o (put f k v)
      | .panic v => .panic (put f k v)
      | .abort => .abort
      | .ub => .ub := by
  unfold caught Cmd.exec onOne
  dsimp only
  cases op.exec c M env (f k) <;> rfl

/-- Every covered command is good. -/
theorem step {env : Env (Val T β)} {cmd : Cmd T β} {f : Nat → V} {s : Nat → Ideal T β} (hr : TracksAll M K.H f s)
    (hc : N.Covered env cmd f (listsOf s)) : N.Good env cmd f s := by
  obtain ⟨he, ha, hl⟩ := hc
  cases cmd with
  | call k op =>
    unfold Good
    rw [call_exec]
    rcases Client.Good.caught_ok K (K.step he (hr k) op ha.1 ha.2) with ⟨o, v', u, h1, h2, h3⟩ | ⟨h1, h2⟩
    · rw [h1]
      exact .inl ⟨o, _, _, rfl, hr.put h2, u, h3, rfl⟩
    · rw [h1]
      exact .inr ⟨rfl, h2⟩
  | move t j p k =>
    obtain ⟨hjk, ha⟩ := ha
    unfold Good
    rw [move_exec]
    unfold moving
    cases hpk : t.pick (s j).contents with
    | none =>
      rw [Exec.bind_panic (liftL_panic (open_none (hr j).1 env t hpk))]
      refine .inl ⟨_, _, s, rfl, ?_, .inl ?_⟩
      · rw [put_self, put_self]; exact hr
      · unfold Cmd.onLists
        dsimp only
        rw [hpk]
    | some xy =>
      obtain ⟨x, ys⟩ := xy
      obtain ⟨hc1, hc2⟩ := ha x ys hpk
      obtain ⟨hx, e, h1, h2⟩ := N.open_some (hr j).1 env t hpk hc1
      rw [Exec.bind_ok (liftL_ok h1)]
      cases hpl : p.place x (s k).contents with
      | some zs =>
        have h3 := N.place_some he (hr k).1 (N.wf (hr j).1 x hx) hpl hc2 h2
        have hsh : K.Short env (p.op x) (f k) (s k).contents → N.Short env (.move t j p k) f (listsOf s) :=
          fun h => ⟨x, ys, hpk, h⟩
        cases h4 : p.run M.P env e (f j, f k) with
        | ok u st =>
          rw [h4] at h3
          obtain ⟨b', a'⟩ := st
          obtain ⟨⟨h5, h6⟩, h7, h8⟩ := h3
          refine .inl ⟨_, _, put (put s j ⟨ys, (s j).dropped⟩) k ⟨zs, (s k).dropped⟩, rfl, ?_, .inl ?_⟩
          · exact (hr.put (k := j) (v := b') (u := ⟨ys, (s j).dropped⟩) ⟨h5, h6.trans (hr j).2⟩).put (k := k) (v := a') (u := ⟨zs, (s k).dropped⟩)
              ⟨h7, h8.trans (hr k).2⟩
          · unfold Cmd.onLists
            dsimp only
            rw [hpk]
            dsimp only
            rw [hpl]
        | panic st =>
          rw [h4] at h3
          obtain ⟨b', a'⟩ := st
          obtain ⟨⟨⟨h5, h6⟩, h7, h8⟩, h9⟩ := h3
          refine .inl ⟨_, _, put s j ⟨t.kept (s j).contents, (s j).dropped⟩, rfl, ?_, .inr ⟨hsh h9, rfl, x, ys, zs, hpk, hpl, rfl⟩⟩
          have h10 : K.H b' (t.kept (s j).contents) := by
            cases t with
            | last => exact h5
            | «at» i =>
              rcases hl trivial with h | h
              · unfold after at h5
                dsimp only at h5
                rw [h] at h5
                exact h5
              · exact absurd (hsh h9) h
          have h11 := (hr.put (k := j) (v := b') (u := ⟨t.kept (s j).contents, (s j).dropped⟩) ⟨h10, h6.trans (hr j).2⟩).put (k := k) (v := a') (u := s k) ⟨h7, h8.trans (hr k).2⟩
          have h12 : put (put s j ⟨t.kept (s j).contents, (s j).dropped⟩) k (s k) = put s j ⟨t.kept (s j).contents, (s j).dropped⟩ := by
            have h13 := put_self (put s j ⟨t.kept (s j).contents, (s j).dropped⟩) k
            rwa [put_other s _ (Ne.symm hjk)] at h13
          rw [h12] at h11
          exact h11
        | abort =>
          rw [h4] at h3
          exact .inr ⟨rfl, .inl (hsh h3)⟩
        | ub => rw [h4] at h3; exact h3.elim
      | none =>
        have h3 := N.place_none (hr k).1 hpl h2
        cases h4 : p.run M.P env e (f j, f k) with
        | ok u st => rw [h4] at h3; exact h3.elim
        | panic st =>
          rw [h4] at h3
          obtain ⟨b', a'⟩ := st
          obtain ⟨⟨h5, h6⟩, rfl⟩ := h3
          refine .inl ⟨_, _, put s j ⟨ys, (s j).dropped ++ [x]⟩, rfl, ?_, .inl ?_⟩
          · have h7 : put (put f j b') k (f k) = put f j b' := by
              have h8 := put_self (put f j b') k
              rwa [put_other f _ (Ne.symm hjk)] at h8
            rw [h7]
            exact hr.put ⟨h5, h6.trans (by rw [(hr j).2])⟩
          · unfold Cmd.onLists
            dsimp only
            rw [hpk]
            dsimp only
            rw [hpl]
        | abort =>
          rw [h4] at h3
          exact .inr ⟨rfl, .inr ⟨x, ys, hpk, hpl, h3⟩⟩
        | ub => rw [h4] at h3; exact h3.elim

theorem _root_.Verif.Cmd.Allows.weaken {cmd : Cmd T β} {p q : Prop} (h : p → q) {panics : Val T β → Bool} {s s' : Nat → Ideal T β} {o : Out T β}
    (ha : cmd.Allows p panics s o s') : cmd.Allows q panics s o s' := by
  cases cmd with
  | call k op => obtain ⟨u, h1, h2⟩ := ha; exact ⟨u, h1.weaken h, h2⟩
  | move t j q k =>
    rcases ha with ha | ⟨h1, h2⟩
    · exact .inl ha
    · exact .inr ⟨h h1, h2⟩

theorem _root_.Verif.Cmd.Allows.onLists {cmd : Cmd T β} {p : Prop} (hn : ¬ p) {panics : Val T β → Bool} {s s' : Nat → Ideal T β} {o : Out T β}
    (ha : cmd.Allows p panics s o s') : (o, s') = cmd.onLists panics s := by
  cases cmd with
  | call k op =>
    obtain ⟨u, h1 | h1, rfl⟩ := ha
    · unfold Cmd.onLists
      dsimp only
      rw [← h1]
    · exact absurd h1.1 hn
  | move t j q k =>
    rcases ha with ha | ⟨h1, h2⟩
    · exact ha
    · exact absurd h1 hn

/-- A program made of covered commands has no undefined behaviour, and what it observes is what lists would show, except that commands
that need memory may fail; the final state is that of the lists. If memory is never short, there is no exception. -/
theorem history : ∀ (cmds : List (Env (Val T β) × Cmd T β)) (f : Nat → V) (s : Nat → Ideal T β), TracksAll M K.H f s →
    AlongAll c M K.H N.Covered cmds f s →
    (runCmds c M cmds f).Meets
      (fun os f' => ∃ s', TracksAll M K.H f' s' ∧ ExplainsAll cmds s os s' ∧
        (AlongAll c M K.H (fun env cmd f s => ¬ N.Short env cmd f s) cmds f s → (os, s') = listsRun cmds s))
      (fun _ => False)
      (¬ AlongAll c M K.H (fun env cmd f s => ¬ N.Short env cmd f s ∧ ¬ cmd.Dies env.dropPanics s) cmds f s)
  | [], f, s, hr, _ => ⟨s, hr, ⟨rfl, rfl⟩, fun _ => rfl⟩
  | (env, cmd) :: rest, f, s, hr, hs => by
    obtain ⟨hc, hrest⟩ := hs
    unfold runCmds
    rcases N.step hr hc with ⟨o, f1, s1, h1, h2, h3⟩ | ⟨h1, h2⟩
    · rw [Exec.bind_ok h1]
      have ih := history rest f1 s1 h2 (hrest o f1 s1 h1 h2 (h3.weaken fun _ => trivial))
      cases h4 : runCmds c M rest f1 with
      | ok os f' =>
        rw [h4] at ih
        obtain ⟨s', h5, h6, h7⟩ := ih
        rw [Exec.bind_ok h4]
        refine ⟨s', h5, ⟨o, os, s1, rfl, h3.weaken fun _ => trivial, h6⟩, fun hp => ?_⟩
        obtain ⟨hp1, hp2⟩ := hp
        have h8 := h7 (hp2 o f1 s1 h1 h2 (h3.weaken fun _ => trivial))
        unfold listsRun
        rw [← h3.onLists hp1, ← h8]
      | panic v' => rw [h4] at ih; exact ih.elim
      | abort =>
        rw [h4] at ih
        rw [Exec.bind_abort h4]
        exact fun hp => ih (hp.2 o f1 s1 h1 h2 (h3.weaken fun _ => trivial))
      | ub => rw [h4] at ih; exact ih.elim
    · rw [Exec.bind_abort h1]
      exact fun hp => h2.elim hp.1.1 hp.1.2

end Mover

theorem AlongLists.along {M : Machine V T β} {H : V → List (Val T β) → Prop} {Q : Env (Val T β) → Cmd T β → (Nat → List (Val T β)) → Prop}
    {Q' : Env (Val T β) → Cmd T β → (Nat → V) → (Nat → List (Val T β)) → Prop} (hq : ∀ env cmd f s, Q env cmd s → Q' env cmd f s) :
    ∀ (cmds : List (Env (Val T β) × Cmd T β)) (f : Nat → V) (s : Nat → Ideal T β), AlongLists Q cmds s → AlongAll c M H Q' cmds f s
  | [], _, _, _ => trivial
  | (_, _) :: rest, _, _, h => ⟨hq _ _ _ _ h.1, fun _ f' s' _ _ ha => AlongLists.along hq rest f' s' (h.2 _ _ ha)⟩

theorem AlongAll.imp {M : Machine V T β} {H : V → List (Val T β) → Prop}
    {Q Q' : Env (Val T β) → Cmd T β → (Nat → V) → (Nat → List (Val T β)) → Prop} (hq : ∀ env cmd f s, Q env cmd f s → Q' env cmd f s) :
    ∀ {cmds : List (Env (Val T β) × Cmd T β)} {f : Nat → V} {s : Nat → Ideal T β}, AlongAll c M H Q cmds f s → AlongAll c M H Q' cmds f s
  | [], _, _, _ => trivial
  | (_, _) :: _, _, _, h => ⟨hq _ _ _ _ h.1, fun o f' s' hc ht ha => AlongAll.imp hq (h.2 o f' s' hc ht ha)⟩

/-! ## Ownership -/

/-- The observations determine the books. -/
theorem ExplainsAll.books : ∀ {cmds : List (Env (Val T β) × Cmd T β)} {s : Nat → Ideal T β} {os : List (Out T β)} {s' : Nat → Ideal T β},
    ExplainsAll cmds s os s' → ∃ g r, Books cmds s os s' g r
  | [], s, os, s', h => by
    obtain ⟨rfl, rfl⟩ := h
    exact ⟨[], [], .nil _⟩
  | (env, cmd) :: rest, s, os, s', ⟨o, os', s1, h1, h2, h3⟩ => by
    obtain ⟨g, r, h4⟩ := ExplainsAll.books h3
    subst h1
    exact ⟨_, _, .cons h2 h4⟩

/-- Replacing one of the lists. -/
theorem count_put {X Y : Type} [BEq Y] (g : X → List Y) (s : Nat → X) (k : Nat) (u : X) (y : Y) : ∀ n, k < n →
    ((List.range n).flatMap fun m => g (put s k u m)).count y + (g (s k)).count y =
      ((List.range n).flatMap fun m => g (s m)).count y + (g u).count y := by
  have hle : ∀ n, n ≤ k → ((List.range n).flatMap fun m => g (put s k u m)).count y = ((List.range n).flatMap fun m => g (s m)).count y := by
    intro n hn
    induction n with
    | zero => rfl
    | succ n ih =>
      rw [List.range_succ, List.flatMap_append, List.flatMap_append, List.count_append, List.count_append, ih (by omega)]
      simp only [List.flatMap_cons, List.flatMap_nil, List.append_nil]
      rw [put_other _ _ (by omega)]
  intro n hn
  induction n with
  | zero => omega
  | succ n ih =>
    rw [List.range_succ, List.flatMap_append, List.flatMap_append, List.count_append, List.count_append]
    simp only [List.flatMap_cons, List.flatMap_nil, List.append_nil]
    by_cases h : k = n
    · subst h
      rw [hle k (Nat.le_refl _), put_same]
      omega
    · have := ih (by omega)
      rw [put_other _ _ (Ne.symm h)]
      omega

theorem Take.count_pick [BEq (Val T β)] {t : Take} {xs ys : List (Val T β)} {x : Val T β} (h : t.pick xs = some (x, ys)) (y : Val T β) :
    xs.count y = ys.count y + [x].count y := by
  cases t with
  | last =>
    obtain ⟨x', h1, h2⟩ := Option.map_eq_some_iff.mp (show xs.getLast?.map _ = _ from h)
    cases h2
    obtain ⟨zs, rfl⟩ := List.getLast?_eq_some_iff.mp h1
    rw [List.dropLast_concat, List.count_append]
  | «at» i =>
    obtain ⟨x', h1, h2⟩ := Option.map_eq_some_iff.mp (show xs[i]?.map _ = _ from h)
    cases h2
    obtain ⟨hi, rfl⟩ := List.getElem?_eq_some_iff.mp h1
    have h2 : (xs.take i).count y + (xs[i] :: xs.drop (i + 1)).count y = xs.count y := by
      rw [← List.count_append, ← List.drop_eq_getElem_cons hi, List.take_append_drop]
    rw [List.eraseIdx_eq_take_drop_succ]
    simp only [List.count_append, List.count_cons, List.count_nil] at h2 ⊢
    omega

theorem Put.count_place [BEq (Val T β)] {p : Put} {xs zs : List (Val T β)} {x : Val T β} (h : p.place x xs = some zs) (y : Val T β) :
    zs.count y = xs.count y + [x].count y := by
  cases p with
  | push => cases h; rw [List.count_append]
  | insert i =>
    unfold Put.place at h
    by_cases hi : i ≤ xs.length
    · simp only [if_pos hi, Option.some.injEq] at h
      subst h
      have : (xs.take i).count y + (xs.drop i).count y = xs.count y := by rw [← List.count_append, List.take_append_drop]
      simp only [List.count_append, List.count_cons, List.count_nil]
      omega
    · simp only [if_neg hi] at h
      exact nomatch h

open Classical in
/-- One command. -/
theorem Cmd.Allows.balance {cmd : Cmd T β} {panics : Val T β → Bool} {s s' : Nat → Ideal T β} {o : Out T β} {n : Nat} (hb : cmd.Below n)
    (h : cmd.Allows True panics s o s') (y : Val T β) :
    (cmd.gained (listsOf s) o).count y + ((allIn n s).count y + (allDropped n s).count y) =
      (allIn n s').count y + (allDropped n s').count y + (cmd.released (listsOf s) o).count y := by
  cases cmd with
  | call k op =>
    obtain ⟨u, h1, rfl⟩ := h
    have h2 := (h1.ledger).count_eq y
    simp only [List.count_append] at h2
    have h3 := count_put (fun i : Ideal T β => i.contents) s k u y n hb
    have h4 := count_put (fun i : Ideal T β => i.dropped) s k u y n hb
    unfold allIn allDropped Cmd.gained Cmd.released listsOf
    dsimp only at h2 h3 h4 ⊢
    omega
  | move t j p k =>
    obtain ⟨hj, hk, hjk⟩ := hb
    have hg : (Cmd.move t j p k : Cmd T β).gained (listsOf s) o = [] := rfl
    rw [hg]
    rcases h with h | ⟨_, rfl, x, ys, zs, h1, h2, rfl⟩
    · unfold Cmd.onLists at h
      dsimp only at h
      cases h1 : t.pick (s j).contents with
      | none =>
        rw [h1] at h
        cases h
        have hr : (Cmd.move t j p k : Cmd T β).released (listsOf s) .panicked = [] := by
          cases t with
          | last =>
            have h2 : (s j).contents.getLast? = none := by
              cases h3 : (s j).contents.getLast? with
              | none => rfl
              | some x => unfold Take.pick at h1; dsimp only at h1; rw [h3] at h1; cases h1
            unfold Cmd.released listsOf
            dsimp only
            rw [h2]
          | «at» i => rfl
        rw [hr]
        simp only [List.count_nil]
        omega
      | some xy =>
        obtain ⟨x, ys⟩ := xy
        rw [h1] at h
        dsimp only at h
        have h3 := Take.count_pick h1 y
        cases h2 : p.place x (s k).contents with
        | some zs =>
          rw [h2] at h
          cases h
          have hr : (Cmd.move t j p k : Cmd T β).released (listsOf s) .done = [] := by cases t <;> rfl
          rw [hr]
          have h4 := Put.count_place h2 y
          have h5 := count_put (fun i : Ideal T β => i.contents) s j ⟨ys, (s j).dropped⟩ y n hj
          have h6 := count_put (fun i : Ideal T β => i.contents) (put s j ⟨ys, (s j).dropped⟩) k ⟨zs, (s k).dropped⟩ y n hk
          have h7 := count_put (fun i : Ideal T β => i.dropped) s j ⟨ys, (s j).dropped⟩ y n hj
          have h8 := count_put (fun i : Ideal T β => i.dropped) (put s j ⟨ys, (s j).dropped⟩) k ⟨zs, (s k).dropped⟩ y n hk
          rw [put_other s _ (Ne.symm hjk)] at h6 h8
          unfold allIn allDropped
          simp only [List.count_nil]
          dsimp only at h5 h6 h7 h8 ⊢
          omega
        | none =>
          rw [h2] at h
          cases h
          have hr : (Cmd.move t j p k : Cmd T β).released (listsOf s) .panicked = [] := by
            cases t with
            | last =>
              obtain ⟨x', h8, h9⟩ := Option.map_eq_some_iff.mp (show (s j).contents.getLast?.map _ = _ from h1)
              cases h9
              unfold Cmd.released listsOf
              dsimp only
              rw [h8]
              dsimp only
              rw [h2]
              rfl
            | «at» i => rfl
          rw [hr]
          have h5 := count_put (fun i : Ideal T β => i.contents) s j ⟨ys, (s j).dropped ++ [x]⟩ y n hj
          have h7 := count_put (fun i : Ideal T β => i.dropped) s j ⟨ys, (s j).dropped ++ [x]⟩ y n hj
          unfold allIn allDropped
          simp only [List.count_nil]
          dsimp only at h5 h7 ⊢
          rw [List.count_append] at h7
          omega
    · have h3 := Take.count_pick h1 y
      have h5 := count_put (fun i : Ideal T β => i.contents) s j ⟨t.kept (s j).contents, (s j).dropped⟩ y n hj
      have h7 := count_put (fun i : Ideal T β => i.dropped) s j ⟨t.kept (s j).contents, (s j).dropped⟩ y n hj
      unfold allIn allDropped
      dsimp only at h5 h7 ⊢
      simp only [List.count_nil]
      cases t with
      | last =>
        obtain ⟨x', h8, h9⟩ := Option.map_eq_some_iff.mp (show (s j).contents.getLast?.map _ = _ from h1)
        cases h9
        have hr : (Cmd.move .last j p k : Cmd T β).released (listsOf s) .panicked = [x] := by
          unfold Cmd.released listsOf
          dsimp only
          rw [h8]
          dsimp only
          rw [h2]
          rfl
        rw [hr]
        unfold Take.kept at h5 h7 ⊢
        dsimp only at h5 h7 ⊢
        omega
      | «at» i =>
        have hr : (Cmd.move (.at i) j p k : Cmd T β).released (listsOf s) .panicked = [] := rfl
        rw [hr]
        unfold Take.kept at h5 h7 ⊢
        dsimp only at h5 h7 ⊢
        simp only [List.count_nil]
        omega

open Classical in
/-- The books balance. -/
theorem Books.balance {n : Nat} {cmds : List (Env (Val T β) × Cmd T β)} {s : Nat → Ideal T β} {os : List (Out T β)} {s' : Nat → Ideal T β}
    {g r : List (Val T β)} (h : Books cmds s os s' g r) (hb : ∀ p ∈ cmds, p.2.Below n) :
    List.Perm (g ++ (allIn n s ++ allDropped n s)) (allIn n s' ++ allDropped n s' ++ r) := by
  induction h with
  | nil s => simp
  | @cons env cmd rest s o s1 os s' g r h _ ih =>
    refine List.perm_iff_count.mpr fun y => ?_
    have h1 := h.balance (hb _ List.mem_cons_self) y
    have h2 := (ih fun p hp => hb p (List.mem_cons_of_mem _ hp)).count_eq y
    simp only [List.count_append] at h1 h2 ⊢
    omega

end
end Verif
