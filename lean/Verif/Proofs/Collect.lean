import Verif.Spec.Collect
import Verif.Proofs.ReserveInst
import Verif.Proofs.UEmplace
import Verif.Proofs.AImpl
import Verif.Proofs.SApi
import Verif.Proofs.Drop
import Verif.Proofs.Giving

/-!
# Appending many items

`Appends` collects what is needed to know about an implementation, and the loops are proved for it.
-/

namespace Verif
variable {σ V : Type} {T : UTy} {β : Type}

/-- The contract of an implementation: appending one element. -/
structure Appends (c : Cfg) (M : Machine V T β) (R : Reading V T β) where
  EnvOk : Env (Val T β) → Prop
  /-- an element of this size and alignment is covered -/
  Fit : V → Nat → Nat → Prop
  /-- plain values are covered -/
  Plain : Prop
  drops : M.drops = R.drops
  note : ∀ {v xs x}, R.Holds v xs → R.Holds (M.note x v) xs ∧ R.drops (M.note x v) = R.drops v ++ [x]
  push : Plain → ∀ {v xs env x}, R.Holds v xs → EnvOk env → x.WF c → Fit v x.size x.align →
    (Api.push c M.P env x v).Meets
      (fun _ v' => R.Holds v' (xs ++ [x]) ∧ R.drops v' = R.drops v ∧ ∀ n al, Fit v n al → Fit v' n al)
      (fun v' => R.Holds v' xs ∧ R.drops v' = R.drops v ∧ R.NoRoom env v xs x.size x.align) (R.NoRoom env v xs x.size x.align)
  pushWith : ∀ {v xs env} {md : T.Meta}, R.Holds v xs → EnvOk env → MetaOk c md → Fit v (T.sizeOf md) (T.alignOf md) →
    (M.P.pushWith env ⟨T.sizeOf md, T.alignOf md⟩ md v).Meets
      (fun p v1 => p.Places v1 (T.sizeOf md) (fun v' => R.Holds v' xs ∧ R.drops v' = R.drops v)
        (fun bs v' => R.Holds v' (xs ++ [⟨md, bs⟩]) ∧ R.drops v' = R.drops v ∧ ∀ n al, Fit v n al → Fit v' n al))
      (fun v' => R.Holds v' xs ∧ R.drops v' = R.drops v ∧ R.NoRoom env v xs (T.sizeOf md) (T.alignOf md))
      (R.NoRoom env v xs (T.sizeOf md) (T.alignOf md))
  reserve : ∀ {v xs env}, R.Holds v xs → EnvOk env → ∀ n,
    (Api.reserveExact M.P env n v).Meets
      (fun _ v' => R.Holds v' xs ∧ R.drops v' = R.drops v ∧ ∀ n al, Fit v n al → Fit v' n al)
      (fun v' => R.Holds v' xs ∧ R.drops v' = R.drops v ∧ R.NoMore env v xs n) (R.NoMore env v xs n)

namespace Appends
variable {c : Cfg} {M : Machine V T β} {R : Reading V T β} (K : Appends c M R) {v : V} {xs ys : List (Val T β)}

theorem item_meets {it : Item σ T β} {s : σ} {env : Env (Val T β)} (h : R.Holds v ys) (he : K.EnvOk env) (hs : it.Sound c s)
    (hp : ∀ m, it = .value m → K.Plain) (hf : ∀ n al s', it.Asks s n al s' → K.Fit v n al) :
    (it.push c M env (s, v)).Meets
      (fun _ st => ∃ x, it.Yields s x st.1 ∧ R.Holds st.2 (ys ++ [x]) ∧ R.drops st.2 = R.drops v ∧
        ∀ n al, K.Fit v n al → K.Fit st.2 n al)
      (fun st => ∃ d, R.drops st.2 = R.drops v ++ d ∧
        ((R.Holds st.2 ys ∧ ((it.Unwinds s st.1 ∧ d = []) ∨ ∃ n al, it.Asks s n al st.1 ∧ R.NoRoom env v ys n al ∧ it.Drops s d)) ∨
          ∃ x, it.UnwindsAfter s x st.1 ∧ d = [] ∧ R.Holds st.2 (ys ++ [x])))
      (it.Aborts s ∨ ∃ n al s', it.Asks s n al s' ∧ R.NoRoom env v ys n al) := by
  cases it with
  | value m =>
    show ((liftL m >>= fun a => liftR (M.giving env a (Api.push c M.P env a)) : Exec (σ × V) Unit) (s, v)).Meets _ _ _
    cases hm : m s with
    | ub => exact absurd hm hs.1
    | abort => rw [Exec.bind_abort (liftL_abort hm)]; exact .inl hm
    | panic s1 => rw [Exec.bind_panic (liftL_panic hm)]; exact ⟨[], by simp, .inl ⟨h, .inl ⟨hm, rfl⟩⟩⟩
    | ok x s1 =>
      rw [Exec.bind_ok (liftL_ok hm)]
      have hp := giving_outcome (M := M) (env := env) (x := x) (H := fun v' => R.Holds v' ys)
        (by rw [K.drops]; exact K.note) (by rw [K.drops]; exact K.push (hp m rfl) h he (hs.2 x s1 hm) (hf _ _ s1 ⟨x, hm, rfl, rfl⟩))
      rw [K.drops] at hp
      cases hr : M.giving env x (Api.push c M.P env x) v with
      | ub => rw [hr] at hp; exact hp.elim
      | abort => rw [hr] at hp; rw [liftR_abort hr]; exact .inr ⟨_, _, s1, ⟨x, hm, rfl, rfl⟩, hp.elim id And.right⟩
      | panic v' => rw [hr] at hp; rw [liftR_panic hr]; exact ⟨[x], hp.2.1, .inl ⟨hp.1, .inr ⟨_, _, ⟨x, hm, rfl, rfl⟩, hp.2.2.2, x, s1, hm, rfl⟩⟩⟩
      | ok u v' => rw [hr] at hp; rw [liftR_ok hr]; exact ⟨x, hm, hp⟩
  | emplacable e =>
    refine (run_meets (Before := fun v' => R.Holds v' ys ∧ R.drops v' = R.drops v)
      (After := fun x v' => R.Holds v' (ys ++ [x]) ∧ R.drops v' = R.drops v ∧ ∀ n al, K.Fit v n al → K.Fit v' n al)
      (P := fun md v' => R.Holds v' ys ∧ R.drops v' = R.drops v ∧ R.NoRoom env v ys (T.sizeOf md) (T.alignOf md))
      (A := fun md => R.NoRoom env v ys (T.sizeOf md) (T.alignOf md)) hs ⟨h, rfl⟩
      (fun st s1 hst => K.pushWith h he (hs.metaOk st s1 hst) (hf _ _ s1 ⟨st.md, ⟨st, hst, rfl⟩, rfl, rfl⟩))).mono ?_ ?_ ?_
    · rintro _ st ⟨x, _, h1, h2⟩
      exact ⟨x, h1, h2⟩
    · rintro st (⟨md, h1, h2, h3, h4⟩ | ⟨h1, h2, h3⟩ | ⟨x, _, h1, h2, h3, _⟩)
      · exact ⟨[], by simpa using h3, .inl ⟨h2, .inr ⟨_, _, ⟨md, h1, rfl, rfl⟩, h4, rfl⟩⟩⟩
      · exact ⟨[], by simpa using h3, .inl ⟨h2, .inl ⟨h1, rfl⟩⟩⟩
      · exact ⟨[], by simpa using h3, .inr ⟨x, h1, rfl, h2⟩⟩
    · rintro (⟨md, s1, h1, h2⟩ | h1)
      · exact .inr ⟨_, _, s1, ⟨md, h1, rfl, rfl⟩, h2⟩
      · exact .inl h1

theorem pushItems_cons (c : Cfg) (M : Machine V T β) (env : Env (Val T β)) (it : Item σ T β)
    (rest : List (Env (Val T β) × Item σ T β)) :
    pushItems c M ((env, it) :: rest) = (it.push c M env >>= fun _ => pushItems c M rest) := rfl

theorem allAsk_mono {R R' : Nat → Nat → Prop} (hR : ∀ n al, R n al → R' n al) :
    ∀ {items : List (Env (Val T β) × Item σ T β)} {s : σ}, AllAsk R items s → AllAsk R' items s
  | [], _, _ => trivial
  | _ :: _, _, h => ⟨fun n al s' h1 => hR _ _ (h.1 n al s' h1), fun x s' h1 => allAsk_mono hR (h.2 x s' h1)⟩

theorem pushItems_meets : ∀ {items : List (Env (Val T β) × Item σ T β)} {s : σ} {v : V} {ys : List (Val T β)}, R.Holds v ys →
    AllEnv K.EnvOk items → PlainIf K.Plain items → AllSound c items s → AllAsk (K.Fit v) items s →
    (pushItems c M items (s, v)).Meets
      (fun _ st => ∃ xs, Yielded items s xs st.1 ∧ R.Holds st.2 (ys ++ xs) ∧ R.drops st.2 = R.drops v)
      (fun st => ∃ zs d, StoppedAt c M R.NoRoom items s v ys zs d st.1 ∧ R.Holds st.2 zs ∧ R.drops st.2 = R.drops v ++ d)
      (EndedAt c M R.NoRoom items s v ys)
  | [], s, v, ys, h, _, _, _, _ => ⟨[], .nil _, by simpa using h, rfl⟩
  | (env, it) :: rest, s, v, ys, h, he, hp, hs, hf => by
    have h1 := K.item_meets h (he (env, it) (by simp)) hs.1 (hp (env, it) (by simp)) hf.1
    rw [pushItems_cons]
    cases hr : it.push c M env (s, v) with
    | ub => rw [hr] at h1; exact h1.elim
    | abort =>
      rw [hr] at h1
      rw [Exec.bind_abort hr]
      exact ⟨0, env, it, [], s, v, rfl, .nil _, rfl, by rw [List.append_nil]; exact h1⟩
    | panic st =>
      rw [hr] at h1
      rw [Exec.bind_panic hr]
      obtain ⟨d, hd, h2⟩ := h1
      rcases h2 with ⟨h2, h3⟩ | ⟨x, h2, h4, h3⟩
      · exact ⟨ys, d, ⟨0, env, it, [], s, v, rfl, .nil _, rfl, .inl ⟨by simp, by simpa using h3⟩⟩, h2, hd⟩
      · exact ⟨ys ++ [x], d, ⟨0, env, it, [], s, v, rfl, .nil _, rfl, .inr ⟨x, by simp, h2, h4⟩⟩, h3, hd⟩
    | ok u st =>
      rw [hr] at h1
      obtain ⟨s1, v1⟩ := st
      obtain ⟨x, h2, h3, h4, h5⟩ := h1
      rw [Exec.bind_ok hr]
      have htake : ∀ {k s2 v2}, pushItems c M (rest.take k) (s1, v1) = .ok () (s2, v2) →
          pushItems c M (((env, it) :: rest).take (k + 1)) (s, v) = .ok () (s2, v2) := by
        intro k s2 v2 h6
        rw [List.take_succ_cons, pushItems_cons, Exec.bind_ok hr, h6]
      refine (pushItems_meets h3 (fun p hp => he p (by simp [hp])) (fun p h => hp p (by simp [h])) (hs.2 x s1 h2) (allAsk_mono h5 (hf.2 x s1 h2))).mono ?_ ?_ ?_
      · rintro _ st ⟨xs, h6, h7, h8⟩
        exact ⟨x :: xs, .cons h2 h6, by simpa using h7, h8.trans h4⟩
      · rintro st ⟨zs, d, ⟨k, env', it', xs, s2, v2, h6, h7, h8, h9⟩, h10, h11⟩
        refine ⟨zs, d, ⟨k + 1, env', it', x :: xs, s2, v2, by simpa using h6, .cons h2 h7, htake h8, ?_⟩, h10, h11.trans (by rw [h4])⟩
        simpa using h9
      · rintro ⟨k, env', it', xs, s2, v2, h6, h7, h8, h9⟩
        refine ⟨k + 1, env', it', x :: xs, s2, v2, by simpa using h6, .cons h2 h7, htake h8, ?_⟩
        simpa using h9

theorem plainIf_ofEmplacables (R : Prop) (items : List (Env (Val T β) × Emplacable σ T β)) : PlainIf R (ofEmplacables items) := by
  intro p hp m hm
  obtain ⟨q, _, rfl⟩ := List.mem_map.1 hp
  cases hm

/-- Only values are dropped by the function that does not accept them. -/
theorem stoppedAt_ofEmplacables {NoRoom : Env (Val T β) → V → List (Val T β) → Nat → Nat → Prop}
    {items : List (Env (Val T β) × Emplacable σ T β)} {s s' : σ} {zs d : List (Val T β)}
    (h : StoppedAt c M NoRoom (ofEmplacables items) s v ys zs d s') : d = [] := by
  obtain ⟨k, env, it, xs, s1, v1, h1, _, _, h2⟩ := h
  obtain ⟨q, _, h3⟩ := List.mem_map.1 (List.mem_of_getElem? h1)
  cases h3
  rcases h2 with ⟨_, h2 | ⟨_, _, _, _, h2⟩⟩ | ⟨_, _, _, h2⟩
  · exact h2.2
  · exact h2
  · exact h2

/-- Dropping the iterator keeps the rules. -/
theorem extend_meets {env : Env (Val T β)} {hint : Nat} {items : List (Env (Val T β) × Emplacable σ T β)} {dropIter : Exec σ Unit}
    {s : σ} (h : R.Holds v ys) (he0 : K.EnvOk env) (he : AllEnv K.EnvOk (ofEmplacables items)) (hs : AllSound c (ofEmplacables items) s)
    (hf : AllAsk (K.Fit v) (ofEmplacables items) s) (hd : ∀ s, dropIter s ≠ .ub) :
    R.Extends c M env hint items dropIter s v ys (extend c M env hint items dropIter (s, v)) := by
  have hbody : ((do
      liftR (Api.reserveExact M.P env hint)
      pushItems c M (ofEmplacables items) : Exec (σ × V) Unit) (s, v)).Meets
      (fun _ st => ∃ xs, Yielded (ofEmplacables items) s xs st.1 ∧ R.Holds st.2 (ys ++ xs) ∧ R.drops st.2 = R.drops v)
      (fun st => ∃ zs, ExtendStops c M R.NoMore R.NoRoom env hint (ofEmplacables items) s v ys zs st.1 ∧ R.Holds st.2 zs ∧
        R.drops st.2 = R.drops v)
      (ExtendEnds c M R.NoMore R.NoRoom env hint (ofEmplacables items) s v ys) := by
    have hr := K.reserve h he0 hint
    cases hm : Api.reserveExact M.P env hint v with
    | ub => rw [hm] at hr; exact hr.elim
    | abort => rw [hm] at hr; rw [Exec.bind_abort (liftR_abort hm)]; exact .inl hr
    | panic v1 =>
      rw [hm] at hr; rw [Exec.bind_panic (liftR_panic hm)]
      exact ⟨ys, .inl ⟨hr.2.2, rfl, rfl⟩, hr.1, hr.2.1⟩
    | ok u v1 =>
      rw [hm] at hr; rw [Exec.bind_ok (liftR_ok hm)]
      obtain ⟨h1, h2, h3⟩ := hr
      refine (K.pushItems_meets h1 he (plainIf_ofEmplacables _ _) hs (allAsk_mono h3 hf)).mono ?_ ?_ ?_
      · rintro _ st ⟨xs, h4, h5, h6⟩; exact ⟨xs, h4, h5, h6.trans h2⟩
      · rintro st ⟨zs, d, h4, h5, h6⟩
        obtain rfl := stoppedAt_ofEmplacables h4
        exact ⟨zs, .inr ⟨v1, hm, h4⟩, h5, by rw [h6, h2, List.append_nil]⟩
      · intro h4; exact .inr ⟨v1, hm, h4⟩
  unfold extend Reading.Extends
  refine Res.Meets.bind (Q := fun _ st => ∃ xs, Yielded (ofEmplacables items) s xs st.1 ∧ R.Holds st.2 (ys ++ xs) ∧ R.drops st.2 = R.drops v) ?_ ?_
  · unfold Exec.onUnwind
    have hmap : items.map (fun p => (p.1, Item.emplacable p.2)) = ofEmplacables items := rfl
    rw [hmap]
    generalize (do
      liftR (Api.reserveExact M.P env hint)
      pushItems c M (ofEmplacables items) : Exec (σ × V) Unit) (s, v) = r at hbody ⊢
    cases r with
    | ub => exact hbody.elim
    | abort => exact .inl hbody
    | ok u st => exact hbody
    | panic st =>
      obtain ⟨zs, h1, h2, h3⟩ := hbody
      cases hx : dropIter st.1 with
      | ub => exact absurd hx (hd _)
      | abort => dsimp only; rw [show (st : σ × V) = (st.1, st.2) from rfl, liftL_abort hx]; exact .inr (.inl ⟨zs, _, h1, .inl hx⟩)
      | panic s2 => dsimp only; rw [show (st : σ × V) = (st.1, st.2) from rfl, liftL_panic hx]; exact .inr (.inl ⟨zs, _, h1, .inr ⟨_, hx⟩⟩)
      | ok u s2 =>
        dsimp only
        rw [show (st : σ × V) = (st.1, st.2) from rfl, liftL_ok hx]
        exact ⟨h3, .inl ⟨zs, _, h1, hx, h2⟩⟩
  · rintro _ ⟨s1, v1⟩ ⟨xs, h1, h2, h3⟩
    cases hx : dropIter s1 with
    | ub => exact absurd hx (hd _)
    | abort => rw [liftL_abort hx]; exact .inr (.inr ⟨xs, s1, h1, hx⟩)
    | panic s2 => rw [liftL_panic hx]; exact ⟨h3, .inr ⟨xs, s1, h1, hx, h2⟩⟩
    | ok u s2 => rw [liftL_ok hx]; exact ⟨xs, s1, h1, hx, h2, h3⟩

/-- When a vector is dropped while something unwinds. -/
theorem unwinding_meets {r : Exec (σ × V) Unit} {st : σ × V} {drop : Exec V Unit} {okP : Unit → σ × V → Prop}
    {why : List (Val T β) → List (Val T β) → σ → Prop} {A : Prop} {Gone : V → Prop} {Bad : List (Val T β) → Prop}
    (h : (r st).Meets okP (fun st => ∃ zs d, why zs d st.1 ∧ R.Holds st.2 zs ∧ R.drops st.2 = d) A)
    (hD : ∀ v zs, R.Holds v zs → (drop v).Meets (fun _ v' => R.drops v' = R.drops v ++ zs ∧ Gone v') (fun _ => Bad zs) (Bad zs)) :
    (Exec.onUnwind r (liftR drop) st).Meets okP (fun st => ∃ zs d, why zs d st.1 ∧ R.drops st.2 = d ++ zs ∧ Gone st.2)
      (A ∨ ∃ zs d s1, why zs d s1 ∧ Bad zs) := by
  unfold Exec.onUnwind
  generalize r st = r at h ⊢
  cases r with
  | ub => exact h.elim
  | abort => exact .inl h
  | ok u st => exact h
  | panic st =>
    obtain ⟨zs, d, h1, h2, h3⟩ := h
    have h4 := hD _ _ h2
    dsimp only
    rw [show (st : σ × V) = (st.1, st.2) from rfl]
    cases hx : drop st.2 with
    | ub => rw [hx] at h4; exact h4.elim
    | abort => rw [hx] at h4; rw [liftR_abort hx]; exact .inr ⟨zs, d, _, h1, h4⟩
    | panic s2 => rw [hx] at h4; rw [liftR_panic hx]; exact .inr ⟨zs, d, _, h1, h4⟩
    | ok u s2 =>
      rw [hx] at h4; rw [liftR_ok hx]
      exact ⟨zs, d, h1, by rw [h4.1, h3], h4.2⟩

theorem fromIter_meets {env envD : Env (Val T β)} {hint : Nat} {items : List (Env (Val T β) × Emplacable σ T β)}
    {dropIter : Exec σ Unit} {s : σ} {drop : Exec V Unit} (h : R.Holds v []) (h0 : R.drops v = []) (he0 : K.EnvOk env)
    (he : AllEnv K.EnvOk (ofEmplacables items)) (hs : AllSound c (ofEmplacables items) s)
    (hf : AllAsk (K.Fit v) (ofEmplacables items) s) (hd : ∀ s, dropIter s ≠ .ub)
    (hD : ∀ v zs, R.Holds v zs → (drop v).Meets (fun _ v' => R.drops v' = R.drops v ++ zs ∧ R.Freed v')
      (fun _ => ∃ x ∈ zs, envD.dropPanics x = true) (∃ x ∈ zs, envD.dropPanics x = true)) :
    R.Collects c M env envD hint items dropIter s v
      (Exec.onUnwind (extend c M env hint items dropIter) (liftR drop) (s, v)) := by
  have h1 := K.extend_meets (hint := hint) h he0 he hs hf hd
  refine (unwinding_meets (R := R)
    (why := fun zs d s' => d = [] ∧ ((∃ s1, ExtendStops c M R.NoMore R.NoRoom env hint (ofEmplacables items) s v [] zs s1 ∧
        dropIter s1 = .ok () s') ∨ ∃ s1, Yielded (ofEmplacables items) s zs s1 ∧ dropIter s1 = .panic s'))
    (h1.mono (fun _ _ h => h) ?_ (fun h => h)) hD).mono ?_ ?_ ?_
  · rintro st ⟨h2, ⟨zs, s1, h3, h4, h5⟩ | ⟨xs, s1, h3, h4, h5⟩⟩
    · exact ⟨zs, [], ⟨rfl, .inl ⟨s1, h3, h4⟩⟩, h5, h2.trans h0⟩
    · exact ⟨xs, [], ⟨rfl, .inr ⟨s1, h3, h4⟩⟩, h5, h2.trans h0⟩
  · rintro _ st ⟨xs, s1, h2, h3, h4, h5⟩
    exact ⟨xs, s1, h2, h3, h4, h5.trans h0⟩
  · rintro st ⟨zs, _, ⟨rfl, ⟨s1, h2, h3⟩ | ⟨s1, h2, h3⟩⟩, h4, h5⟩
    · exact ⟨h5, .inl ⟨zs, s1, h2, h3, h4⟩⟩
    · exact ⟨h5, .inr ⟨zs, s1, h2, h3, h4⟩⟩
  · rintro ((h2 | ⟨zs, s1, h2, h3⟩ | ⟨xs, s1, h2, h3⟩) | ⟨zs, _, s', ⟨_, ⟨s1, h2, h3⟩ | ⟨s1, h2, h3⟩⟩, h4⟩)
    · exact .inl h2
    · exact .inr (.inl ⟨zs, s1, h2, h3.imp id .inl⟩)
    · exact .inr (.inr ⟨xs, s1, h2, .inl h3⟩)
    · exact .inr (.inl ⟨zs, s1, h2, .inr (.inr h4)⟩)
    · exact .inr (.inr ⟨zs, s1, h2, .inr ⟨⟨_, h3⟩, h4⟩⟩)

theorem unsizedVec_meets {envD : Env (Val T β)} {items : List (Env (Val T β) × Item σ T β)}
    {s : σ} {drop : Exec V Unit} (h : R.Holds v []) (h0 : R.drops v = [])
    (he : AllEnv K.EnvOk items) (hp : PlainIf K.Plain items) (hs : AllSound c items s) (hf : AllAsk (K.Fit v) items s)
    (hD : ∀ v zs, R.Holds v zs → (drop v).Meets (fun _ v' => R.drops v' = R.drops v ++ zs ∧ R.Freed v')
      (fun _ => ∃ x ∈ zs, envD.dropPanics x = true) (∃ x ∈ zs, envD.dropPanics x = true)) :
    R.Lists c M envD items s v (Exec.onUnwind (pushItems c M items) (liftR drop) (s, v)) := by
  refine (unwinding_meets (R := R) (why := StoppedAt c M R.NoRoom items s v []) ((K.pushItems_meets h he hp hs hf).mono (fun _ _ h => h) ?_ (fun h => h)) hD).mono ?_ ?_ ?_
  · rintro st ⟨zs, d, h1, h2, h3⟩
    exact ⟨zs, d, h1, h2, by rw [h3, h0, List.nil_append]⟩
  · rintro _ st ⟨xs, h1, h2, h3⟩
    exact ⟨xs, h1, h2, h3.trans h0⟩
  · rintro st ⟨zs, d, h1, h2, h3⟩
    exact ⟨h3, zs, d, h1, h2⟩
  · exact fun h => h

end Appends

/-! ## The three implementations -/

section
variable [Inhabited β]

omit [Inhabited β] in
theorem UVec.zstOk_mono {v v' : UVec T β} (ha : v.align ≤ v'.align) (hb : v.byteCap ≤ v'.byteCap) (n al : Nat)
    (h : v.ZstOk n al) : v'.ZstOk n al := fun h1 h2 => Nat.le_trans (h (by omega) h2) ha

def UVec.appends (G : Prop) (c : Cfg) (h1 : IsAlign c 1) : Appends c (unalignedM c T : Machine (UVec T β) T β) (UVec.reading G c) where
  EnvOk env := env.Valid ∧ (G → env.Exact)
  Plain := G
  Fit := UVec.ZstOk
  drops := rfl
  note h := ⟨⟨h.wf, h.al, h.elemAl, h.infos, h.recs, h.cap, h.capDvd, h.room, h.mem, h.block, h.leaks⟩, rfl⟩
  push hG {v xs env x} h he hx hf := by
    refine ((UVec.impl G c T).push_meets h he hx hf (fun _ => .inl (UVec.Represents.capDvd h hG))).mono ?_ ?_ ?_
    · rintro _ v' ⟨h1, h2, v1, h3, h4, h5, h6, _⟩
      refine ⟨h1, h2, fun n al => UVec.zstOk_mono ?_ ?_ n al⟩
      · exact Nat.le_trans h3.alignMono (Nat.le_of_eq h6.symm)
      · exact Nat.le_trans h3.bytesMono (Nat.le_of_eq h5.symm)
    · exact fun _ h => ⟨h.1.holds, h.1.drops, _, Nat.sub_le _ _, h.2⟩
    · exact fun h => ⟨_, Nat.sub_le _ _, .inl h⟩
  pushWith {v xs env md} h he hmd hf := by
    refine (UVec.pushWith_meets h he.1 he.2 hmd hf).mono ?_ ?_ ?_
    · exact fun _ _ h => h.mono (fun _ h => h) (fun _ _ h => ⟨h.1, h.2.1, UVec.zstOk_mono h.2.2.1 (Nat.le_trans (Nat.le_add_right _ _) h.2.2.2.le)⟩)
    · exact fun _ h => ⟨h.1, h.2.1, _, Nat.le_refl _, h.2.2.2⟩
    · exact fun h => ⟨_, Nat.le_refl _, .inl h⟩
  reserve {v xs env} h he n := by
    have hask : (UVec.impl G c T).ask v xs (.exact n) = 0 := Nat.zero_sub _
    refine (run_unaligned h he.1 he.2 (.exact n) h1).mono ?_ ?_ ?_
    · exact fun _ _ h => ⟨h.holds, h.drops, UVec.zstOk_mono h.alignMono h.bytesMono⟩
    · intro _ h
      refine ⟨h.1.holds, h.1.drops, ?_⟩
      have h2 := h.2
      unfold Impl.Failing Impl.Denied at h2
      rw [hask] at h2
      exact h2
    · intro h2
      unfold Impl.Denied at h2
      rw [hask] at h2
      exact .inl h2

def AVec.appends {A : ATy} {c : Cfg} (hA : A.Lawful c) (h1 : IsAlign c 1) : Appends c (alignedM c A : Machine (AVec A β) A.ty β) (AVec.reading c) where
  EnvOk := Env.Valid
  Fit _ _ _ := True
  Plain := True
  drops := rfl
  note h := ⟨⟨h.wf, h.keeps, h.infos, h.recs, h.cap, h.capMax, h.mem, h.block, h.leaks⟩, rfl⟩
  push _ {v xs env x} h he hx _ := by
    refine ((AVec.impl hA).push_meets h he hx (fun _ _ => trivial) (fun _ => trivial)).mono ?_ ?_ ?_
    · exact fun _ _ h => ⟨h.1, h.2.1, fun _ _ h => h⟩
    · exact fun _ h => ⟨h.1.holds, h.1.drops, _, Nat.sub_le _ _, h.2⟩
    · exact fun h => ⟨_, Nat.sub_le _ _, .inl h⟩
  pushWith {v xs env md} h he hmd _ := by
    refine ((AVec.impl hA).pushWith h he hmd (fun _ _ => trivial)).mono ?_ ?_ ?_
    · exact fun _ _ h => h.mono (fun _ h => h) (fun _ _ h => ⟨h.1, h.2, fun _ _ h => h⟩)
    · exact fun _ h => ⟨h.1, h.2.1, _, Nat.le_refl _, h.2.2⟩
    · exact fun h => ⟨_, Nat.le_refl _, .inl h⟩
  reserve {v xs env} h he n := by
    have hask : (AVec.implF hA.fits).ask v xs (.exact n) = 0 := Nat.zero_sub _
    refine (run_aligned hA.fits h he (.exact n) h1).mono ?_ ?_ ?_
    · exact fun _ _ h => ⟨h.holds, h.drops, fun _ _ h => h⟩
    · intro _ h
      refine ⟨h.1.holds, h.1.drops, ?_⟩
      have h2 := h.2
      unfold Impl.Failing Impl.Denied at h2
      rw [hask] at h2
      exact h2
    · intro h2
      unfold Impl.Denied at h2
      rw [hask] at h2
      exact .inl h2

def SVec.appends {sz al : Nat} (c : Cfg) (hz : 0 < sz) : Appends c (sizedM c sz al : Machine (SVec sz al β) (sizedTy sz al) β) (SVec.reading c) where
  EnvOk _ := True
  Fit _ _ _ := True
  Plain := True
  drops := rfl
  note h := ⟨⟨h.wf, h.len, h.mem, h.slotLen, h.cap, h.capMax⟩, rfl⟩
  push _ {v xs env x} h _ hx _ :=
    (SVec.push_meets h hz env hx).mono (fun _ _ h => ⟨h.1, h.2.1, fun _ _ h => h⟩) (fun _ h' => ⟨h'.1 ▸ h, h'.1 ▸ rfl, h'.2⟩) id
  pushWith {v xs env md} h _ hmd _ :=
    (SVec.pushWith_meets h env hmd).mono (fun _ _ h => h.mono (fun _ h => h) (fun _ _ h => ⟨h.1, h.2, fun _ _ h => h⟩))
      (fun _ h' => ⟨h'.1 ▸ h, h'.1 ▸ rfl, h'.2⟩) id
  reserve {v xs env} h _ n := by
    refine (SVec.run_meets h hz env (.exact n)).mono ?_ ?_ ?_
    · exact fun _ _ h => ⟨h.holds, h.drops, fun _ _ h => h⟩
    · exact fun _ h => ⟨h.1, h.2.1, (h.2.2.2.2.2 (Nat.zero_le _)).2⟩
    · exact fun h => h.2.2 (Nat.zero_le _)

end

/-! ## When nothing stops the loop -/

theorem Item.Yields.unique {it : Item σ T β} {s s1 s2 : σ} {x y : Val T β} (h : it.Yields s x s1) (h' : it.Yields s y s2) :
    x = y ∧ s1 = s2 := by
  cases it with
  | value m =>
    have := (h : m s = _).symm.trans h'
    cases this; exact ⟨rfl, rfl⟩
  | emplacable e =>
    obtain ⟨st, a, b, h1, h2, h3, h4⟩ := h
    obtain ⟨st', a', b', h1', h2', h3', h4'⟩ := h'
    have := h1.symm.trans h1'; cases this
    have := h3.symm.trans h3'
    injection this with hb hs
    subst hs
    have := h4.symm.trans h4'; cases this
    cases x; cases y
    cases hb; cases h2; cases h2'
    exact ⟨rfl, rfl⟩

theorem Item.Yields.not_unwinds {it : Item σ T β} {s s1 s2 : σ} {x : Val T β} (h : it.Yields s x s1) : ¬ it.Unwinds s s2 := by
  intro h'
  cases it with
  | value m =>
    have := (h : m s = _).symm.trans h'
    cases this
  | emplacable e =>
    obtain ⟨st, a, b, h1, h2, h3, h4⟩ := h
    rcases h' with h' | ⟨st', a', b', h1', h2'⟩
    · have := h1.symm.trans h'; cases this
    · have := h1.symm.trans h1'; cases this
      have := h3.symm.trans h2'; cases this

theorem Item.Yields.not_unwindsAfter {it : Item σ T β} {s s1 s2 : σ} {x y : Val T β} (h : it.Yields s x s1) :
    ¬ it.UnwindsAfter s y s2 := by
  intro h'
  cases it with
  | value m => exact h'
  | emplacable e =>
    obtain ⟨st, a, b, h1, h2, h3, h4⟩ := h
    obtain ⟨st', a', b', h1', h2', h3', h4'⟩ := h'
    have := h1.symm.trans h1'; cases this
    have := h3.symm.trans h3'
    injection this with hb hs
    subst hs
    have := h4.symm.trans h4'; cases this

theorem Item.Yields.not_aborts {it : Item σ T β} {s s1 : σ} {x : Val T β} (h : it.Yields s x s1) : ¬ it.Aborts s := by
  intro h'
  cases it with
  | value m =>
    have := (h : m s = _).symm.trans h'
    cases this
  | emplacable e =>
    obtain ⟨st, a, b, h1, h2, h3, h4⟩ := h
    rcases h' with h' | ⟨st', a', h1', h2' | ⟨bs, b', h2', h3'⟩⟩
    · have := h1.symm.trans h'; cases this
    · have := h1.symm.trans h1'; cases this
      have := h3.symm.trans h2'; cases this
    · have := h1.symm.trans h1'; cases this
      have := h3.symm.trans h2'
      injection this with hb hs
      subst hs
      have := h4.symm.trans h3'; cases this

theorem Yielded.unique {items : List (Env (Val T β) × Item σ T β)} {s s1 s2 : σ} {xs ys : List (Val T β)}
    (h : Yielded items s xs s1) (h' : Yielded items s ys s2) : xs = ys ∧ s1 = s2 := by
  induction h generalizing ys s2 with
  | nil s => cases h'; exact ⟨rfl, rfl⟩
  | cons h1 h2 ih =>
    cases h' with
    | cons h3 h4 =>
      obtain ⟨rfl, rfl⟩ := h1.unique h3
      obtain ⟨rfl, rfl⟩ := ih h4
      exact ⟨rfl, rfl⟩

theorem Yielded.next {items : List (Env (Val T β) × Item σ T β)} {s s' s1 : σ} {xs ys : List (Val T β)} {k : Nat}
    {env : Env (Val T β)} {it : Item σ T β} (h : Yielded items s xs s') (hk : items[k]? = some (env, it))
    (h' : Yielded (items.take k) s ys s1) : ∃ x s2, it.Yields s1 x s2 := by
  induction h generalizing k ys s1 with
  | nil s => simp at hk
  | @cons env0 it0 rest s s2 s' x xs h1 h2 ih =>
    cases k with
    | zero =>
      simp only [List.take_zero] at h'
      cases h'
      simp only [List.getElem?_cons_zero, Option.some.injEq, Prod.mk.injEq] at hk
      obtain ⟨rfl, rfl⟩ := hk
      exact ⟨_, _, h1⟩
    | succ k =>
      rw [List.take_succ_cons] at h'
      cases h' with
      | cons h3 h4 =>
        obtain ⟨rfl, rfl⟩ := h1.unique h3
        exact ih (by simpa using hk) h4

/-- There is room for every item, in the vectors that the loop goes through. -/
theorem StoppedAt.absurd {c : Cfg} {M : Machine V T β} {NoRoom : Env (Val T β) → V → List (Val T β) → Nat → Nat → Prop}
    {items : List (Env (Val T β) × Item σ T β)} {s s' s1 : σ} {v : V} {xs ys zs d : List (Val T β)} (hy : Yielded items s xs s1)
    (hr : AlwaysRoom c M NoRoom items s v ys) (h : StoppedAt c M NoRoom items s v ys zs d s') : False := by
  obtain ⟨k, env, it, xs', s2, v2, h1, h2, h3, h4⟩ := h
  obtain ⟨x, s3, h5⟩ := hy.next h1 h2
  rcases h4 with ⟨rfl, ⟨h4, _⟩ | ⟨n, al, h4, h6, _⟩⟩ | ⟨y, rfl, h4, _⟩
  · exact h5.not_unwinds h4
  · exact hr k env it xs' s2 v2 h1 h2 h3 n al s' h4 h6
  · exact h5.not_unwindsAfter h4

theorem EndedAt.absurd {c : Cfg} {M : Machine V T β} {NoRoom : Env (Val T β) → V → List (Val T β) → Nat → Nat → Prop}
    {items : List (Env (Val T β) × Item σ T β)} {s s1 : σ} {v : V} {xs ys : List (Val T β)} (hy : Yielded items s xs s1)
    (hr : AlwaysRoom c M NoRoom items s v ys) (h : EndedAt c M NoRoom items s v ys) : False := by
  obtain ⟨k, env, it, xs', s2, v2, h1, h2, h3, h4⟩ := h
  obtain ⟨x, s3, h5⟩ := hy.next h1 h2
  rcases h4 with h4 | ⟨n, al, s', h4, h6⟩
  · exact h5.not_aborts h4
  · exact hr k env it xs' s2 v2 h1 h2 h3 n al s' h4 h6

theorem allAsk_true {R : Nat → Nat → Prop} : ∀ (items : List (Env (Val T β) × Item σ T β)) (s : σ), (∀ n al, R n al) →
    AllAsk R items s
  | [], _, _ => trivial
  | _ :: rest, _, h => ⟨fun n al _ _ => h n al, fun _ s' _ => allAsk_true rest s' h⟩

section
variable {c : Cfg} {M : Machine V T β} {R : Reading V T β} {v : V}

theorem ExtendStops.absurd {env : Env (Val T β)} {hint : Nat} {items : List (Env (Val T β) × Item σ T β)} {s s' s1 : σ}
    {xs ys zs : List (Val T β)} (hy : Yielded items s xs s1) (hn : ¬ R.NoMore env v ys hint)
    (hr : ∀ v1, Api.reserveExact M.P env hint v = .ok () v1 → AlwaysRoom c M R.NoRoom items s v1 ys)
    (h : ExtendStops c M R.NoMore R.NoRoom env hint items s v ys zs s') : False := by
  rcases h with h | ⟨v1, h1, h2⟩
  · exact hn h.1
  · exact h2.absurd hy (hr v1 h1)

theorem ExtendEnds.absurd {env : Env (Val T β)} {hint : Nat} {items : List (Env (Val T β) × Item σ T β)} {s s1 : σ}
    {xs ys : List (Val T β)} (hy : Yielded items s xs s1) (hn : ¬ R.NoMore env v ys hint)
    (hr : ∀ v1, Api.reserveExact M.P env hint v = .ok () v1 → AlwaysRoom c M R.NoRoom items s v1 ys)
    (h : ExtendEnds c M R.NoMore R.NoRoom env hint items s v ys) : False := by
  rcases h with h | ⟨v1, h1, h2⟩
  · exact hn h
  · exact h2.absurd hy (hr v1 h1)

theorem Reading.Extends.returns {env : Env (Val T β)} {hint : Nat} {items : List (Env (Val T β) × Emplacable σ T β)}
    {dropIter : Exec σ Unit} {s s1 s' : σ} {xs ys : List (Val T β)} {r : Res (σ × V) Unit}
    (h : R.Extends c M env hint items dropIter s v ys r) (hy : Yielded (ofEmplacables items) s xs s1) (hd : dropIter s1 = .ok () s')
    (hn : ¬ R.NoMore env v ys hint)
    (hr : ∀ v1, Api.reserveExact M.P env hint v = .ok () v1 → AlwaysRoom c M R.NoRoom (ofEmplacables items) s v1 ys) :
    ∃ v', r = .ok () (s', v') ∧ R.Holds v' (ys ++ xs) ∧ R.drops v' = R.drops v := by
  cases r with
  | ub => exact h.elim
  | ok u st =>
    obtain ⟨xs', s2, h1, h2, h3⟩ := h
    obtain ⟨rfl, rfl⟩ := hy.unique h1
    have := hd.symm.trans h2; cases this
    exact ⟨st.2, rfl, h3⟩
  | panic st =>
    rcases h with ⟨_, ⟨zs, s2, h1, _⟩ | ⟨xs', s2, h1, h2, _⟩⟩
    · exact (h1.absurd hy hn hr).elim
    · obtain ⟨rfl, rfl⟩ := hy.unique h1
      have := hd.symm.trans h2; cases this
  | abort =>
    rcases h with h | ⟨zs, s2, h1, _⟩ | ⟨xs', s2, h1, h2⟩
    · exact (h.absurd hy hn hr).elim
    · exact (h1.absurd hy hn hr).elim
    · obtain ⟨rfl, rfl⟩ := hy.unique h1
      have := hd.symm.trans h2; cases this

theorem Reading.Collects.returns {env envD : Env (Val T β)} {hint : Nat} {items : List (Env (Val T β) × Emplacable σ T β)}
    {dropIter : Exec σ Unit} {s s1 s' : σ} {xs : List (Val T β)} {r : Res (σ × V) Unit}
    (h : R.Collects c M env envD hint items dropIter s v r) (hy : Yielded (ofEmplacables items) s xs s1) (hd : dropIter s1 = .ok () s')
    (hn : ¬ R.NoMore env v [] hint)
    (hr : ∀ v1, Api.reserveExact M.P env hint v = .ok () v1 → AlwaysRoom c M R.NoRoom (ofEmplacables items) s v1 []) :
    ∃ v', r = .ok () (s', v') ∧ R.Holds v' xs ∧ R.drops v' = [] := by
  cases r with
  | ub => exact h.elim
  | ok u st =>
    obtain ⟨xs', s2, h1, h2, h3⟩ := h
    obtain ⟨rfl, rfl⟩ := hy.unique h1
    have := hd.symm.trans h2; cases this
    exact ⟨st.2, rfl, h3⟩
  | panic st =>
    rcases h with ⟨_, ⟨zs, s2, h1, _⟩ | ⟨xs', s2, h1, h2, _⟩⟩
    · exact (h1.absurd hy hn hr).elim
    · obtain ⟨rfl, rfl⟩ := hy.unique h1
      have := hd.symm.trans h2; cases this
  | abort =>
    rcases h with h | ⟨zs, s2, h1, _⟩ | ⟨xs', s2, h1, h2 | ⟨⟨s3, h2⟩, _⟩⟩
    · exact (h.absurd hy hn hr).elim
    · exact (h1.absurd hy hn hr).elim
    · obtain ⟨rfl, rfl⟩ := hy.unique h1
      have := hd.symm.trans h2; cases this
    · obtain ⟨rfl, rfl⟩ := hy.unique h1
      have := hd.symm.trans h2; cases this

theorem Reading.Lists.returns {envD : Env (Val T β)} {items : List (Env (Val T β) × Item σ T β)}
    {s s' : σ} {xs : List (Val T β)} {r : Res (σ × V) Unit}
    (h : R.Lists c M envD items s v r) (hy : Yielded items s xs s') (hr : AlwaysRoom c M R.NoRoom items s v []) :
    ∃ v', r = .ok () (s', v') ∧ R.Holds v' xs ∧ R.drops v' = [] := by
  cases r with
  | ub => exact h.elim
  | ok u st =>
    obtain ⟨xs', h1, h3⟩ := h
    obtain ⟨rfl, rfl⟩ := hy.unique h1
    exact ⟨st.2, rfl, h3⟩
  | panic st =>
    obtain ⟨_, zs, d, h1, _⟩ := h
    exact (h1.absurd hy hr).elim
  | abort =>
    rcases h with h | ⟨zs, d, s2, h1, _⟩
    · exact (h.absurd hy hr).elim
    · exact (h1.absurd hy hr).elim

end

section
variable [Inhabited β] {c : Cfg}

theorem UVec.drop_reading {G : Prop} (env : Env (Val T β)) (v : UVec T β) (zs : List (Val T β)) (h : (UVec.reading G c).Holds v zs) :
    (UVec.drop c env v).Meets (fun _ v' => (UVec.reading G c).drops v' = (UVec.reading G c).drops v ++ zs ∧ (UVec.reading G c).Freed v')
      (fun _ => ∃ x ∈ zs, env.dropPanics x = true) (∃ x ∈ zs, env.dropPanics x = true) := by
  refine (UVec.drop_meets h env).mono (fun _ _ h => h.2) ?_ False.elim
  rintro _ ⟨_, ⟨ys, x, zs, rfl, _, h1, _⟩, _⟩
  exact ⟨x, by simp, h1⟩

theorem AVec.drop_reading {A : ATy} (hA : A.Fits c) (env : Env (Val A.ty β)) (v : AVec A β) (zs : List (Val A.ty β))
    (h : (AVec.reading c).Holds v zs) :
    (AVec.drop c env v).Meets (fun _ v' => (AVec.reading c).drops v' = (AVec.reading c).drops v ++ zs ∧ (AVec.reading c).Freed v')
      (fun _ => ∃ x ∈ zs, env.dropPanics x = true) (∃ x ∈ zs, env.dropPanics x = true) := by
  refine (AVec.drop_meets hA h env).mono (fun _ _ h => h.2) ?_ False.elim
  rintro _ ⟨_, ⟨ys, x, zs, rfl, _, h1, _⟩, _⟩
  exact ⟨x, by simp, h1⟩

theorem SVec.drop_reading {sz al : Nat} (env : Env (Val (sizedTy sz al) β)) (v : SVec sz al β) (zs : List (Val (sizedTy sz al) β))
    (h : (SVec.reading c).Holds v zs) :
    (SVec.drop env v).Meets (fun _ v' => (SVec.reading c).drops v' = (SVec.reading c).drops v ++ zs ∧ (SVec.reading c).Freed v')
      (fun _ => ∃ x ∈ zs, env.dropPanics x = true) (∃ x ∈ zs, env.dropPanics x = true) := by
  refine (SVec.drop_meets h env).mono (fun _ _ h => ⟨h.1.1, h.2.2⟩) (fun _ h => h.1.2) ?_
  rintro ⟨i, j, hi, hj, _, h1, _⟩
  exact ⟨_, List.getElem_mem hi, h1⟩

end
end Verif
