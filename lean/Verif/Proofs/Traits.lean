import Verif.Proofs.Giving
import Verif.Spec.Traits
import Verif.Proofs.Iter
import Verif.Proofs.SApi
import Verif.Proofs.Run

/-!
# The loops over the elements
-/

namespace Verif
variable {σ ρ : Type} {T U : UTy} {β γ : Type}

/-! ## A borrowed vector gives its elements in order -/

theorem left_of_covers {w : Walk T β} {xs : List (Val T β)} {C : w.It → Nat → Prop}
    (hlt : ∀ it i (hi : i < xs.length), C it i → ∃ r it', w.next it = some (some r, it') ∧ w.read r = xs[i] ∧ C it' (i + 1))
    (hge : ∀ it, C it xs.length → w.next it = some (none, it)) :
    ∀ n it i, xs.length - i = n → i ≤ xs.length → C it i → w.Left it (xs.drop i) := by
  intro n
  induction n with
  | zero =>
    intro it i hn hi hc
    have : i = xs.length := by omega
    subst this
    rw [List.drop_length]
    exact hge it hc
  | succ n ih =>
    intro it i hn hi hc
    obtain ⟨r, it', h1, h2, h3⟩ := hlt it i (by omega) hc
    rw [List.drop_eq_getElem_cons (by omega)]
    exact ⟨r, it', h1, h2, ih it' (i + 1) (by omega) (by omega) h3⟩

variable [Inhabited β] [Inhabited γ] {c : Cfg}

omit [Inhabited γ] in
theorem UVec.walk_left {v : UVec T β} {xs : List (Val T β)} (h : v.Holds c xs) : (v.walk c).Left v.iter xs := by
  refine left_of_covers (w := v.walk c) (C := fun it i => UVec.Covers v xs it i xs.length) ?_ ?_ xs.length v.iter 0 rfl (Nat.zero_le _) (UVec.iter_covers h)
  · intro it i hi hc
    obtain ⟨it', h1, h2⟩ := (UVec.iter_works h).next_lt hc hi
    rw [UVec.getUnchecked_eq h i hi] at h1
    exact ⟨_, it', h1, UVec.read_elem h i hi, h2⟩
  · intro it hc
    exact (UVec.iter_works h).next_ge hc (Nat.le_refl _)

omit [Inhabited γ] in
theorem AVec.walk_left {A : ATy} {v : AVec A β} {xs : List (Val A.ty β)} (hA : A.Fits c) (h : v.Holds c xs) :
    (v.walk c).Left v.iter xs := by
  refine left_of_covers (w := v.walk c) (C := fun it i => AVec.Covers v xs it i xs.length) ?_ ?_ xs.length v.iter 0 rfl (Nat.zero_le _) (AVec.iter_covers h)
  · intro it i hi hc
    obtain ⟨it', h1, h2⟩ := (AVec.iter_works hA h).next_lt hc hi
    rw [AVec.getUnchecked_eq hA h i hi] at h1
    exact ⟨_, it', h1, AVec.read_elem h i hi, h2⟩
  · intro it hc
    exact (AVec.iter_works hA h).next_ge hc (Nat.le_refl _)

omit [Inhabited γ] in
theorem SVec.walk_left {sz al : Nat} {v : SVec sz al β} {xs : List (Val (sizedTy sz al) β)} (h : v.Holds c xs) :
    v.walk.Left v.iter xs := by
  refine left_of_covers (w := v.walk) (C := fun it i => it = ⟨i, xs.length⟩) ?_ ?_ xs.length v.iter 0 rfl (Nat.zero_le _) ?_
  · rintro it i hi rfl
    refine ⟨⟨0, i, ()⟩, ⟨i + 1, xs.length⟩, ?_, SVec.slot_eq h hi, rfl⟩
    show some (Option.map _ (SVec.Iter.next ⟨i, xs.length⟩).1, (SVec.Iter.next ⟨i, xs.length⟩).2) = _
    unfold SVec.Iter.next
    rw [if_pos hi]; rfl
  · rintro it rfl
    show some (Option.map _ (SVec.Iter.next ⟨xs.length, xs.length⟩).1, (SVec.Iter.next ⟨xs.length, xs.length⟩).2) = _
    unfold SVec.Iter.next
    rw [if_neg (Nat.lt_irrefl _)]; rfl
  · show (⟨0, v.len⟩ : SVec.Iter) = _
    rw [h.len]

omit [Inhabited γ] in
theorem Borrowed.left {w : Walk T β} {xs : List (Val T β)} (h : Borrowed c T w xs) : w.Left w.start xs ∧ w.len = xs.length := by
  cases h with
  | unaligned h => exact ⟨UVec.walk_left h, h.len_eq⟩
  | aligned hA h => exact ⟨AVec.walk_left hA h, h.len_eq⟩
  | sized h => exact ⟨SVec.walk_left h, h.len⟩

omit [Inhabited β] [Inhabited γ]

/-! ## The loops -/

/-- The loop on a list. -/
def visit (f : Nat → Val T β → Exec σ (Option ρ)) : Nat → List (Val T β) → Exec σ (Option ρ × List (Val T β))
  | _, [] => pure (none, [])
  | k, x :: xs => do
    match ← f k x with
    | some a => pure (some a, xs)
    | none => visit f (k + 1) xs

/-- The loop on two lists. -/
def visitPairs (f : Val T β → Val U γ → Exec σ (Option ρ)) : List (Val T β) → List (Val U γ) → Exec σ (Option ρ)
  | x :: xs, y :: ys => do
    match ← f x y with
    | some a => pure (some a)
    | none => visitPairs f xs ys
  | _, _ => pure none

theorem Walk.each_agrees {w : Walk T β} (f : Nat → Val T β → Exec σ (Option ρ)) : ∀ (ys : List (Val T β)) (fuel k : Nat) (it : w.It) (s : σ),
    w.Left it ys → ys.length < fuel → w.Agrees (w.each f fuel k it s) (visit f k ys s)
  | [], fuel + 1, k, it, s, h, _ => by
    refine ⟨it, ?_, h⟩
    show (Exec.orUb (w.next it) >>= _ : Exec σ _) s = _
    rw [Exec.orUb_bind (show w.next it = _ from h)]
    rfl
  | y :: ys, fuel + 1, k, it, s, ⟨r, it', h1, h2, h3⟩, hf => by
    have hw : w.each f (fuel + 1) k it s = (f k y >>= fun o => match o with
        | some a => pure (some a, it')
        | none => w.each f fuel (k + 1) it') s := by
      show (Exec.orUb (w.next it) >>= _ : Exec σ _) s = _
      rw [Exec.orUb_bind h1, ← h2]
      rfl
    have hv : visit f k (y :: ys) s = (f k y >>= fun o => match o with
        | some a => pure (some a, ys)
        | none => visit f (k + 1) ys) s := rfl
    rw [hw, hv]
    cases hr : f k y s with
    | ub => rw [Exec.bind_ub hr, Exec.bind_ub hr]; exact rfl
    | abort => rw [Exec.bind_abort hr, Exec.bind_abort hr]; exact rfl
    | panic s1 => rw [Exec.bind_panic hr, Exec.bind_panic hr]; exact rfl
    | ok o s1 =>
      rw [Exec.bind_ok hr, Exec.bind_ok hr]
      cases o with
      | some a => exact ⟨it', rfl, h3⟩
      | none => exact Walk.each_agrees f ys fuel (k + 1) it' s1 h3 (by simp at hf; omega)

theorem Walk.zip_eq {a : Walk T β} {b : Walk U γ} (f : Val T β → Val U γ → Exec σ (Option ρ)) :
    ∀ (xs : List (Val T β)) (ys : List (Val U γ)) (fuel : Nat) (i : a.It) (j : b.It),
    a.Left i xs → b.Left j ys → xs.length < fuel → a.zip b f fuel i j = visitPairs f xs ys
  | [], ys, fuel + 1, i, j, ha, _, _ => by
    funext s
    show (Exec.orUb (a.next i) >>= _ : Exec σ _) s = _
    rw [Exec.orUb_bind (show a.next i = _ from ha)]
    rfl
  | x :: xs, [], fuel + 1, i, j, ⟨r, i', h1, h2, h3⟩, hb, _ => by
    funext s
    show (Exec.orUb (a.next i) >>= _ : Exec σ _) s = _
    rw [Exec.orUb_bind h1]
    show (Exec.orUb (b.next j) >>= _ : Exec σ _) s = _
    rw [Exec.orUb_bind (show b.next j = _ from hb)]
    rfl
  | x :: xs, y :: ys, fuel + 1, i, j, ⟨r, i', h1, h2, h3⟩, ⟨q, j', h4, h5, h6⟩, hf => by
    funext s
    show (Exec.orUb (a.next i) >>= _ : Exec σ _) s = _
    rw [Exec.orUb_bind h1]
    show (Exec.orUb (b.next j) >>= _ : Exec σ _) s = _
    rw [Exec.orUb_bind h4]
    have ih := Walk.zip_eq f xs ys fuel i' j' h3 h6 (by simp at hf; omega)
    show (f (a.read r) (b.read q) >>= fun o => match o with
      | some a => pure (some a)
      | none => a.zip b f fuel i' j' : Exec σ _) s = _
    rw [ih, h2, h5]
    rfl

/-! ## Programs on lists -/

theorem Exec.bind_assoc' {α δ ε : Type} (m : Exec σ α) (f : α → Exec σ δ) (g : δ → Exec σ ε) :
    (m >>= f) >>= g = m >>= fun a => f a >>= g := by
  funext s
  rw [Exec.bind_apply, Exec.bind_apply, Exec.bind_apply]
  cases m s <;> rfl

theorem Exec.pure_bind' {α δ : Type} (a : α) (f : α → Exec σ δ) : (pure a : Exec σ α) >>= f = f a := rfl

theorem Exec.bind_congr' {α δ : Type} (m : Exec σ α) {f g : α → Exec σ δ} (h : ∀ a, f a = g a) : m >>= f = m >>= g := by
  rw [funext h]

theorem Walk.eq_eq {a : Walk T β} {b : Walk U γ} {xs : List (Val T β)} {ys : List (Val U γ)} (ha : a.Left a.start xs) (hn : a.len = xs.length)
    (hb : b.Left b.start ys) (hm : b.len = ys.length) (e : Val T β → Val U γ → Exec σ Bool) : a.eq b e = listEq e xs ys := by
  unfold Walk.eq listEq
  rw [hn, hm]
  split
  · next hlen =>
    rw [Walk.zip_eq _ xs ys _ _ _ ha hb (by omega)]
    clear ha hb hn hm hlen
    induction xs generalizing ys with
    | nil => rfl
    | cons x xs ih =>
      cases ys with
      | nil => rfl
      | cons y ys =>
        unfold visitPairs listEq.go
        rw [Exec.bind_assoc', Exec.bind_assoc']
        refine Exec.bind_congr' _ fun t => ?_
        cases t
        · rfl
        · exact ih (ys := ys)
  · rfl

theorem Walk.partialCmp_eq {a : Walk T β} {b : Walk U γ} {xs : List (Val T β)} {ys : List (Val U γ)} (ha : a.Left a.start xs) (hn : a.len = xs.length)
    (hb : b.Left b.start ys) (hm : b.len = ys.length) (k : Val T β → Val U γ → Exec σ (Option Ordering)) :
    a.partialCmp b k = listPartialCmp k xs ys := by
  unfold Walk.partialCmp
  rw [Walk.zip_eq _ xs ys _ _ _ ha hb (by omega), hn, hm]
  clear ha hb hn hm
  have key : ∀ (n m : Nat) (xs : List (Val T β)) (ys : List (Val U γ)) , (n : Nat) + ys.length = m + xs.length →
      (visitPairs (fun l r => k l r >>= fun o => match o with
        | some .eq => pure none
        | res => pure (some res)) xs ys >>= fun r => match r with
        | some res => pure res
        | none => pure (some (compare n m))) = listPartialCmp k xs ys := by
    intro n m xs
    induction xs with
    | nil =>
      intro ys h
      cases ys with
      | nil =>
        have : n = m := by simpa using h
        subst this
        show (pure (some (compare n n)) : Exec σ (Option Ordering)) = pure (some .eq)
        rw [Nat.compare_eq_eq.2 rfl]
      | cons y ys =>
        show (pure (some (compare n m)) : Exec σ (Option Ordering)) = pure (some .lt)
        rw [Nat.compare_eq_lt.2 (by simp at h; omega)]
    | cons x xs ih =>
      intro ys h
      cases ys with
      | nil =>
        show (pure (some (compare n m)) : Exec σ (Option Ordering)) = pure (some .gt)
        rw [Nat.compare_eq_gt.2 (by simp at h; omega)]
      | cons y ys =>
        unfold visitPairs listPartialCmp
        rw [Exec.bind_assoc', Exec.bind_assoc']
        refine Exec.bind_congr' _ fun t => ?_
        match t with
        | none => rfl
        | some .lt => rfl
        | some .gt => rfl
        | some .eq => exact ih ys (by simp at h; omega)
  exact key _ _ xs ys (by omega)

theorem Walk.cmp_eq {a : Walk T β} {b : Walk U γ} {xs : List (Val T β)} {ys : List (Val U γ)} (ha : a.Left a.start xs) (hn : a.len = xs.length)
    (hb : b.Left b.start ys) (hm : b.len = ys.length) (k : Val T β → Val U γ → Exec σ Ordering) : a.cmp b k = listCmp k xs ys := by
  unfold Walk.cmp
  rw [Walk.zip_eq _ xs ys _ _ _ ha hb (by omega), hn, hm]
  clear ha hb hn hm
  have key : ∀ (n m : Nat) (xs : List (Val T β)) (ys : List (Val U γ)) , (n : Nat) + ys.length = m + xs.length →
      (visitPairs (fun l r => k l r >>= fun o => match o with
        | .eq => pure none
        | res => pure (some res)) xs ys >>= fun r => match r with
        | some res => pure res
        | none => pure (compare n m)) = listCmp k xs ys := by
    intro n m xs
    induction xs with
    | nil =>
      intro ys h
      cases ys with
      | nil =>
        have : n = m := by simpa using h
        subst this
        show (pure (compare n n) : Exec σ Ordering) = pure .eq
        rw [Nat.compare_eq_eq.2 rfl]
      | cons y ys =>
        show (pure (compare n m) : Exec σ Ordering) = pure .lt
        rw [Nat.compare_eq_lt.2 (by simp at h; omega)]
    | cons x xs ih =>
      intro ys h
      cases ys with
      | nil =>
        show (pure (compare n m) : Exec σ Ordering) = pure .gt
        rw [Nat.compare_eq_gt.2 (by simp at h; omega)]
      | cons y ys =>
        unfold visitPairs listCmp
        rw [Exec.bind_assoc', Exec.bind_assoc']
        refine Exec.bind_congr' _ fun t => ?_
        match t with
        | .lt => rfl
        | .gt => rfl
        | .eq => exact ih ys (by simp at h; omega)
  exact key _ _ xs ys (by omega)

/-- Continuing after a loop: the continuation may use the iterator that is left. -/
theorem Walk.Agrees.bind {α δ : Type} {w : Walk T β} {m : Exec σ (α × w.It)} {q : Exec σ (α × List (Val T β))} {s : σ}
    (h : w.Agrees (m s) (q s)) {f : α × w.It → Exec σ (δ × w.It)} {g : α × List (Val T β) → Exec σ (δ × List (Val T β))}
    (hf : ∀ a it rest s, w.Left it rest → w.Agrees (f (a, it) s) (g (a, rest) s)) :
    w.Agrees ((m >>= f) s) ((q >>= g) s) := by
  cases hq : q s with
  | ub => rw [hq] at h; rw [Exec.bind_ub hq, Exec.bind_ub (show m s = .ub from h)]; exact rfl
  | abort => rw [hq] at h; rw [Exec.bind_abort hq, Exec.bind_abort (show m s = .abort from h)]; exact rfl
  | panic s1 => rw [hq] at h; rw [Exec.bind_panic hq, Exec.bind_panic (show m s = .panic s1 from h)]; exact rfl
  | ok p s1 =>
    rw [hq] at h
    obtain ⟨it, h1, h2⟩ := h
    rw [Exec.bind_ok hq, Exec.bind_ok h1]
    exact hf _ _ _ _ h2

/-- Continuing after a loop without using the iterator. -/
theorem Walk.Agrees.bind_fst {α δ : Type} {w : Walk T β} {m : Exec σ (α × w.It)} {q : Exec σ (α × List (Val T β))} {s : σ}
    (h : w.Agrees (m s) (q s)) (f : α → Exec σ δ) : (m >>= fun p => f p.1) s = (q >>= fun p => f p.1) s := by
  cases hq : q s with
  | ub => rw [hq] at h; rw [Exec.bind_ub hq, Exec.bind_ub (show m s = .ub from h)]
  | abort => rw [hq] at h; rw [Exec.bind_abort hq, Exec.bind_abort (show m s = .abort from h)]
  | panic s1 => rw [hq] at h; rw [Exec.bind_panic hq, Exec.bind_panic (show m s = .panic s1 from h)]
  | ok p s1 =>
    rw [hq] at h
    obtain ⟨it, h1, _⟩ := h
    rw [Exec.bind_ok hq, Exec.bind_ok h1]

theorem visit_forEach (f : Val T β → Exec σ Unit) : ∀ (k : Nat) (xs : List (Val T β)) ,
    (visit (ρ := Unit) (fun _ x => f x >>= fun _ => pure none) k xs >>= fun _ => pure ()) = listForEach f xs
  | _, [] => rfl
  | k, x :: xs => by
    unfold visit listForEach
    rw [Exec.bind_assoc', Exec.bind_assoc']
    exact Exec.bind_congr' _ fun _ => visit_forEach f (k + 1) xs

theorem visit_forEach_none (f : Val T β → Exec σ Unit) : ∀ (k : Nat) (xs : List (Val T β)) ,
    visit (ρ := Unit) (fun _ x => f x >>= fun _ => pure none) k xs = listForEach f xs >>= fun _ => pure (none, [])
  | _, [] => rfl
  | k, x :: xs => by
    unfold visit listForEach
    rw [Exec.bind_assoc', Exec.bind_assoc']
    exact Exec.bind_congr' _ fun _ => visit_forEach_none f (k + 1) xs

/-- The loop that looks for a result, with the index counted from `k`. -/
theorem visit_find {α : Type} (f : Val T β → Exec σ (Option ρ)) (out : Nat → ρ → α) : ∀ (k : Nat) (xs : List (Val T β)),
    visit (fun k x => f x >>= fun o => pure (o.map (out k))) k xs =
      listFind f xs >>= fun r => pure (r.1.map fun p => out (k + p.1) p.2, r.2)
  | _, [] => rfl
  | k, x :: xs => by
    unfold visit listFind
    rw [Exec.bind_assoc', Exec.bind_assoc']
    refine Exec.bind_congr' _ fun o => ?_
    cases o with
    | some a => rfl
    | none =>
      show visit _ (k + 1) xs = _
      rw [visit_find f out (k + 1) xs, Exec.bind_assoc']
      refine Exec.bind_congr' _ fun r => ?_
      show pure _ = pure _
      refine congrArg _ ?_
      cases r.1 with
      | none => rfl
      | some p =>
        show (some (out (k + 1 + p.1) p.2), r.2) = (some (out (k + (p.1 + 1)) p.2), r.2)
        rw [show k + 1 + p.1 = k + (p.1 + 1) by omega]

theorem visit_try {ε : Type} (f : Val T β → Exec σ (Except ε Unit)) (fin : Exec σ (Except ε ρ)) : ∀ (k : Nat) (xs : List (Val T β)),
    (visit (fun _ x => f x >>= fun o => match o with
      | .error e => pure (some e)
      | .ok () => pure none) k xs >>= fun r => match r.1 with
      | some e => pure (.error e)
      | none => fin) = listTry f xs >>= fun r => match r with
      | .error e => pure (.error e)
      | .ok () => fin
  | _, [] => rfl
  | k, x :: xs => by
    unfold visit listTry
    rw [Exec.bind_assoc', Exec.bind_assoc', Exec.bind_assoc']
    refine Exec.bind_congr' _ fun o => ?_
    cases o with
    | error e => rfl
    | ok u => exact visit_try f fin (k + 1) xs

/-! ## `clone` -/

namespace SVec
variable {sz al : Nat} [Inhabited β] {c : Cfg} {v : SVec sz al β} {xs : List (Val (sizedTy sz al) β)}

/-- A round of the loop. -/
def cloneStep (c : Cfg) (envs : Nat → Env (Val (sizedTy sz al) β)) (cl : Val (sizedTy sz al) β → Exec σ (Val (sizedTy sz al) β))
    (k : Nat) (x : Val (sizedTy sz al) β) : Exec (σ × SVec sz al β) (Option Unit) := do
  let y ← liftL (cl x)
  liftR ((sizedM c sz al).giving (envs k) y (Api.push c (sizedP c sz al) (envs k) y))
  pure none

theorem cloneLoop_meets (hz : 0 < sz) (envs : Nat → Env (Val (sizedTy sz al) β))
    (cl : Val (sizedTy sz al) β → Exec σ (Val (sizedTy sz al) β)) :
    ∀ (xs zs : List (Val (sizedTy sz al) β)) (k : Nat) (s : σ) (ret : SVec sz al β), ret.Holds c zs → zs.length + xs.length ≤ ret.capacity c →
      CloneSound c cl xs s →
      (visit (cloneStep c envs cl) k xs (s, ret)).Meets
        (fun _ st => ∃ ys, ClonedVals cl xs s ys st.1 ∧ st.2.Holds c (zs ++ ys) ∧ st.2.drops = ret.drops ∧ st.2.capacity c = ret.capacity c)
        (fun st => ∃ ys, (∃ j x s1, xs[j]? = some x ∧ ClonedVals cl (xs.take j) s ys s1 ∧ cl x s1 = .panic st.1) ∧
          st.2.Holds c (zs ++ ys) ∧ st.2.drops = ret.drops)
        (∃ j x ys s1, xs[j]? = some x ∧ ClonedVals cl (xs.take j) s ys s1 ∧ cl x s1 = .abort)
  | [], zs, k, s, ret, h, _, _ => ⟨[], .nil _, by simpa using h, rfl, rfl⟩
  | x :: xs, zs, k, s, ret, h, hc, hs => by
    have hv : visit (cloneStep c envs cl) k (x :: xs) (s, ret) = ((liftL (cl x) : Exec (σ × SVec sz al β) _) >>= fun y =>
        (liftR ((sizedM c sz al).giving (envs k) y (Api.push c (sizedP c sz al) (envs k) y)) : Exec (σ × SVec sz al β) _) >>= fun _ =>
          visit (cloneStep c envs cl) (k + 1) xs) (s, ret) := by
      rw [visit]
      show ((cloneStep c envs cl k x >>= _ : Exec (σ × SVec sz al β) _)) (s, ret) = _
      rw [cloneStep, Exec.bind_assoc']
      refine congrFun (Exec.bind_congr' _ fun y => ?_) _
      rw [Exec.bind_assoc']
      rfl
    rw [hv]
    cases hr : cl x s with
    | ub => exact absurd hr hs.1
    | abort => rw [Exec.bind_abort (liftL_abort hr)]; exact ⟨0, x, [], s, rfl, .nil _, hr⟩
    | panic s1 =>
      rw [Exec.bind_panic (liftL_panic hr)]
      exact ⟨[], ⟨0, x, s, rfl, .nil _, hr⟩, by simpa using h, rfl⟩
    | ok y s1 =>
      rw [Exec.bind_ok (liftL_ok hr)]
      obtain ⟨hy, hs1⟩ := hs.2 y s1 hr
      have hp := push_meets h hz (envs k) hy
      have hlt : zs.length < ret.capacity c := by simp at hc; omega
      have hno : ¬ ret.NoSlot c (envs k) := by
        rintro ⟨h1, _⟩
        rw [h.len] at h1
        omega
      cases hq : Api.push c (sizedP c sz al) (envs k) y ret with
      | ub => rw [hq] at hp; exact hp.elim
      | abort => rw [hq] at hp; exact absurd hp hno
      | panic r => rw [hq] at hp; exact absurd hp.2 hno
      | ok u r =>
        rw [hq] at hp
        rw [Exec.bind_ok (liftR_ok (giving_ok hq))]
        obtain ⟨h1, h2, h3⟩ := hp
        have hcap := capacity_congr (c := c) (h3 hlt).1
        refine (cloneLoop_meets hz envs cl xs (zs ++ [y]) (k + 1) s1 r h1 (by rw [hcap]; simp at hc ⊢; omega) hs1).mono ?_ ?_ ?_
        · rintro _ st ⟨ys, h4, h5, h6, h7⟩
          exact ⟨y :: ys, .cons hr h4, by simpa using h5, h6.trans h2, h7.trans hcap⟩
        · rintro st ⟨ys, ⟨j, x', s2, h4, h5, h6⟩, h7, h8⟩
          exact ⟨y :: ys, ⟨j + 1, x', s2, by simpa using h4, .cons hr h5, h6⟩, by simpa using h7, h8.trans h2⟩
        · rintro ⟨j, x', ys, s2, h4, h5, h6⟩
          exact ⟨j + 1, x', y :: ys, s2, by simpa using h4, .cons hr h5, h6⟩

theorem clone_meets (h : v.Holds c xs) (hz : 0 < sz) (env envD : Env (Val (sizedTy sz al) β)) (envs : Nat → Env (Val (sizedTy sz al) β))
    (cl : Val (sizedTy sz al) β → Exec σ (Val (sizedTy sz al) β)) {s : σ} (hs : CloneSound c cl xs s) :
    (clone c env envD envs cl v s).Meets
      (fun _ st => ∃ ys, ClonedVals cl xs s ys st.1 ∧ st.2.Holds c ys ∧ st.2.drops = [] ∧ v.capacity c ≤ st.2.capacity c)
      (fun st => (st.1 = s ∧ st.2.drops = [] ∧ ∃ e, env.infoGrow (v.capacity c) = .error e) ∨
        ∃ j x s1, xs[j]? = some x ∧ ClonedVals cl (xs.take j) s st.2.drops s1 ∧ cl x s1 = .panic st.1)
      ((∃ e, env.infoGrow (v.capacity c) = .error e) ∨
        ∃ j x ys s1, xs[j]? = some x ∧ ClonedVals cl (xs.take j) s ys s1 ∧
          (cl x s1 = .abort ∨ (∃ s2, cl x s1 = .panic s2) ∧ ∃ y ∈ ys, envD.dropPanics y = true)) := by
  unfold clone
  rw [byteCapacity_eq h]
  dsimp only
  have hnew : (SVec.new : SVec sz al β).Holds c [] := new_holds
  have hcap := h.capMax
  have hmax : ∀ e, Fails c sz env 0 (v.capacity c) e → ∃ e, env.infoGrow (v.capacity c) = .error e := by
    rintro e (⟨_, h1⟩ | h1)
    · exfalso
      unfold maxSlots at h1
      rw [if_neg (by omega)] at h1
      have : v.capacity c ≤ c.isizeMax / sz := (Nat.le_div_iff_mul_le hz).2 hcap
      omega
    · exact ⟨e, by rwa [Nat.zero_add] at h1⟩
  have hr := run_meets hnew hz env (.exactCapBytesAlign (v.capacity c) (v.capacity c * sz) al)
  rw [show Reservation.run c (sizedP c sz al) env (.exactCapBytesAlign (v.capacity c) (v.capacity c * sz) al) SVec.new =
    Api.withCapacityBytesAlign (sizedP c sz al) env (v.capacity c) (v.capacity c * sz) al from rfl] at hr
  cases hq : Api.withCapacityBytesAlign (sizedP c sz al : Provider (SVec sz al β) _ _) env (v.capacity c) (v.capacity c * sz) al with
  | ub => rw [hq] at hr; exact hr.elim
  | abort =>
    rw [hq] at hr
    obtain ⟨e, he⟩ := hr.2.2 (Nat.le_refl _)
    exact .inl (hmax e he)
  | panic r =>
    rw [hq] at hr
    obtain ⟨_, h1, _, _, _, h2⟩ := hr
    obtain ⟨_, e, he⟩ := h2 (Nat.le_refl _)
    exact .inl ⟨rfl, h1, hmax e he⟩
  | ok u r =>
    rw [hq] at hr
    have hroom : v.capacity c ≤ r.capacity c := by have := hr.room; simp [Reservation.slots] at this; exact this
    have hloop := cloneLoop_meets (c := c) hz envs cl xs [] 0 s r hr.holds (by have := h.cap; simp; omega) hs
    have hl := walk_left h
    have hag := Walk.each_agrees (w := v.walk) (cloneStep c envs cl) xs (v.len + 1) 0 v.iter (s, r) hl (by rw [h.len]; omega)
    dsimp only
    have hbody : ((v.walk.all (ρ := Unit) (cloneStep c envs cl) >>= fun _ => pure () : Exec (σ × SVec sz al β) Unit) (s, r)).Meets
        (fun _ st => ∃ ys, ClonedVals cl xs s ys st.1 ∧ st.2.Holds c ys ∧ st.2.drops = [] ∧ v.capacity c ≤ st.2.capacity c)
        (fun st => ∃ ys, (∃ j x s1, xs[j]? = some x ∧ ClonedVals cl (xs.take j) s ys s1 ∧ cl x s1 = .panic st.1) ∧
          st.2.Holds c ys ∧ st.2.drops = [])
        (∃ j x ys s1, xs[j]? = some x ∧ ClonedVals cl (xs.take j) s ys s1 ∧ cl x s1 = .abort) := by
      rw [show (v.walk.all (ρ := Unit) (cloneStep c envs cl) >>= fun _ => pure () : Exec (σ × SVec sz al β) Unit) (s, r) = _ from
        hag.bind_fst fun _ => pure ()]
      refine Res.Meets.bind (hloop.mono (fun _ _ h => h) ?_ id) ?_
      · rintro st ⟨ys, h1, h2, h3⟩
        exact ⟨ys, h1, h2, h3.trans hr.drops⟩
      · rintro _ st ⟨ys, h1, h2, h3, h4⟩
        exact ⟨ys, h1, h2, h3.trans hr.drops, by rw [h4]; exact hroom⟩
    show (Exec.onUnwind (v.walk.all (ρ := Unit) (cloneStep c envs cl) >>= fun _ => pure ()) (liftR (SVec.drop envD)) (s, r)).Meets _ _ _
    unfold Exec.onUnwind
    generalize (v.walk.all (ρ := Unit) (cloneStep c envs cl) >>= fun _ => pure () : Exec (σ × SVec sz al β) Unit) (s, r) = res at hbody ⊢
    cases res with
    | ub => exact hbody.elim
    | ok u st => exact hbody
    | abort =>
      obtain ⟨j, x, ys, s1, h1, h2, h3⟩ := hbody
      exact .inr ⟨j, x, ys, s1, h1, h2, .inl h3⟩
    | panic st =>
      obtain ⟨ys, ⟨j, x, s1, h1, h2, h3⟩, h4, h5⟩ := hbody
      have hd := drop_meets h4 envD
      dsimp only
      rw [show (st : σ × SVec sz al β) = (st.1, st.2) from rfl]
      cases hx : drop envD st.2 with
      | ub => rw [hx] at hd; exact hd.elim
      | abort =>
        rw [hx] at hd; rw [liftR_abort hx]
        obtain ⟨i, _, hi, _, _, h6, _⟩ := hd
        exact .inr ⟨j, x, ys, s1, h1, h2, .inr ⟨⟨_, h3⟩, _, List.getElem_mem hi, h6⟩⟩
      | panic s2 =>
        rw [hx] at hd; rw [liftR_panic hx]
        exact .inr ⟨j, x, ys, s1, h1, h2, .inr ⟨⟨_, h3⟩, hd.1.2⟩⟩
      | ok u s2 =>
        rw [hx] at hd; rw [liftR_ok hx]
        refine .inr ⟨j, x, s1, h1, ?_, h3⟩
        show ClonedVals cl (xs.take j) s s2.drops s1
        rw [hd.1.1, h5]; exact h2

end SVec

end Verif
