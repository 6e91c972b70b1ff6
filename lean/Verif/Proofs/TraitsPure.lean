import Verif.Proofs.Traits

/-!
# The loops over lists when the methods of the elements have no effects
-/

namespace Verif
variable {σ ρ : Type} {T U : UTy} {β γ : Type}

theorem listEq_pure {e : Val T β → Val U γ → Exec σ Bool} {e' : Val T β → Val U γ → Bool} : ∀ {xs : List (Val T β)} {ys : List (Val U γ)},
    (∀ x ∈ xs, ∀ y ∈ ys, ∀ s, e x y s = .ok (e' x y) s) → ∀ s, ∃ t, listEq.go e xs ys s = .ok t s ∧
      (t = true ↔ ∀ i (h1 : i < xs.length) (h2 : i < ys.length), e' xs[i] ys[i] = true)
  | [], ys, _, s => ⟨true, by cases ys <;> rfl, by simp⟩
  | x :: xs, [], _, s => ⟨true, rfl, by simp⟩
  | x :: xs, y :: ys, he, s => by
    have h1 := he x (by simp) y (by simp) s
    rw [show listEq.go e (x :: xs) (y :: ys) s = (e x y >>= fun t => if t = true then listEq.go e xs ys else pure false : Exec σ Bool) s from rfl,
      Exec.bind_ok h1]
    cases hv : e' x y with
    | false =>
      refine ⟨false, rfl, ?_⟩
      simp only [Bool.false_eq_true, false_iff]
      intro h
      have := h 0 (by simp) (by simp)
      simp [hv] at this
    | true =>
      obtain ⟨t, h2, h3⟩ := listEq_pure (xs := xs) (ys := ys) (fun x hx y hy => he x (by simp [hx]) y (by simp [hy])) s
      refine ⟨t, h2, h3.trans ⟨?_, ?_⟩⟩
      · intro h i h4 h5
        cases i with
        | zero => exact hv
        | succ i => exact h i (by simpa using h4) (by simpa using h5)
      · intro h i h4 h5
        exact h (i + 1) (by simpa using h4) (by simpa using h5)

theorem listPartialCmp_pure {k : Val T β → Val U γ → Exec σ (Option Ordering)} {k' : Val T β → Val U γ → Option Ordering} :
    ∀ {xs : List (Val T β)} {ys : List (Val U γ)}, (∀ x ∈ xs, ∀ y ∈ ys, ∀ s, k x y s = .ok (k' x y) s) → ∀ s,
      ∃ r, listPartialCmp k xs ys s = .ok r s ∧
        ((∃ i, ∃ (h1 : i < xs.length) (h2 : i < ys.length),
          (∀ j (hj : j < i), k' (xs[j]'(by omega)) (ys[j]'(by omega)) = some .eq) ∧ k' xs[i] ys[i] ≠ some .eq ∧ r = k' xs[i] ys[i]) ∨
        ((∀ j (h1 : j < xs.length) (h2 : j < ys.length), k' xs[j] ys[j] = some .eq) ∧ r = some (compare xs.length ys.length)))
  | [], [], _, s => ⟨some .eq, rfl, .inr ⟨by simp, rfl⟩⟩
  | [], y :: ys, _, s => ⟨some .lt, rfl, .inr ⟨by simp, congrArg some (Nat.compare_eq_lt.2 (by simp)).symm⟩⟩
  | x :: xs, [], _, s => ⟨some .gt, rfl, .inr ⟨by simp, congrArg some (Nat.compare_eq_gt.2 (by simp)).symm⟩⟩
  | x :: xs, y :: ys, hk, s => by
    have h1 := hk x (by simp) y (by simp) s
    rw [show listPartialCmp k (x :: xs) (y :: ys) s = (k x y >>= fun t => match t with
      | none => pure none
      | some .lt => pure (some .lt)
      | some .gt => pure (some .gt)
      | some .eq => listPartialCmp k xs ys : Exec σ _) s from rfl, Exec.bind_ok h1]
    by_cases hv : k' x y = some .eq
    · rw [hv]
      obtain ⟨r, h2, h3⟩ := listPartialCmp_pure (xs := xs) (ys := ys) (fun x hx y hy => hk x (by simp [hx]) y (by simp [hy])) s
      refine ⟨r, h2, ?_⟩
      rcases h3 with ⟨i, h4, h5, h6, h7, h8⟩ | ⟨h4, h5⟩
      · refine .inl ⟨i + 1, by simpa using h4, by simpa using h5, ?_, by simpa using h7, by simpa using h8⟩
        intro j hj
        cases j with
        | zero => exact hv
        | succ j => exact h6 j (by omega)
      · refine .inr ⟨?_, ?_⟩
        · intro j h6 h7
          cases j with
          | zero => exact hv
          | succ j => exact h4 j (by simpa using h6) (by simpa using h7)
        · rw [h5]
          refine congrArg some ?_
          simp only [List.length_cons]
          rcases Nat.lt_trichotomy xs.length ys.length with h | h | h
          · rw [Nat.compare_eq_lt.2 h, Nat.compare_eq_lt.2 (by omega)]
          · rw [Nat.compare_eq_eq.2 h, Nat.compare_eq_eq.2 (by omega)]
          · rw [Nat.compare_eq_gt.2 h, Nat.compare_eq_gt.2 (by omega)]
    · refine ⟨k' x y, ?_, .inl ⟨0, by simp, by simp, fun j hj => absurd hj (by omega), hv, rfl⟩⟩
      match hx : k' x y with
      | none => rfl
      | some .lt => rfl
      | some .gt => rfl
      | some .eq => exact absurd hx hv

theorem listCmp_pure {k : Val T β → Val T β → Exec σ Ordering} {k' : Val T β → Val T β → Ordering} :
    ∀ {xs ys : List (Val T β)}, (∀ x ∈ xs, ∀ y ∈ ys, ∀ s, k x y s = .ok (k' x y) s) → ∀ s,
      listCmp k xs ys s = .ok (List.compareLex k' xs ys) s
  | [], [], _, s => rfl
  | [], y :: ys, _, s => rfl
  | x :: xs, [], _, s => rfl
  | x :: xs, y :: ys, hk, s => by
    have h1 := hk x (by simp) y (by simp) s
    rw [show listCmp k (x :: xs) (y :: ys) s = (k x y >>= fun t => match t with
      | .lt => pure .lt
      | .gt => pure .gt
      | .eq => listCmp k xs ys : Exec σ _) s from rfl, Exec.bind_ok h1, List.compareLex_cons_cons]
    cases k' x y with
    | lt => rfl
    | gt => rfl
    | eq => exact listCmp_pure (fun x hx y hy => hk x (by simp [hx]) y (by simp [hy])) s

theorem all_forEach {xs : List (Val T β)} {w : Walk T β} (hl : w.Left w.start xs) (hn : w.len = xs.length) (f : Val T β → Exec σ Unit) {α : Type} (g : Exec σ α) :
    (w.all (ρ := Unit) (fun _ x => f x >>= fun _ => pure none) >>= fun _ => g) = listForEach f xs >>= fun _ => g := by
  funext s
  have hag := Walk.each_agrees (w := w) (fun _ x => f x >>= fun _ => pure none : Nat → Val T β → Exec σ (Option Unit)) xs (w.len + 1) 0 w.start s hl
    (by omega)
  rw [show (w.all (ρ := Unit) (fun _ x => f x >>= fun _ => pure none) >>= fun _ => g : Exec σ α) s = _ from hag.bind_fst fun _ => g,
    visit_forEach_none, Exec.bind_assoc']
  rfl

theorem bind_unit (m : Exec σ Unit) : (m >>= fun _ => pure ()) = m := by
  funext s
  cases h : m s with
  | ok u s' => rw [Exec.bind_ok h]; rfl
  | panic s' => rw [Exec.bind_panic h]
  | abort => rw [Exec.bind_abort h]
  | ub => rw [Exec.bind_ub h]

theorem listForEach_append (f : Val T β → Exec σ Unit) (xs ys : List (Val T β)) :
    listForEach f (xs ++ ys) = listForEach f xs >>= fun _ => listForEach f ys := by
  induction xs with
  | nil => rfl
  | cons x xs ih =>
    rw [List.cons_append, listForEach, listForEach, Exec.bind_assoc']
    exact Exec.bind_congr' _ fun _ => ih

section
variable [Inhabited β] {c : Cfg} {a : Walk T β} {xs : List (Val T β)} {k : Nat} {it : a.It}

theorem each_find (ha : Borrowed c T a xs) (hl : a.Left it (xs.drop k)) {α : Type} (f : Val T β → Exec σ (Option ρ)) (out : Nat → ρ → α) (s : σ) :
    a.Agrees (a.each (fun k x => f x >>= fun o => pure (o.map (out k))) (a.len + 1) 0 it s)
      ((listFind f (xs.drop k) >>= fun r => pure (r.1.map fun p => out p.1 p.2, r.2)) s) := by
  have hag := Walk.each_agrees (w := a) (fun k x => f x >>= fun o => pure (o.map (out k)) : Nat → Val T β → Exec σ (Option α)) (xs.drop k)
    (a.len + 1) 0 it s hl (by have := ha.left.2; simp; omega)
  rw [visit_find] at hag
  simpa only [Nat.zero_add] using hag

end

/-- What `listFind` returns if the function has no effects. -/
theorem listFind_pure {f : Val T β → Exec σ (Option ρ)} {f' : Val T β → Option ρ} : ∀ {l : List (Val T β)},
    (∀ x ∈ l, ∀ s, f x s = .ok (f' x) s) → ∀ s,
      listFind f l s = .ok ((l.findIdx? fun x => (f' x).isSome).bind fun i => (l.findSome? f').map fun r => (i, r),
        (l.dropWhile fun x => (f' x).isNone).tail) s
  | [], _, s => rfl
  | x :: l, hf, s => by
    rw [show listFind f (x :: l) s = (f x >>= fun o => match o with
      | some a => pure (some (0, a), l)
      | none => listFind f l >>= fun r => pure (r.1.map fun p => (p.1 + 1, p.2), r.2) : Exec σ _) s from rfl,
      Exec.bind_ok (hf x (by simp) s)]
    cases hx : f' x with
    | some a => simp [List.findIdx?_cons, hx]
    | none =>
      dsimp only
      rw [Exec.bind_ok (listFind_pure (l := l) (fun y hy => hf y (by simp [hy])) s)]
      simp only [List.findIdx?_cons, List.findSome?_cons, List.dropWhile_cons, hx]
      show Res.ok _ s = Res.ok _ s
      congr 1
      cases hi : List.findIdx? (fun x => (f' x).isSome) l with
      | none => simp
      | some i => cases hs : l.findSome? f' <;> simp

end Verif
