import Verif.Proofs.Observe
import Verif.Spec.Samples
import Verif.Model.Sinks

/-!
# C02, C05, C26, C27: `pop_into` and `remove_into`

What an emplacer sees of the returned emplacable is expressed by comparison with the simplest source, `given env x`,
which owns the value `x`: running any emplacer `m` has the same effect on the emplacer's side as giving it `x`, and
drops the same values (`SameOutcome`).
-/

namespace Verif
open Sample

section
variable {T : UTy} {A : ATy} {β τ : Type} [Inhabited β] {c : Cfg}

/-! ## C02 -/

omit [Inhabited β] in
/-- If `ALIGN` is the alignment of the values, announcing it is announcing the alignment of the value. -/
theorem givenAs_exact (hX : A.Exact) {env : Env (Val A.ty β)} {x : Val A.ty β} :
    givenAs ⟨x.size, A.ALIGN⟩ env x = given env x := by
  unfold given Val.align
  rw [hX]

/-- C02, statically aligned elements: `pop_into` is `None` exactly if the vector is empty. Otherwise every emplacer,
run with the result, behaves as if it were given the last element, announced with the alignment `ALIGN`, and the vector holds the
rest. -/
theorem C02_popInto_aligned (hA : A.Fits c) {v : AVec A β} {xs : List (Val A.ty β)} (h : v.Holds c xs)
    (env : Env (Val A.ty β)) :
    (Api.popInto (alignedP c A) env v = none ↔ xs = []) ∧
    ∀ ys x, xs = ys ++ [x] → ∃ e, Api.popInto (alignedP c A) env v = some e ∧
      ∀ (m : Emplacer τ A.ty β) (t : τ), SameOutcome (run e m (v, t)) (run (givenAs ⟨x.size, A.ALIGN⟩ env x) m (v.drops, t))
        (fun v' ds => v'.Holds c ys ∧ v'.drops = ds) (fun v' ds => v'.Holds c ys ∧ v'.drops = ds) := by
  have h2 : ∀ ys x, xs = ys ++ [x] → ∃ e, Api.popInto (alignedP c A) env v = some e ∧
      ∀ (m : Emplacer τ A.ty β) (t : τ), SameOutcome (run e m (v, t)) (run (givenAs ⟨x.size, A.ALIGN⟩ env x) m (v.drops, t))
        (fun v' ds => v'.Holds c ys ∧ v'.drops = ds) (fun v' ds => v'.Holds c ys ∧ v'.drops = ds) := by
    rintro ys x rfl
    refine ⟨(alignedP c A).popIntoUnchecked env, ?_, fun m t => ?_⟩
    · unfold Api.popInto; rw [if_pos]; rw [(AVec.implF hA).len_eq h]; simp
    · obtain ⟨e, h1, h2⟩ := (AVec.implF hA).popInto_run h env m t
      unfold Api.popInto at h1
      rw [if_pos (by rw [(AVec.implF hA).len_eq h]; simp)] at h1
      cases h1; exact h2
  refine ⟨⟨fun hn => ?_, ?_⟩, h2⟩
  · rcases List.eq_nil_or_concat xs with h1 | ⟨ys, x, h1⟩
    · exact h1
    · obtain ⟨e, h3, _⟩ := h2 ys x (by simpa using h1)
      rw [hn] at h3; cases h3
  · rintro rfl; exact (AVec.implF hA).popInto_nil h env

/-- C02, statically aligned elements, in full. Partial: `ALIGN` must be the alignment of the values, as it is for slices and `str`;
for `CStr` it is not (`C02_counterexample`). -/
theorem C02_popInto_exact_partial (hA : A.Fits c) (hX : A.Exact) {v : AVec A β} {xs : List (Val A.ty β)} (h : v.Holds c xs)
    (env : Env (Val A.ty β)) :
    (Api.popInto (alignedP c A) env v = none ↔ xs = []) ∧
    ∀ ys x, xs = ys ++ [x] → ∃ e, Api.popInto (alignedP c A) env v = some e ∧
      ∀ (m : Emplacer τ A.ty β) (t : τ), SameOutcome (run e m (v, t)) (run (given env x) m (v.drops, t))
        (fun v' ds => v'.Holds c ys ∧ v'.drops = ds) (fun v' ds => v'.Holds c ys ∧ v'.drops = ds) := by
  refine ⟨(C02_popInto_aligned (τ := τ) hA h env).1, fun ys x hxs => ?_⟩
  obtain ⟨e, h1, h2⟩ := (C02_popInto_aligned (τ := τ) hA h env).2 ys x hxs
  refine ⟨e, h1, fun m t => ?_⟩
  have := h2 m t
  rw [givenAs_exact hX] at this
  exact this

/-- C02, dynamically aligned elements. -/
theorem C02_popInto_unaligned {G : Prop} {v : UVec T β} {xs : List (Val T β)} (h : v.Represents G c xs) (env : Env (Val T β)) :
    (Api.popInto (unalignedP c T) env v = none ↔ xs = []) ∧
    ∀ ys x, xs = ys ++ [x] → ∃ e, Api.popInto (unalignedP c T) env v = some e ∧
      ∀ (m : Emplacer τ T β) (t : τ), SameOutcome (run e m (v, t)) (run (given env x) m (v.drops, t))
        (fun v' ds => v'.Represents G c ys ∧ v'.drops = ds) (fun v' ds => v'.Represents G c ys ∧ v'.drops = ds) := by
  have h2 : ∀ ys x, xs = ys ++ [x] → ∃ e, Api.popInto (unalignedP c T) env v = some e ∧
      ∀ (m : Emplacer τ T β) (t : τ), SameOutcome (run e m (v, t)) (run (given env x) m (v.drops, t))
        (fun v' ds => v'.Represents G c ys ∧ v'.drops = ds) (fun v' ds => v'.Represents G c ys ∧ v'.drops = ds) := by
    rintro ys x rfl
    refine ⟨(unalignedP c T).popIntoUnchecked env, ?_, fun m t => ?_⟩
    · unfold Api.popInto; rw [if_pos]; rw [(UVec.impl G c T).len_eq h]; simp
    · obtain ⟨e, h1, h2⟩ := (UVec.impl G c T).popInto_run h env m t
      unfold Api.popInto at h1
      rw [if_pos (by rw [(UVec.impl G c T).len_eq h]; simp)] at h1
      cases h1; exact h2
  refine ⟨⟨fun hn => ?_, ?_⟩, h2⟩
  · rcases List.eq_nil_or_concat xs with h1 | ⟨ys, x, h1⟩
    · exact h1
    · obtain ⟨e, h3, _⟩ := h2 ys x (by simpa using h1)
      rw [hn] at h3; cases h3
  · rintro rfl; exact (UVec.impl G c T).popInto_nil h env

/-! ## C05 -/

/-- C05, statically aligned elements; the element is announced with the alignment `ALIGN`. -/
theorem C05_removeInto_aligned (hA : A.Fits c) {v : AVec A β} {xs : List (Val A.ty β)} (h : v.Holds c xs)
    (env : Env (Val A.ty β)) {i : Nat} (hi : i < xs.length) (m : Emplacer τ A.ty β) (t : τ) :
    SameOutcome (run (Api.removeInto (alignedP c A) env i) m (v, t)) (run (givenAs ⟨xs[i].size, A.ALIGN⟩ env xs[i]) m (v.drops, t))
      (fun v' ds => v'.Holds c (xs.take i ++ xs.drop (i + 1)) ∧ v'.drops = ds)
      (fun v' ds => v'.Holds c xs ∧ v'.drops = ds) := by
  rw [← List.eraseIdx_eq_take_drop_succ]
  exact (AVec.implF hA).removeInto_run h env hi trivial m t

/-- C05, statically aligned elements, in full. Partial: `ALIGN` must be the alignment of the values, as it is for slices and `str`;
for `CStr` it is not (`C05_counterexample_cstr`). -/
theorem C05_removeInto_exact_partial (hA : A.Fits c) (hX : A.Exact) {v : AVec A β} {xs : List (Val A.ty β)} (h : v.Holds c xs)
    (env : Env (Val A.ty β)) {i : Nat} (hi : i < xs.length) (m : Emplacer τ A.ty β) (t : τ) :
    SameOutcome (run (Api.removeInto (alignedP c A) env i) m (v, t)) (run (given env xs[i]) m (v.drops, t))
      (fun v' ds => v'.Holds c (xs.take i ++ xs.drop (i + 1)) ∧ v'.drops = ds)
      (fun v' ds => v'.Holds c xs ∧ v'.drops = ds) := by
  rw [← givenAs_exact hX]
  exact C05_removeInto_aligned hA h env hi m t

/-- C05, dynamically aligned elements. Partial: removing the last element of several is covered only if there is no
padding behind the element before it (`RemoveOk`); `C05_counterexample` shows what happens otherwise. -/
theorem C05_removeInto_unaligned_partial {G : Prop} {v : UVec T β} {xs : List (Val T β)} (h : v.Represents G c xs)
    (env : Env (Val T β)) {i : Nat} (hi : i < xs.length) (hr : v.RemoveOk xs i) (m : Emplacer τ T β) (t : τ) :
    SameOutcome (run (Api.removeInto (unalignedP c T) env i) m (v, t)) (run (given env xs[i]) m (v.drops, t))
      (fun v' ds => v'.Represents G c (xs.take i ++ xs.drop (i + 1)) ∧ v'.drops = ds)
      (fun v' ds => v'.Represents G c xs ∧ v'.drops = ds) := by
  rw [← List.eraseIdx_eq_take_drop_succ]
  exact (UVec.impl G c T).removeInto_run h env hi hr m t

/-- C05, out of range: the panic happens before any emplacer is run. -/
theorem C05_removeInto_out_aligned (hA : A.Fits c) {v : AVec A β} {xs : List (Val A.ty β)} (h : v.Holds c xs)
    (env : Env (Val A.ty β)) {i : Nat} (hi : xs.length ≤ i) : Api.removeInto (alignedP c A) env i v = .panic v :=
  (AVec.implF hA).removeInto_out h env hi

/-- C05, out of range. -/
theorem C05_removeInto_out_unaligned {G : Prop} {v : UVec T β} {xs : List (Val T β)} (h : v.Represents G c xs)
    (env : Env (Val T β)) {i : Nat} (hi : xs.length ≤ i) : Api.removeInto (unalignedP c T) env i v = .panic v :=
  (UVec.impl G c T).removeInto_out h env hi

/-! ## C26 -/

omit [Inhabited β] in
theorem givenAs_run_panic {env : Env (Val T β)} {x : Val T β} {lay : Layout} {m : Emplacer τ T β} {ds : List (Val T β)} {t t' : τ}
    (hm : m lay x.md t = .panic t') : run (givenAs lay env x) m (ds, t) = .panic (ds, t') :=
  run_prepPanic (e := givenAs lay env x) rfl hm

omit [Inhabited β] in
theorem given_run_panic {env : Env (Val T β)} {x : Val T β} {m : Emplacer τ T β} {ds : List (Val T β)} {t t' : τ}
    (hm : m ⟨x.size, x.align⟩ x.md t = .panic t') : run (given env x) m (ds, t) = .panic (ds, t') := givenAs_run_panic hm

theorem SameOutcome.panic {V X : Type} {r : Res (V × τ) Unit} {ds : List X} {t' : τ} {Q Q' : V → List X → Prop}
    (h : SameOutcome r (.panic (ds, t')) Q Q') : ∃ v', r = .panic (v', t') ∧ Q' v' ds := by
  cases r with
  | panic s => obtain ⟨v', t⟩ := s; obtain ⟨rfl, h2⟩ := h; exact ⟨v', rfl, h2⟩
  | ok u s => exact h.elim
  | abort => exact h.elim
  | ub => exact h.elim

theorem SameOutcome.ok {V X : Type} {r : Res (V × τ) Unit} {u : Unit} {ds : List X} {t' : τ} {Q Q' : V → List X → Prop}
    (h : SameOutcome r (.ok u (ds, t')) Q Q') : ∃ v', r = .ok () (v', t') ∧ Q v' ds := by
  cases r with
  | ok u s => obtain ⟨v', t⟩ := s; obtain ⟨rfl, h2⟩ := h; exact ⟨v', rfl, h2⟩
  | panic s => exact h.elim
  | abort => exact h.elim
  | ub => exact h.elim

/-- C26 for `remove_into`, statically aligned elements: if the emplacer unwinds before taking the value, the vector holds
all its elements and nothing was dropped. -/
theorem C26_removeInto_aligned (hA : A.Fits c) {v : AVec A β} {xs : List (Val A.ty β)} (h : v.Holds c xs)
    (env : Env (Val A.ty β)) {i : Nat} (hi : i < xs.length) {m : Emplacer τ A.ty β} {t t' : τ}
    (hm : m ⟨xs[i].size, A.ALIGN⟩ xs[i].md t = .panic t') :
    ∃ v', run (Api.removeInto (alignedP c A) env i) m (v, t) = .panic (v', t') ∧ v'.Holds c xs ∧ v'.drops = v.drops := by
  have := C05_removeInto_aligned hA h env hi m t
  rw [givenAs_run_panic hm] at this
  exact this.panic

/-- C26 for `remove_into`, dynamically aligned elements. -/
theorem C26_removeInto_unaligned {G : Prop} {v : UVec T β} {xs : List (Val T β)} (h : v.Represents G c xs)
    (env : Env (Val T β)) {i : Nat} (hi : i < xs.length) {m : Emplacer τ T β} {t t' : τ}
    (hm : m ⟨xs[i].size, xs[i].align⟩ xs[i].md t = .panic t') :
    ∃ v', run (Api.removeInto (unalignedP c T) env i) m (v, t) = .panic (v', t') ∧ v'.Represents G c xs ∧ v'.drops = v.drops := by
  obtain ⟨st, h1, h2, h3⟩ := UVec.removeIntoUnchecked_start env h i hi
  have he : Api.removeInto (unalignedP c T) env i v = .ok st v := by
    unfold Api.removeInto
    rw [Exec.get_bind, Exec.assert_bind (by rw [(UVec.impl G c T).len_eq h]; exact hi)]
    exact h1
  exact ⟨v, run_prepPanic he (by rw [h2, h3]; exact hm), h, rfl⟩

/-- C26 for `pop_into`, statically aligned elements: the vector holds all other elements; the last one is lost
(forgotten, not dropped). -/
theorem C26_popInto_aligned (hA : A.Fits c) {v : AVec A β} {xs : List (Val A.ty β)} {x : Val A.ty β}
    (h : v.Holds c (xs ++ [x])) (env : Env (Val A.ty β)) {m : Emplacer τ A.ty β} {t t' : τ}
    (hm : m ⟨x.size, A.ALIGN⟩ x.md t = .panic t') :
    ∃ e v', Api.popInto (alignedP c A) env v = some e ∧ run e m (v, t) = .panic (v', t') ∧ v'.Holds c xs ∧
      v'.drops = v.drops := by
  obtain ⟨e, h1, h2⟩ := (AVec.implF hA).popInto_run h env m t
  rw [givenAs_run_panic (by exact hm)] at h2
  obtain ⟨v', h3, h4⟩ := h2.panic
  exact ⟨e, v', h1, h3, h4⟩

/-- C26 for `pop_into`, dynamically aligned elements. -/
theorem C26_popInto_unaligned {G : Prop} {v : UVec T β} {xs : List (Val T β)} {x : Val T β}
    (h : v.Represents G c (xs ++ [x])) (env : Env (Val T β)) {m : Emplacer τ T β} {t t' : τ}
    (hm : m ⟨x.size, x.align⟩ x.md t = .panic t') :
    ∃ e v', Api.popInto (unalignedP c T) env v = some e ∧ run e m (v, t) = .panic (v', t') ∧ v'.Represents G c xs ∧
      v'.drops = v.drops := by
  obtain ⟨e, h1, h2⟩ := (UVec.impl G c T).popInto_run h env m t
  rw [givenAs_run_panic (by exact hm)] at h2
  obtain ⟨v', h3, h4⟩ := h2.panic
  exact ⟨e, v', h1, h3, h4⟩

/-! ## C27 -/

omit [Inhabited β] in
theorem givenAs_run_drop (lay : Layout) (env : Env (Val T β)) (x : Val T β) (ds : List (Val T β)) :
    run (givenAs lay env x) Sink.dropping (ds, ()) =
      if env.dropPanics x then .panic (ds ++ [x], ()) else .ok () (ds ++ [x], ()) := by
  have h1 : dropGiven env x ds = if env.dropPanics x then .panic (ds ++ [x]) else .ok () (ds ++ [x]) := rfl
  rw [run_dropIt (e := givenAs lay env x) (m := Sink.dropping) rfl rfl]
  by_cases hd : env.dropPanics x = true
  · rw [if_pos hd] at h1 ⊢
    exact Exec.bind_panic (liftL_panic h1)
  · rw [if_neg hd] at h1 ⊢
    rw [Exec.bind_ok (liftL_ok h1)]
    rfl

omit [Inhabited β] in
theorem given_run_drop (env : Env (Val T β)) (x : Val T β) (ds : List (Val T β)) :
    run (given env x) Sink.dropping (ds, ()) =
      if env.dropPanics x then .panic (ds ++ [x], ()) else .ok () (ds ++ [x], ()) := givenAs_run_drop _ env x ds

/-- C27 for `pop_into`, statically aligned elements: dropping the emplacable runs the destructor of the last element
once; whether or not that panics, the vector no longer owns the element. -/
theorem C27_popInto_aligned (hA : A.Fits c) {v : AVec A β} {xs : List (Val A.ty β)} {x : Val A.ty β}
    (h : v.Holds c (xs ++ [x])) (env : Env (Val A.ty β)) :
    ∃ e v', Api.popInto (alignedP c A) env v = some e ∧ v'.Holds c xs ∧ v'.drops = v.drops ++ [x] ∧
      run e Sink.dropping (v, ()) = if env.dropPanics x then .panic (v', ()) else .ok () (v', ()) := by
  obtain ⟨e, h1, h2⟩ := (AVec.implF hA).popInto_run h env Sink.dropping ()
  rw [givenAs_run_drop] at h2
  by_cases hd : env.dropPanics x = true
  · rw [if_pos hd] at h2
    obtain ⟨v', h3, h4⟩ := h2.panic
    exact ⟨e, v', h1, h4.1, h4.2, by rw [if_pos hd]; exact h3⟩
  · rw [if_neg hd] at h2
    obtain ⟨v', h3, h4⟩ := h2.ok
    exact ⟨e, v', h1, h4.1, h4.2, by rw [if_neg hd]; exact h3⟩

/-- C27 for `pop_into`, dynamically aligned elements. -/
theorem C27_popInto_unaligned {G : Prop} {v : UVec T β} {xs : List (Val T β)} {x : Val T β}
    (h : v.Represents G c (xs ++ [x])) (env : Env (Val T β)) :
    ∃ e v', Api.popInto (unalignedP c T) env v = some e ∧ v'.Represents G c xs ∧ v'.drops = v.drops ++ [x] ∧
      run e Sink.dropping (v, ()) = if env.dropPanics x then .panic (v', ()) else .ok () (v', ()) := by
  obtain ⟨e, h1, h2⟩ := (UVec.impl G c T).popInto_run h env Sink.dropping ()
  rw [givenAs_run_drop] at h2
  by_cases hd : env.dropPanics x = true
  · rw [if_pos hd] at h2
    obtain ⟨v', h3, h4⟩ := h2.panic
    exact ⟨e, v', h1, h4.1, h4.2, by rw [if_pos hd]; exact h3⟩
  · rw [if_neg hd] at h2
    obtain ⟨v', h3, h4⟩ := h2.ok
    exact ⟨e, v', h1, h4.1, h4.2, by rw [if_neg hd]; exact h3⟩

/-- C27 for `remove_into`, statically aligned elements. Partial: the destructor must not panic
(`C27_counterexample_aligned`). -/
theorem C27_removeInto_aligned_partial (hA : A.Fits c) {v : AVec A β} {xs : List (Val A.ty β)} (h : v.Holds c xs)
    (env : Env (Val A.ty β)) {i : Nat} (hi : i < xs.length) (hd : env.dropPanics xs[i] = false) :
    ∃ v', run (Api.removeInto (alignedP c A) env i) Sink.dropping (v, ()) = .ok () (v', ()) ∧
      v'.Holds c (xs.take i ++ xs.drop (i + 1)) ∧ v'.drops = v.drops ++ [xs[i]] := by
  have := C05_removeInto_aligned hA h env hi Sink.dropping ()
  rw [givenAs_run_drop, if_neg (by rw [hd]; decide)] at this
  exact this.ok

/-- C27 for `remove_into`, dynamically aligned elements. Partial: the destructor must not panic
(`C27_counterexample_unaligned`), and `RemoveOk`. -/
theorem C27_removeInto_unaligned_partial {G : Prop} {v : UVec T β} {xs : List (Val T β)} (h : v.Represents G c xs)
    (env : Env (Val T β)) {i : Nat} (hi : i < xs.length) (hr : v.RemoveOk xs i) (hd : env.dropPanics xs[i] = false) :
    ∃ v', run (Api.removeInto (unalignedP c T) env i) Sink.dropping (v, ()) = .ok () (v', ()) ∧
      v'.Represents G c (xs.take i ++ xs.drop (i + 1)) ∧ v'.drops = v.drops ++ [xs[i]] := by
  have := C05_removeInto_unaligned_partial h env hi hr Sink.dropping ()
  rw [given_run_drop, if_neg (by rw [hd]; decide)] at this
  exact this.ok

end

/-- C27 is false of the code, dynamically aligned elements: if the destructor of element 0 panics while the emplacable
returned by `remove_into(0)` is dropped, the vector still owns that element, and dropping the vector runs the
destructor a second time. -/
theorem C27_counterexample_unaligned : vecU.Holds c64 listU ∧
    ∃ v' v'', run (Api.removeInto (unalignedP c64 Dyn) envPanics 0) Sink.dropping (vecU, ()) = .panic (v', ()) ∧
      v'.observe c64 = some listU ∧ v'.drops = [dyn 1 [1, 2, 3]] ∧
      UVec.drop c64 env v' = .ok () v'' ∧
      v''.drops = [dyn 1 [1, 2, 3], dyn 1 [1, 2, 3], dyn 8 [11, 12, 13, 14, 15, 16, 17, 18]] :=
  ⟨vecU_holds _ (.inl rfl), _, _, rfl, rfl, rfl, rfl, rfl⟩

/-- C27 is false of the code, statically aligned elements. -/
theorem C27_counterexample_aligned : vecA.Holds c64 listA ∧
    ∃ v' v'', run (Api.removeInto (alignedP c64 Bytes) envPanics 1) Sink.dropping (vecA, ()) = .panic (v', ()) ∧
      v'.observe c64 = some listA ∧ v'.drops = [bytes [2, 3]] ∧
      AVec.drop c64 env v' = .ok () v'' ∧ v''.drops = [bytes [2, 3], bytes [1], bytes [2, 3], bytes [4, 5, 6]] :=
  ⟨vecA_holds _ (.inl rfl), _, _, rfl, rfl, rfl, rfl, rfl⟩

/-- The hypotheses can be met: removing the first element of `vecU`, and taking the middle element of `vecA` into a
buffer of two bytes. -/
example : vecU.Holds c64 listU ∧ vecU.RemoveOk listU 0 ∧ envPanics.dropPanics listU[0] = true :=
  ⟨vecU_holds _ (.inl rfl), .inl (by decide), rfl⟩

example : (fun _ _ => Exec.panic : Emplacer Unit Dyn Nat) ⟨listU[1].size, listU[1].align⟩ listU[1].md () = .panic () := rfl

example : ∃ v', run (Api.removeInto (alignedP c64 Bytes) env 1) (Sink.getting ⟨2, 1⟩) (vecA, []) = .ok () (v', [2, 3]) ∧
    v'.observe c64 = some [bytes [1], bytes [4, 5, 6]] := ⟨_, rfl, rfl⟩

example : ∃ e v', Api.popInto (unalignedP c64 Dyn) env vecU = some e ∧
    run e (Sink.getting ⟨8, 8⟩) (vecU, []) = .ok () (v', [11, 12, 13, 14, 15, 16, 17, 18]) ∧
    v'.observe c64 = some [dyn 1 [1, 2, 3]] := ⟨_, _, rfl, rfl, rfl⟩

/-- C05 is false of the code for the last element of a dynamically aligned vector: if the element before it has padding
behind it, the number of bytes to move underflows, which is undefined behaviour. -/
theorem C05_counterexample : vecU.Holds c64 listU ∧ ¬ vecU.RemoveOk listU 1 ∧
    run (Api.removeInto (unalignedP c64 Dyn) env 1) (Sink.getting ⟨8, 8⟩) (vecU, []) = .ub := by
  refine ⟨vecU_holds _ (.inl rfl), ?_, rfl⟩
  rintro (h | h | h)
  · exact absurd h (by decide)
  · exact absurd h (by decide)
  · exact absurd (h _ rfl) (by decide)

end Verif
