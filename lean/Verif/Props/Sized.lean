import Verif.Proofs.SApi
import Verif.Props.Insert
import Verif.Props.Remove
import Verif.Props.Reserve
import Verif.Props.Iter

/-!
# Vectors of sized elements: C01–C07, C12–C15, C17–C19, C21, C25–C27, C35

`UnsizedVec<T>` for a sized `T` is a `Vec<T>`. The element size `sz` is a parameter. Where a theorem needs `0 < sz`, the
code fails for zero-sized types (C35).
-/

namespace Verif
set_option linter.unusedSectionVars false
open Reservation
variable {sz al : Nat} {β σ τ : Type} [Inhabited β] {c : Cfg} {v : SVec sz al β} {xs : List (Val (sizedTy sz al) β)}

/-! ## C01, C15: push -/

/-- C01: `push` appends the value, or fails because there is no room for one more element; then the vector is unchanged. -/
theorem C01_push_sized_partial (h : v.Holds c xs) (hz : 0 < sz) (env : Env (Val (sizedTy sz al) β)) {x : Val (sizedTy sz al) β}
    (hx : x.WF c) :
    (Api.push c (sizedP c sz al) env x v).Meets
      (fun _ v' => v'.Holds c (xs ++ [x]) ∧ v'.drops = v.drops)
      (fun v' => v' = v ∧ v.NoSlot c env) (v.NoSlot c env) :=
  (SVec.push_meets h hz env hx).mono (fun _ _ h => ⟨h.1, h.2.1⟩) (fun _ h => h) id

/-- What a user sees. -/
theorem C01_push_sized_returns_partial (h : v.Holds c xs) (hz : 0 < sz) (env : Env (Val (sizedTy sz al) β)) {x : Val (sizedTy sz al) β}
    (hx : x.WF c) (hn : ¬ v.NoSlot c env) :
    v.observe = some xs ∧ ∃ v', Api.push c (sizedP c sz al) env x v = .ok () v' ∧ v'.observe = some (xs ++ [x]) := by
  have := C01_push_sized_partial h hz env hx
  cases hm : Api.push c (sizedP c sz al) env x v with
  | ok u v' => rw [hm] at this; exact ⟨h.observe_eq, v', rfl, this.1.observe_eq⟩
  | panic v' => rw [hm] at this; exact absurd this.2 hn
  | abort => rw [hm] at this; exact absurd this hn
  | ub => rw [hm] at this; exact this.elim

/-- C15: with a free slot, `push` returns and does not allocate. -/
theorem C15_push_sized_partial (h : v.Holds c xs) (hz : 0 < sz) (env : Env (Val (sizedTy sz al) β)) {x : Val (sizedTy sz al) β}
    (hx : x.WF c) (hroom : xs.length < v.capacity c) :
    ∃ v', Api.push c (sizedP c sz al) env x v = .ok () v' ∧ v'.Holds c (xs ++ [x]) ∧ v'.capacity c = v.capacity c ∧
      v'.allocs = v.allocs := by
  have := SVec.push_meets h hz env hx
  cases hm : Api.push c (sizedP c sz al) env x v with
  | ok u v' =>
    rw [hm] at this
    obtain ⟨h1, h2, h3⟩ := this
    exact ⟨v', rfl, h1, SVec.capacity_congr (h3 hroom).1, (h3 hroom).2⟩
  | panic v' => rw [hm] at this; exact absurd this.2.1 (by rw [h.len]; omega)
  | abort => rw [hm] at this; exact absurd this.1 (by rw [h.len]; omega)
  | ub => rw [hm] at this; exact this.elim

/-! ## C03, C04, C25: insertion -/

/-- C03: `insert` puts the value at the index. -/
theorem C03_insert_sized_partial (h : v.Holds c xs) (hz : 0 < sz) (env : Env (Val (sizedTy sz al) β)) {x : Val (sizedTy sz al) β}
    (hx : x.WF c) {i : Nat} (hi : i ≤ xs.length) :
    (Api.insert c (sizedP c sz al) env i x v).Meets
      (fun _ v' => v'.Holds c (xs.take i ++ x :: xs.drop i) ∧ v'.drops = v.drops)
      (fun v' => v' = v ∧ v.NoSlot c env) (v.NoSlot c env) :=
  (SVec.insert_meets h hz env hx hi).mono (fun _ _ h => ⟨h.1, h.2.1⟩) (fun _ h => h) id

/-- C03, out of range. -/
theorem C03_insert_out_sized (h : v.Holds c xs) (env : Env (Val (sizedTy sz al) β)) (x : Val (sizedTy sz al) β) {i : Nat}
    (hi : xs.length < i) : Api.insert c (sizedP c sz al) env i x v = .panic v := SVec.insert_out h env x hi

/-- C15 for `insert`. -/
theorem C15_insert_sized_partial (h : v.Holds c xs) (hz : 0 < sz) (env : Env (Val (sizedTy sz al) β)) {x : Val (sizedTy sz al) β}
    (hx : x.WF c) {i : Nat} (hi : i ≤ xs.length) (hroom : xs.length < v.capacity c) :
    ∃ v', Api.insert c (sizedP c sz al) env i x v = .ok () v' ∧ v'.Holds c (xs.take i ++ x :: xs.drop i) ∧
      v'.capacity c = v.capacity c ∧ v'.allocs = v.allocs := by
  have := SVec.insert_meets h hz env hx hi
  cases hm : Api.insert c (sizedP c sz al) env i x v with
  | ok u v' =>
    rw [hm] at this
    obtain ⟨h1, h2, h3⟩ := this
    exact ⟨v', rfl, h1, SVec.capacity_congr (h3 hroom).1, (h3 hroom).2⟩
  | panic v' => rw [hm] at this; exact absurd this.2.1 (by rw [h.len]; omega)
  | abort => rw [hm] at this; exact absurd this.1 (by rw [h.len]; omega)
  | ub => rw [hm] at this; exact this.elim

/-- C04: `insert_with` of any emplacable that respects its safety contract, for elements of any size. -/
theorem C04_insertWith_sized (h : v.Holds c xs) (env : Env (Val (sizedTy sz al) β)) {e : Emplacable σ (sizedTy sz al) β} {s : σ}
    (hs : e.Sound c s) {i : Nat} (hi : i ≤ xs.length) :
    (Api.insertWithRun (sizedP c sz al) env i e (s, v)).Meets
      (fun _ st => ∃ x : Val (sizedTy sz al) β, x.WF c ∧ e.Runs s x (.ok () st.1) ∧ st.2.Holds c (xs.take i ++ x :: xs.drop i) ∧
        st.2.drops = v.drops)
      (fun st => (st.2.Holds c xs ∧ st.2.drops = v.drops ∧
          (e.Unwinds s st.1 ∨ ∃ md, e.Announces s md st.1 ∧ v.NoSlot c env)) ∨
        ∃ x : Val (sizedTy sz al) β, x.WF c ∧ e.Runs s x (.panic st.1) ∧ st.2.Holds c (xs.take i ++ x :: xs.drop i) ∧
          st.2.drops = v.drops)
      ((∃ md s1, e.Announces s md s1 ∧ v.NoSlot c env) ∨ e.Aborts s) := by
  unfold Api.insertWithRun
  rw [Exec.get_bind, Exec.guardedAssert_bind (by show i ≤ v.len; rw [h.len]; exact hi)]
  refine (run_meets (Before := fun v' : SVec sz al β => v'.Holds c xs ∧ v'.drops = v.drops)
    (After := fun x v' => v'.Holds c (xs.take i ++ x :: xs.drop i) ∧ v'.drops = v.drops)
    (P := fun _ v' => v' = v ∧ v.NoSlot c env) (A := fun _ => v.NoSlot c env) hs ⟨h, rfl⟩
    (fun st s1 he => SVec.insertWith_meets h env (hs.metaOk st s1 he) hi)).mono (fun _ _ h => h) ?_ id
  rintro st (⟨md, h1, h2, h3⟩ | ⟨h1, h2⟩ | ⟨x, h1, h2, h3⟩)
  · exact .inl ⟨by rw [h2]; exact h, by rw [h2], .inr ⟨md, h1, h3⟩⟩
  · exact .inl ⟨h2.1, h2.2, .inl h1⟩
  · exact .inr ⟨x, h1, h2, h3⟩

/-- C04 for `push_with`. -/
theorem C04_pushWith_sized (h : v.Holds c xs) (env : Env (Val (sizedTy sz al) β)) {e : Emplacable σ (sizedTy sz al) β} {s : σ}
    (hs : e.Sound c s) :
    (Api.pushWithRun (sizedP c sz al) env e (s, v)).Meets
      (fun _ st => ∃ x : Val (sizedTy sz al) β, x.WF c ∧ e.Runs s x (.ok () st.1) ∧ st.2.Holds c (xs ++ [x]) ∧
        st.2.drops = v.drops)
      (fun st => (st.2.Holds c xs ∧ st.2.drops = v.drops ∧
          (e.Unwinds s st.1 ∨ ∃ md, e.Announces s md st.1 ∧ v.NoSlot c env)) ∨
        ∃ x : Val (sizedTy sz al) β, x.WF c ∧ e.Runs s x (.panic st.1) ∧ st.2.Holds c (xs ++ [x]) ∧ st.2.drops = v.drops)
      ((∃ md s1, e.Announces s md s1 ∧ v.NoSlot c env) ∨ e.Aborts s) := by
  unfold Api.pushWithRun
  refine (run_meets (Before := fun v' : SVec sz al β => v'.Holds c xs ∧ v'.drops = v.drops)
    (After := fun x v' => v'.Holds c (xs ++ [x]) ∧ v'.drops = v.drops)
    (P := fun _ v' => v' = v ∧ v.NoSlot c env) (A := fun _ => v.NoSlot c env) hs ⟨h, rfl⟩
    (fun st s1 he => SVec.pushWith_meets h env (hs.metaOk st s1 he))).mono (fun _ _ h => h) ?_ id
  rintro st (⟨md, h1, h2, h3⟩ | ⟨h1, h2⟩ | ⟨x, h1, h2, h3⟩)
  · exact .inl ⟨by rw [h2]; exact h, by rw [h2], .inr ⟨md, h1, h3⟩⟩
  · exact .inl ⟨h2.1, h2.2, .inl h1⟩
  · exact .inr ⟨x, h1, h2, h3⟩

/-- C04, out of range. -/
theorem C04_insertWith_out_sized (h : v.Holds c xs) (env : Env (Val (sizedTy sz al) β)) (e : Emplacable σ (sizedTy sz al) β) (s : σ)
    {i : Nat} (hi : xs.length < i) :
    RejectedWith v (run e Sink.dropping (s, ())) (Api.insertWithRun (sizedP c sz al) env i e (s, v)) := by
  unfold Api.insertWithRun
  rw [Exec.get_bind]
  exact rejectedWith e s v (p := i ≤ v.len) (by rw [h.len]; omega) _

/-- C25: if the value's constructor unwinds, `insert_with` unwinds and the vector holds its original elements. -/
theorem C25_insertWith_sized (h : v.Holds c xs) (env : Env (Val (sizedTy sz al) β)) {e : Emplacable σ (sizedTy sz al) β} {s : σ}
    (hs : e.Sound c s) {i : Nat} (hi : i ≤ xs.length) (hr : ¬ v.NoSlot c env) {s' : σ} (hu : e.Unwinds s s') :
    ∃ v', Api.insertWithRun (sizedP c sz al) env i e (s, v) = .panic (s', v') ∧ v'.Holds c xs ∧ v'.drops = v.drops := by
  refine unwinds_of_meets (c := c) (R := fun _ => v.NoSlot c env)
    (Q := fun x v' => v'.Holds c (xs.take i ++ x :: xs.drop i) ∧ v'.drops = v.drops)
    (N := fun _ => v.NoSlot c env)
    ((C04_insertWith_sized h env hs hi).mono (fun _ _ h => h) ?_ (fun h => h)) hu (fun _ _ _ => ⟨hr, hr⟩)
  rintro st (⟨h1, h2, h3⟩ | h1)
  · exact .inl ⟨⟨h1, h2⟩, h3⟩
  · exact .inr h1

/-- C25 for `push_with`. -/
theorem C25_pushWith_sized (h : v.Holds c xs) (env : Env (Val (sizedTy sz al) β)) {e : Emplacable σ (sizedTy sz al) β} {s : σ}
    (hs : e.Sound c s) (hr : ¬ v.NoSlot c env) {s' : σ} (hu : e.Unwinds s s') :
    ∃ v', Api.pushWithRun (sizedP c sz al) env e (s, v) = .panic (s', v') ∧ v'.Holds c xs ∧ v'.drops = v.drops := by
  refine unwinds_of_meets (c := c) (R := fun _ => v.NoSlot c env)
    (Q := fun x v' => v'.Holds c (xs ++ [x]) ∧ v'.drops = v.drops)
    (N := fun _ => v.NoSlot c env)
    ((C04_pushWith_sized h env hs).mono (fun _ _ h => h) ?_ (fun h => h)) hu (fun _ _ _ => ⟨hr, hr⟩)
  rintro st (⟨h1, h2, h3⟩ | h1)
  · exact .inl ⟨⟨h1, h2⟩, h3⟩
  · exact .inr h1

/-! ## C02, C05, C26, C27: removal -/

/-- C02: `pop_into` is `None` exactly if the vector is empty; otherwise it delivers the last element. -/
theorem C02_popInto_sized (h : v.Holds c xs) (env : Env (Val (sizedTy sz al) β)) :
    (Api.popInto (sizedP c sz al) env v = none ↔ xs = []) ∧
    ∀ ys x, xs = ys ++ [x] → ∃ e, Api.popInto (sizedP c sz al) env v = some e ∧
      ∀ (m : Emplacer τ (sizedTy sz al) β) (t : τ), SameOutcome (run e m (v, t)) (run (given env x) m (v.drops, t))
        (fun v' ds => v'.Holds c ys ∧ v'.drops = ds) (fun v' ds => v'.Holds c ys ∧ v'.drops = ds) := by
  have hne : ∀ ys x, xs = ys ++ [x] → Api.popInto (sizedP c sz al) env v = some ((sizedP c sz al).popIntoUnchecked env) := by
    rintro ys x rfl
    unfold Api.popInto
    rw [if_pos (by show v.len ≠ 0; rw [h.len]; simp)]
  refine ⟨⟨fun hn => ?_, ?_⟩, ?_⟩
  · rcases List.eq_nil_or_concat xs with h1 | ⟨ys, x, h1⟩
    · exact h1
    · rw [hne ys x (by simpa using h1)] at hn; cases hn
  · rintro rfl; exact SVec.popInto_nil h env
  · rintro ys x rfl
    refine ⟨_, hne ys x rfl, fun m t => ?_⟩
    obtain ⟨e, h1, h2⟩ := SVec.popInto_run h env m t
    rw [hne ys x rfl] at h1
    cases h1; exact h2

/-- C05: `remove_into` delivers the element at the index and leaves the others. If the exchange unwinds, the elements up to
the last but one are in the vector. -/
theorem C05_removeInto_sized (h : v.Holds c xs) (env : Env (Val (sizedTy sz al) β)) {i : Nat} (hi : i < xs.length)
    (m : Emplacer τ (sizedTy sz al) β) (t : τ) :
    SameOutcome (run (Api.removeInto (sizedP c sz al) env i) m (v, t)) (run (given env xs[i]) m (v.drops, t))
      (fun v' ds => v'.Holds c (xs.take i ++ xs.drop (i + 1)) ∧ v'.drops = ds)
      (fun v' ds => v'.Holds c xs.dropLast ∧ v'.drops = ds) := by
  rw [← List.eraseIdx_eq_take_drop_succ]
  exact SVec.removeInto_run h env hi m t

/-- C05, out of range. -/
theorem C05_removeInto_out_sized (h : v.Holds c xs) (env : Env (Val (sizedTy sz al) β)) {i : Nat} (hi : xs.length ≤ i) :
    Api.removeInto (sizedP c sz al) env i v = .panic v := SVec.removeInto_out h env hi

/-- C26 for `pop_into`. -/
theorem C26_popInto_sized {x : Val (sizedTy sz al) β} (h : v.Holds c (xs ++ [x])) (env : Env (Val (sizedTy sz al) β))
    {m : Emplacer τ (sizedTy sz al) β} {t t' : τ} (hm : m ⟨x.size, x.align⟩ x.md t = .panic t') :
    ∃ e v', Api.popInto (sizedP c sz al) env v = some e ∧ run e m (v, t) = .panic (v', t') ∧ v'.Holds c xs ∧ v'.drops = v.drops := by
  obtain ⟨e, h1, h2⟩ := SVec.popInto_run h env m t
  rw [given_run_panic hm] at h2
  obtain ⟨v', h3, h4⟩ := h2.panic
  exact ⟨e, v', h1, h3, h4⟩

/-- C26 for `remove_into`. Partial: only for the last element. Otherwise the last element is lost instead of the one that is being
removed (`C26_counterexample_sized`). -/
theorem C26_removeInto_sized_partial (h : v.Holds c xs) (env : Env (Val (sizedTy sz al) β)) {i : Nat} (hi : i + 1 = xs.length)
    {m : Emplacer τ (sizedTy sz al) β} {t t' : τ} (hm : m ⟨xs[i].size, xs[i].align⟩ xs[i].md t = .panic t') :
    ∃ v', run (Api.removeInto (sizedP c sz al) env i) m (v, t) = .panic (v', t') ∧
      v'.Holds c (xs.take i ++ xs.drop (i + 1)) ∧ v'.drops = v.drops := by
  have := C05_removeInto_sized h env (i := i) (by omega) m t
  rw [given_run_panic hm] at this
  obtain ⟨v', h1, h2, h3⟩ := this.panic
  refine ⟨v', h1, ?_, h3⟩
  rw [List.drop_eq_nil_of_le (by omega), List.append_nil]
  rwa [List.dropLast_eq_take, ← hi] at h2

/-- What `remove_into` does if the emplacer unwinds: the vector holds all elements but the last. -/
theorem C26_removeInto_sized_actual (h : v.Holds c xs) (env : Env (Val (sizedTy sz al) β)) {i : Nat} (hi : i < xs.length)
    {m : Emplacer τ (sizedTy sz al) β} {t t' : τ} (hm : m ⟨xs[i].size, xs[i].align⟩ xs[i].md t = .panic t') :
    ∃ v', run (Api.removeInto (sizedP c sz al) env i) m (v, t) = .panic (v', t') ∧ v'.Holds c xs.dropLast ∧ v'.drops = v.drops := by
  have := C05_removeInto_sized h env hi m t
  rw [given_run_panic hm] at this
  exact this.panic

/-- C27 for `pop_into`. -/
theorem C27_popInto_sized {x : Val (sizedTy sz al) β} (h : v.Holds c (xs ++ [x])) (env : Env (Val (sizedTy sz al) β)) :
    ∃ e v', Api.popInto (sizedP c sz al) env v = some e ∧ v'.Holds c xs ∧ v'.drops = v.drops ++ [x] ∧
      run e Sink.dropping (v, ()) = if env.dropPanics x then .panic (v', ()) else .ok () (v', ()) := by
  obtain ⟨e, h1, h2⟩ := SVec.popInto_run h env Sink.dropping ()
  rw [given_run_drop] at h2
  by_cases hd : env.dropPanics x = true
  · rw [if_pos hd] at h2
    obtain ⟨v', h3, h4⟩ := h2.panic
    exact ⟨e, v', h1, h4.1, h4.2, by rw [if_pos hd]; exact h3⟩
  · rw [if_neg hd] at h2
    obtain ⟨v', h3, h4⟩ := h2.ok
    exact ⟨e, v', h1, h4.1, h4.2, by rw [if_neg hd]; exact h3⟩

/-- C27 for `remove_into`. Partial: the destructor must not panic, unless the element is the last. -/
theorem C27_removeInto_sized_partial (h : v.Holds c xs) (env : Env (Val (sizedTy sz al) β)) {i : Nat} (hi : i < xs.length)
    (hd : env.dropPanics xs[i] = false ∨ i + 1 = xs.length) :
    ∃ v', (run (Api.removeInto (sizedP c sz al) env i) Sink.dropping (v, ()) =
        if env.dropPanics xs[i] then .panic (v', ()) else .ok () (v', ())) ∧
      v'.Holds c (xs.take i ++ xs.drop (i + 1)) ∧ v'.drops = v.drops ++ [xs[i]] := by
  have := C05_removeInto_sized h env hi Sink.dropping ()
  rw [given_run_drop] at this
  by_cases hp : env.dropPanics xs[i] = true
  · rw [if_pos hp] at this
    have hi1 : i + 1 = xs.length := hd.resolve_left (by rw [hp]; decide)
    obtain ⟨v', h1, h2, h3⟩ := this.panic
    refine ⟨v', by rw [if_pos hp]; exact h1, ?_, h3⟩
    rw [List.drop_eq_nil_of_le (by omega), List.append_nil]
    rwa [List.dropLast_eq_take, ← hi1] at h2
  · rw [if_neg hp] at this
    obtain ⟨v', h1, h2⟩ := this.ok
    exact ⟨v', by rw [if_neg hp]; exact h1, h2⟩

/-! ## C06, C07: access -/

theorem get_sized_eq (h : v.Holds c xs) {i : Nat} (hi : i < xs.length) :
    Api.get (sizedP c sz al) v i = some (some ⟨0, i, ()⟩) := by
  have hl : i < v.len := by rw [h.len]; exact hi
  unfold Api.get
  rw [if_pos (show i < (sizedP c sz al).len v from hl)]
  show (if i < v.len then some (⟨0, i, ()⟩ : Ref (sizedTy sz al)) else none).map some = _
  rw [if_pos hl]; rfl

/-- C06: `get(i)` for `i < len` is a reference to the slot that contains element `i`; the slot is within the allocation. -/
theorem C06_get_sized (h : v.Holds c xs) {i : Nat} (hi : i < xs.length) :
    ∃ r, Api.get (sizedP c sz al) v i = some (some r) ∧ Api.index (sizedP c sz al) i v = .ok r v ∧
      v.slot r.off = xs[i] ∧ r.off < v.capacity c := by
  have h1 := get_sized_eq h hi
  refine ⟨_, h1, ?_, SVec.slot_eq h hi, ?_⟩
  · unfold Api.index
    rw [Exec.get_bind, Exec.orUb_bind h1]; rfl
  · have := h.cap; show i < _; omega

/-- C06, out of range. -/
theorem C06_get_out_sized (h : v.Holds c xs) {i : Nat} (hi : xs.length ≤ i) :
    Api.get (sizedP c sz al) v i = some none ∧ Api.index (sizedP c sz al) i v = .panic v := by
  have h1 : Api.get (sizedP c sz al) v i = some none := by
    unfold Api.get
    rw [if_neg (by show ¬ i < v.len; rw [h.len]; omega)]
  refine ⟨h1, ?_⟩
  unfold Api.index
  rw [Exec.get_bind, Exec.orUb_bind h1]; rfl

/-- C07: overwriting element `i` in place changes exactly that element. -/
theorem C07_store_sized (h : v.Holds c xs) {i : Nat} (hi : i < xs.length) {bs : List β} (hb : bs.length = sz) :
    ∃ r v', Api.get (sizedP c sz al) v i = some (some r) ∧ SVec.memwrite c r.off bs v = .ok () v' ∧
      v'.Holds c (xs.set i ⟨(), bs⟩) := by
  have hcap := h.cap
  refine ⟨_, _, get_sized_eq h hi, SVec.memwrite_eq (i := i) (by omega) (by omega), ?_⟩
  rw [SVec.overwrite hb (h.slotLen i)]
  have hwf := h.wf _ (List.getElem_mem hi)
  refine ⟨?_, by rw [List.length_set]; exact h.len, ?_, ?_, by rw [List.length_set]; exact hcap, h.capMax⟩
  · intro y hy
    rcases List.mem_or_eq_of_mem_set hy with h2 | rfl
    · exact h.wf y h2
    · exact ⟨hb, hwf.align_pow, hwf.align_dvd, hwf.size_le⟩
  · intro j hj
    rw [List.length_set] at hj
    rw [List.getElem_set]
    by_cases hij : j = i
    · subst hij
      show (if j = j then bs else _) = _
      rw [if_pos rfl, if_pos rfl]
    · show (if j = i then bs else v.mem j) = _
      rw [if_neg hij, if_neg (fun h => hij h.symm), h.mem j hj]
  · intro j
    show (if j = i then bs else v.mem j).length ≤ sz
    split
    · omega
    · exact h.slotLen j

/-- C07: references for different indices refer to different slots. -/
theorem C07_disjoint_sized (h : v.Holds c xs) {i j : Nat} (hij : i ≠ j) (hi : i < xs.length) (hj : j < xs.length) :
    ∃ r s, Api.get (sizedP c sz al) v i = some (some r) ∧ Api.get (sizedP c sz al) v j = some (some s) ∧ r.off ≠ s.off :=
  ⟨_, _, get_sized_eq h hi, get_sized_eq h hj, hij⟩

/-! ## C08–C11: iteration -/

theorem sized_run (h : v.Holds c xs) (ks : List ICall) : ∀ lo hi, lo ≤ hi → hi ≤ xs.length →
    ∃ it, ICall.runCalls (ICall.sized sz al) ks ⟨lo, hi⟩ =
        some ((ICall.specRun ks (List.range' lo (hi - lo))).1.map (·.bind (refTo (sizedP c sz al) v)), it) ∧
      it.hi - it.lo = (ICall.specRun ks (List.range' lo (hi - lo))).2.length := by
  have href : ∀ i, i < xs.length → refTo (sizedP c sz al) v i = some ⟨0, i, ()⟩ := by
    intro i hi
    unfold refTo
    rw [get_sized_eq h hi]; rfl
  induction ks with
  | nil => intro lo hi _ _; exact ⟨⟨lo, hi⟩, rfl, by simp [ICall.specRun]⟩
  | cons k ks ih =>
    intro lo hi h1 h2
    have hstep : ∃ lo' hi', lo' ≤ hi' ∧ hi' ≤ xs.length ∧
        ICall.sized sz al k ⟨lo, hi⟩ = some ((k.spec (List.range' lo (hi - lo))).1.bind (refTo (sizedP c sz al) v), ⟨lo', hi'⟩) ∧
        (k.spec (List.range' lo (hi - lo))).2 = List.range' lo' (hi' - lo') := by
      cases k with
      | next =>
        by_cases hlt : lo < hi
        · refine ⟨lo + 1, hi, hlt, h2, ?_, ?_⟩
          · obtain ⟨d, hd⟩ : ∃ d, hi - lo = d + 1 := ⟨hi - lo - 1, by omega⟩
            unfold ICall.sized SVec.Iter.next ICall.spec
            dsimp only
            rw [if_pos hlt, hd, List.range'_succ]
            simp only [List.head?_cons, Option.bind_some, Option.map_some, href lo (by omega)]
          · show (List.range' lo (hi - lo)).tail = _
            rw [List.tail_range']
            congr 1
        · refine ⟨lo, hi, h1, h2, ?_, ?_⟩
          · unfold ICall.sized SVec.Iter.next ICall.spec
            dsimp only
            rw [if_neg hlt, show hi - lo = 0 by omega]; rfl
          · rw [show hi - lo = 0 by omega]; rfl
      | nextBack =>
        by_cases hlt : lo < hi
        · refine ⟨lo, hi - 1, by omega, by omega, ?_, ?_⟩
          · obtain ⟨d, hd⟩ : ∃ d, hi - lo = d + 1 := ⟨hi - lo - 1, by omega⟩
            unfold ICall.sized SVec.Iter.nextBack ICall.spec
            dsimp only
            rw [if_pos hlt, hd, List.range'_concat]
            simp only [List.getLast?_concat, Option.bind_some, Option.map_some]
            rw [show lo + 1 * d = hi - 1 by omega, href (hi - 1) (by omega)]
          · show (List.range' lo (hi - lo)).dropLast = _
            obtain ⟨d, hd⟩ : ∃ d, hi - lo = d + 1 := ⟨hi - lo - 1, by omega⟩
            rw [hd, List.range'_concat, List.dropLast_concat]
            congr 1; omega
        · refine ⟨lo, hi, h1, h2, ?_, ?_⟩
          · unfold ICall.sized SVec.Iter.nextBack ICall.spec
            dsimp only
            rw [if_neg hlt, show hi - lo = 0 by omega]; rfl
          · rw [show hi - lo = 0 by omega]; rfl
      | nth n =>
        by_cases hlt : lo + n < hi
        · refine ⟨lo + n + 1, hi, hlt, h2, ?_, ?_⟩
          · unfold ICall.sized SVec.Iter.nth ICall.spec
            dsimp only
            rw [if_pos hlt, List.drop_range']
            obtain ⟨d, hd⟩ : ∃ d, hi - lo - n = d + 1 := ⟨hi - lo - n - 1, by omega⟩
            rw [hd, List.range'_succ]
            simp only [List.head?_cons, Option.bind_some, Option.map_some, Nat.mul_one, href (lo + n) (by omega)]
          · show (List.range' lo (hi - lo)).drop (n + 1) = _
            rw [List.drop_range']
            congr 1 <;> omega
        · refine ⟨hi, hi, Nat.le_refl _, h2, ?_, ?_⟩
          · unfold ICall.sized SVec.Iter.nth ICall.spec
            dsimp only
            rw [if_neg hlt, List.drop_eq_nil_of_le (by simp; omega)]; rfl
          · show (List.range' lo (hi - lo)).drop (n + 1) = _
            rw [List.drop_eq_nil_of_le (by simp; omega), Nat.sub_self]; rfl
      | nthBack n =>
        rw [ICall.spec_nthBack]
        unfold ICall.sized SVec.Iter.nthBack
        dsimp only
        by_cases hlt : lo + n < hi
        · refine ⟨lo, hi - n - 1, by omega, by omega, ?_, rfl⟩
          rw [if_pos hlt, if_pos hlt]
          simp only [Option.bind_some, Option.map_some, href (hi - n - 1) (by omega)]
        · refine ⟨lo, lo, Nat.le_refl _, by omega, ?_, ?_⟩
          · rw [if_neg hlt, if_neg hlt]; rfl
          · rw [show hi - (n + 1) - lo = 0 by omega, Nat.sub_self]
    obtain ⟨lo', hi', h3, h4, h5, h6⟩ := hstep
    obtain ⟨it, h7, h8⟩ := ih lo' hi' h3 h4
    refine ⟨it, ?_, ?_⟩
    · unfold ICall.runCalls ICall.specRun
      rw [h5]
      simp only [Option.bind_eq_bind, Option.bind_some, h7, h6, List.map_cons]
      rfl
    · unfold ICall.specRun
      rw [h6]; exact h8

/-- C08–C10, C48: any sequence of `next`, `next_back`, `nth` and `nth_back` calls on `iter()` returns what the queue of indices says. There is no
guard: the iterator is that of `std`. -/
theorem C08_C09_C10_calls_sized (h : v.Holds c xs) (ks : List ICall) :
    ∃ it, ICall.runCalls (ICall.sized sz al) ks v.iter =
        some ((ICall.specRun ks (List.range xs.length)).1.map (·.bind (refTo (sizedP c sz al) v)), it) ∧
      it.hi - it.lo = (ICall.specRun ks (List.range xs.length)).2.length := by
  have := sized_run h ks 0 xs.length (Nat.zero_le _) (Nat.le_refl _)
  rw [Nat.sub_zero, ← List.range_eq_range'] at this
  unfold SVec.iter
  rw [h.len]
  exact this

/-- C48: after `a` calls of `next`, `nth_back(n)` returns the reference that `get(len - 1 - n)` returns, and nothing if that
element or one behind it has been taken in front. -/
theorem C48_nthBack_sized (h : v.Holds c xs) (a n : Nat) :
    ∃ it, ICall.runCalls (ICall.sized sz al) (List.replicate a .next ++ [.nthBack n]) v.iter =
      some ((List.range a).map (refTo (sizedP c sz al) v) ++
        [if a + n < xs.length then refTo (sizedP c sz al) v (xs.length - 1 - n) else none], it) := by
  obtain ⟨it, h1, _⟩ := C08_C09_C10_calls_sized h (List.replicate a .next ++ [.nthBack n])
  refine ⟨it, ?_⟩
  rw [h1, specRun_nthBack, List.map_append, List.map_map, List.map_singleton]
  congr 3
  · congr 1
    funext i
    exact bind_refTo (sizedP c sz al) v h.len i
  · split <;> rfl

/-! ## C12, C13, C14, C17: reservations -/

theorem roomy_sized {n b : Nat} (h : v.Holds c xs) (hn : xs.length + n ≤ v.capacity c) (hb : xs.length * sz + b ≤ v.capacity c * sz) :
    Roomy (sizedP c sz al) v n b :=
  ⟨by show v.len + n ≤ _; rw [h.len]; exact hn, _, _, SVec.byteLen_eq h, SVec.byteCapacity_eq h, hb⟩

/-- C12: a successful `try_reserve…` keeps the contents and gives the element capacity asked for; the byte capacity only if
`BytesOk` (`C12_counterexample_sized`). -/
theorem C12_try_sized_partial (h : v.Holds c xs) (hz : 0 < sz) (env : Env (Val (sizedTy sz al) β)) (q : Reservation)
    (hb : q.bytes ≤ c.usizeMax) :
    (q.attempt c (sizedP c sz al) env v).Meets
      (fun r v' => r = .ok () → v'.Holds c xs ∧ v'.drops = v.drops ∧ Roomy (sizedP c sz al) v' q.slots 0 ∧
        (v.BytesOk c q.slots q.bytes → Roomy (sizedP c sz al) v' q.slots q.bytes))
      (fun v' => v'.Holds c xs ∧ v'.drops = v.drops) False := by
  refine (SVec.attempt_meets h hz env q).mono ?_ (fun _ h => ⟨h.2.1, h.2.2.1⟩) id
  rintro r v' (⟨rfl, hs⟩ | ⟨e, rfl, _⟩) h0
  · exact ⟨hs.holds, hs.drops, roomy_sized hs.holds hs.room (Nat.mul_le_mul_right _ hs.holds.cap),
      fun h1 => roomy_sized hs.holds hs.room (hs.bytes h1 hb)⟩
  · cases h0

/-- C12 for the methods without `try_`. -/
theorem C12_run_sized_partial (h : v.Holds c xs) (hz : 0 < sz) (env : Env (Val (sizedTy sz al) β)) (q : Reservation)
    (hb : q.bytes ≤ c.usizeMax) :
    (q.run c (sizedP c sz al) env v).Meets
      (fun _ v' => v'.Holds c xs ∧ v'.drops = v.drops ∧ Roomy (sizedP c sz al) v' q.slots 0 ∧
        (v.BytesOk c q.slots q.bytes → Roomy (sizedP c sz al) v' q.slots q.bytes))
      (fun v' => v'.Holds c xs ∧ v'.drops = v.drops ∧
        ((c.debug = true ∧ q.Asserts ∧ ¬ v.BytesOk c q.slots q.bytes) ∨ ∃ e m, SVec.Fails c sz env xs.length m e))
      (∃ e m, SVec.Fails c sz env xs.length m e) := by
  refine (SVec.run_meets h hz env q).mono ?_ ?_ (fun h => h.1)
  · intro _ v' hs
    exact ⟨hs.holds, hs.drops, roomy_sized hs.holds hs.room (Nat.mul_le_mul_right _ hs.holds.cap),
      fun h1 => roomy_sized hs.holds hs.room (hs.bytes h1 hb)⟩
  · rintro v' ⟨h1, h2, _, h3, _⟩
    refine ⟨h1, h2, ?_⟩
    rcases h3 with h3 | h3 | h3
    · exact .inl h3
    · omega
    · exact .inr h3

/-- C12, construction with a capacity. -/
theorem C12_with_capacity_sized_partial (hz : 0 < sz) (env : Env (Val (sizedTy sz al) β)) (n : Nat) {b : Nat} (hb : b ≤ n * sz ∨ n = 0)
    (hu : b ≤ c.usizeMax) (a : Nat) :
    (Api.withCapacity (sizedP c sz al) env n).Meets (fun _ v' => v'.Holds c [] ∧ v'.drops = [] ∧ Roomy (sizedP c sz al) v' n 0)
      (fun v' => v'.Holds c []) (∃ e m, SVec.Fails c sz env 0 m e) ∧
    (Api.withCapacityBytes (sizedP c sz al) env n b).Meets (fun _ v' => v'.Holds c [] ∧ v'.drops = [] ∧ Roomy (sizedP c sz al) v' n b)
      (fun v' => v'.Holds c []) (∃ e m, SVec.Fails c sz env 0 m e) ∧
    (Api.withCapacityBytesAlign (sizedP c sz al) env n b a).Meets (fun _ v' => v'.Holds c [] ∧ v'.drops = [] ∧ Roomy (sizedP c sz al) v' n b)
      (fun v' => v'.Holds c []) (∃ e m, SVec.Fails c sz env 0 m e) := by
  have h0 : (SVec.new : SVec sz al β).Holds c [] := SVec.new_holds
  have hk : (SVec.new : SVec sz al β).BytesOk c n b := by
    have hf : (SVec.new : SVec sz al β).free c = 0 := by
      unfold SVec.free SVec.capacity
      rw [if_neg (by omega)]; rfl
    rcases hb with hb | hb
    · exact .inl (Nat.le_trans hb (Nat.mul_le_mul_right _ (Nat.le_max_left _ _)))
    · exact .inr ⟨hb, hf⟩
  exact ⟨(C12_run_sized_partial h0 hz env (.exact n) (Nat.zero_le _)).mono (fun _ _ h => ⟨h.1, h.2.1, h.2.2.1⟩) (fun _ h => h.1) id,
    (C12_run_sized_partial h0 hz env (.exactCapBytes n b) hu).mono (fun _ _ h => ⟨h.1, h.2.1, h.2.2.2 hk⟩) (fun _ h => h.1) id,
    (C12_run_sized_partial h0 hz env (.exactCapBytesAlign n b a) hu).mono (fun _ _ h => ⟨h.1, h.2.1, h.2.2.2 hk⟩) (fun _ h => h.1) id⟩

/-- C13: when a `try_reserve…` method fails, the contents are as before. Partial: the byte capacity is as before only if the
element capacity already sufficed (`C13_counterexample_sized`). -/
theorem C13_try_sized_partial (h : v.Holds c xs) (hz : 0 < sz) (env : Env (Val (sizedTy sz al) β)) (q : Reservation) :
    (q.attempt c (sizedP c sz al) env v).Meets
      (fun r v' => ∀ e, r = .error e → v'.Holds c xs ∧ v'.drops = v.drops ∧ (xs.length + q.slots ≤ v.capacity c → v' = v))
      (fun v' => v'.Holds c xs ∧ v'.drops = v.drops) False := by
  refine (SVec.attempt_meets h hz env q).mono ?_ (fun _ h => ⟨h.2.1, h.2.2.1⟩) id
  rintro r v' (⟨rfl, _⟩ | ⟨e, rfl, hk, _⟩) e' h0
  · cases h0
  · exact ⟨hk.holds, hk.drops, hk.same⟩

/-- C14: without debug assertions (or for the methods that contain none) the result is always a `Result`. -/
theorem C14_try_sized_partial (h : v.Holds c xs) (hz : 0 < sz) (env : Env (Val (sizedTy sz al) β)) (q : Reservation)
    (hd : c.debug = false ∨ ¬ q.Asserts) : ∃ r v', q.attempt c (sizedP c sz al) env v = .ok r v' := by
  have key := SVec.attempt_meets h hz env q
  cases hm : q.attempt c (sizedP c sz al) env v with
  | ub => rw [hm] at key; exact key.elim
  | abort => rw [hm] at key; exact key.elim
  | panic v' =>
    rw [hm] at key
    rcases hd with hd | hd
    · rw [key.1.1] at hd; cases hd
    · exact absurd key.1.2 hd
  | ok r v' => exact ⟨r, v', rfl⟩

/-- C17 holds for sized elements: with room to spare, no reservation method does anything. -/
theorem C17_reserve_sized_partial (h : v.Holds c xs) (hz : 0 < sz) (env : Env (Val (sizedTy sz al) β)) (q : Reservation)
    (hn : xs.length + q.slots ≤ v.capacity c) (hb : xs.length * sz + q.bytes ≤ v.capacity c * sz) :
    q.run c (sizedP c sz al) env v = .ok () v := by
  have hb' : q.bytes ≤ v.free c * sz := by rw [h.free_eq, Nat.sub_mul]; omega
  have key := SVec.run_meets h hz env q
  cases hm : q.run c (sizedP c sz al) env v with
  | ub => rw [hm] at key; exact key.elim
  | abort => rw [hm] at key; exact absurd ⟨hn, hb'⟩ key.2.1
  | panic v' => rw [hm] at key; exact absurd ⟨hn, hb'⟩ key.2.2.2.2.1
  | ok r v' => rw [hm] at key; rw [key.idle hn hb']

/-! ## C18, C19, C20: shrinking -/

/-- C18: shrinking keeps the contents; the process aborts only if the allocator refuses to shrink. -/
theorem C18_shrink_sized_partial (h : v.Holds c xs) (hz : 0 < sz) (env : Env (Val (sizedTy sz al) β)) (q : Shrinking) :
    (q.run c (sizedP c sz al) env v).Meets (fun _ v' => v'.Holds c xs ∧ v'.drops = v.drops) (fun _ => False)
      (env.infoShrink = false) :=
  (SVec.shrinking_meets h hz env q).mono (fun _ _ h => ⟨h.1, h.2.1⟩) (fun _ h => h) (fun h => h.1)

/-- C19: the minimum asked for is respected, and `shrink_to_fit` leaves no spare capacity. -/
theorem C19_shrink_sized_partial (h : v.Holds c xs) (hz : 0 < sz) (env : Env (Val (sizedTy sz al) β)) (q : Shrinking) :
    (q.run c (sizedP c sz al) env v).Meets
      (fun _ v' => max xs.length (min (v.capacity c) q.slots) ≤ v'.capacity c ∧ v'.capacity c ≤ v.capacity c ∧
        min (v.capacity c * sz) (q.bytes c) ≤ v'.capacity c * sz ∧ (q = .toFit → v'.capacity c = xs.length))
      (fun _ => False) (env.infoShrink = false) := by
  refine (SVec.shrinking_meets h hz env q).mono ?_ (fun _ h => h) (fun h => h.1)
  rintro _ v' ⟨h1, _, h2⟩
  have e1 : v.capacity c = v.slots := by unfold SVec.capacity; rw [if_neg (by omega)]
  have e2 : v'.capacity c = v'.slots := by unfold SVec.capacity; rw [if_neg (by omega)]
  have hcap := h.cap
  rw [e1] at hcap
  rw [e1, e2, h2]
  unfold SVec.shrunkTo
  refine ⟨by omega, by omega, ?_, ?_⟩
  · have hd : q.bytes c ≤ (q.bytes c + sz - 1) / sz * sz := by
      have := Nat.div_add_mod (q.bytes c + sz - 1) sz
      have := Nat.mod_lt (q.bytes c + sz - 1) hz
      rw [Nat.mul_comm]
      omega
    have h3 : min v.slots ((q.bytes c + sz - 1) / sz) ≤ max xs.length (min v.slots (max q.slots ((q.bytes c + sz - 1) / sz))) := by omega
    refine Nat.le_trans ?_ (Nat.mul_le_mul_right sz h3)
    rw [← Nat.mul_min_mul_right]
    omega
  · rintro rfl
    show max xs.length (min v.slots (max 0 ((0 + sz - 1) / sz))) = _
    rw [Nat.zero_add, Nat.div_eq_of_lt (by omega)]
    omega

/-- The last sentence of C19 is false of the code: `shrink_to(n)` never changes a vector of sized elements. -/
theorem C19_shrink_to_sized_counterexample (h : v.Holds c xs) (hz : 0 < sz) (env : Env (Val (sizedTy sz al) β)) (n : Nat) :
    Api.shrinkTo c (sizedP c sz al) env n v = .ok () v := by
  have e1 : v.capacity c = v.slots := by unfold SVec.capacity; rw [if_neg (by omega)]
  have hge : v.slots ≤ (c.usizeMax + sz - 1) / sz := by
    rw [Nat.le_div_iff_mul_le hz]
    have h1 := h.capMax
    rw [e1] at h1
    have := c.isizeMax_le_usizeMax
    omega
  show SVec.shrinkTo env n c.usizeMax v = _
  unfold SVec.shrinkTo
  rw [Exec.bind_ok (SVec.divCeil_eq hz v), Exec.get_bind]
  have heq : stdShrinkTo v.slots v.len (max n ((c.usizeMax + sz - 1) / sz)) = v.slots := by
    unfold stdShrinkTo; rw [if_neg (by omega)]
  rw [heq, if_neg (by omega)]
  rfl

/-! ## C21: drop -/

/-- C21: dropping the vector runs each destructor exactly once, in order, also if one of them panics, and releases the memory. Two
panicking destructors abort the process. -/
theorem C21_drop_sized (h : v.Holds c xs) (env : Env (Val (sizedTy sz al) β)) :
    (SVec.drop env v).Meets
      (fun _ v' => (v'.drops = v.drops ++ xs ∧ ∀ x ∈ xs, env.dropPanics x = false) ∧ v'.len = 0 ∧ v'.slots = 0)
      (fun v' => (v'.drops = v.drops ++ xs ∧ ∃ x ∈ xs, env.dropPanics x = true) ∧ v'.len = 0 ∧ v'.slots = 0)
      (∃ i j, ∃ (hi : i < xs.length) (hj : j < xs.length), i < j ∧ env.dropPanics xs[i] = true ∧ env.dropPanics xs[j] = true) :=
  SVec.drop_meets h env

/-! ## C35: zero-sized elements -/

section zst
variable {w : SVec 0 al β} {ys : List (Val (sizedTy 0 al) β)}

/-- C35 is false of the code: on any vector of zero-sized elements `push` and `insert` panic (a division by zero). -/
theorem C35_push_counterexample (h : w.Holds c ys) (hn : ys.length < c.usizeMax) (env : Env (Val (sizedTy 0 al) β))
    (x : Val (sizedTy 0 al) β) (i : Nat) :
    Api.push c (sizedP c 0 al) env x w = .panic w ∧ Api.insert c (sizedP c 0 al) env i x w = .panic w :=
  ⟨SVec.push_zst h hn env x, SVec.insert_zst h hn env i x⟩

/-- So do all methods that shrink, and all that reserve bytes. -/
theorem C35_shrink_counterexample (env : Env (Val (sizedTy 0 al) β)) (q : Shrinking) :
    q.run c (sizedP c 0 al) env w = .panic w := SVec.shrinking_zst env q

theorem C35_reserve_counterexample (h : w.Holds c ys) (env : Env (Val (sizedTy 0 al) β)) {n : Nat} (b a : Nat)
    (hn : ys.length + n ≤ c.usizeMax) :
    Reservation.run c (sizedP c 0 al) env (.capBytesAlign n b a) w = .panic w ∧
    Reservation.run c (sizedP c 0 al) env (.exactCapBytesAlign n b a) w = .panic w ∧
    Reservation.run c (sizedP c 0 al) env (.exact n) w = .panic w := by
  refine ⟨?_, ?_, ?_⟩
  · exact Exec.bind_panic (SVec.capBytes_zst h env n b a hn)
  · exact Exec.bind_panic (SVec.exact_zst h env n b a hn)
  · exact Exec.bind_panic (SVec.exact_zst h env n 0 1 hn)

/-- What does work for zero-sized elements: `reserve` always succeeds up to `usize::MAX` elements, without allocating. (Also
`push_with`, `insert_with`, `pop_into`, `remove_into`, access, iteration and drop: the theorems above do not assume
`0 < sz`.) -/
theorem C35_reserve_partial (h : w.Holds c ys) (env : Env (Val (sizedTy 0 al) β)) {n : Nat} (hn : ys.length + n ≤ c.usizeMax) :
    Api.reserve (sizedP c 0 al) env n w = .ok () w := by
  rcases SVec.tryReserve_cases h env n with ⟨v1, h1, hg⟩ | ⟨e, h1, hf, hlt⟩
  · rw [hg.idle hn] at h1
    exact Exec.bind_ok (m := SVec.tryReserve c env n) h1
  · rw [SVec.capacity_zst] at hlt; omega

/-- `push_with` of a value works for zero-sized elements. -/
theorem C35_pushWith_partial (h : w.Holds c ys) (hn : ys.length < c.usizeMax) (env : Env (Val (sizedTy 0 al) β))
    {x : Val (sizedTy 0 al) β} (hx : x.WF c) :
    ∃ w', Api.pushWithRun (sizedP c 0 al) env (given env x) ([], w) = .ok () ([], w') ∧ w'.Holds c (ys ++ [x]) := by
  have hno : ¬ w.NoSlot c env := by
    intro h1
    have h2 := h1.1
    rw [SVec.capacity_zst, h.len] at h2
    omega
  have key := C04_pushWith_sized h env (given_sound hx env [])
  cases hm : Api.pushWithRun (sizedP c 0 al) env (given env x) ([], w) with
  | ok u st =>
    rw [hm] at key
    obtain ⟨y, -, hr, hh, -⟩ := key
    obtain ⟨rfl, h1⟩ := given_runs hr
    cases u
    obtain ⟨s', w'⟩ := st
    cases h1
    exact ⟨w', rfl, hh⟩
  | panic st =>
    rw [hm] at key
    rcases key with ⟨-, -, h1 | ⟨-, -, h1⟩⟩ | ⟨y, -, hr, -⟩
    · exact (given_no_unwind h1).elim
    · exact (hno h1).elim
    · obtain ⟨-, h1⟩ := given_runs hr
      cases h1
  | abort =>
    rw [hm] at key
    rcases key with ⟨-, -, -, h1⟩ | h1
    · exact (hno h1).elim
    · exact (given_no_abort h1).elim
  | ub => rw [hm] at key; exact key.elim

end zst

/-! ## Examples and counterexamples -/

section
open Sample

/-- `[u16; 1]`-like elements: size 2, alignment 2. -/
abbrev Pair : UTy := sizedTy 2 2

/-- A value. -/
def pair (a b : Nat) : Val Pair Nat := ⟨(), [a, b]⟩

/-- A vector with three elements and capacity 5. -/
def vecP : SVec 2 2 Nat where
  mem i := [[1, 2], [3, 4], [5, 6]].getD i []
  slots := 5
  len := 3
  drops := []
  allocs := 1

/-- The contents of `vecP`. -/
def listP : List (Val Pair Nat) := [pair 1 2, pair 3 4, pair 5 6]

theorem pair_wf (a b : Nat) (c : Cfg) (hc : c = c64 ∨ c = c64d) : (pair a b).WF c := by
  rcases hc with rfl | rfl <;> exact ⟨rfl, ⟨1, by decide, rfl⟩, ⟨1, rfl⟩, by show 2 + (2 - 1) ≤ 2 ^ 63 - 1; decide⟩

theorem vecP_holds (c : Cfg) (hc : c = c64 ∨ c = c64d) : vecP.Holds c listP := by
  refine ⟨?_, rfl, ?_, ?_, by show 3 ≤ 5; decide, ?_⟩
  · intro x hx
    simp only [listP, List.mem_cons, List.not_mem_nil, or_false] at hx
    rcases hx with rfl | rfl | rfl <;> exact pair_wf _ _ _ hc
  · intro i hi
    match i, hi with
    | 0, _ => rfl
    | 1, _ => rfl
    | 2, _ => rfl
  · intro i
    match i with
    | 0 => exact Nat.le_refl _
    | 1 => exact Nat.le_refl _
    | 2 => exact Nat.le_refl _
    | (n + 3) => exact Nat.zero_le _
  · rcases hc with rfl | rfl <;> decide

/-- The hypotheses can be met, e.g. by `vecP` (2-byte elements, three of five slots in use). -/
example : vecP.Holds c64 listP ∧ (pair 7 8).WF c64 ∧ 0 < 2 ∧ listP.length < vecP.capacity c64 :=
  ⟨vecP_holds _ (.inl rfl), pair_wf _ _ _ (.inl rfl), by decide, by decide⟩

example : ∃ v', Api.insert c64 (sizedP c64 2 2) env 1 (pair 7 8) vecP = .ok () v' ∧
    v'.observe = some [pair 1 2, pair 7 8, pair 3 4, pair 5 6] := ⟨_, rfl, rfl⟩

example : ∃ v', run (Api.removeInto (sizedP c64 2 2) env 0) (Sink.getting ⟨2, 2⟩) (vecP, []) = .ok () (v', [1, 2]) ∧
    v'.observe = some [pair 3 4, pair 5 6] := ⟨_, rfl, rfl⟩

example : vecP.BytesOk c64 10 20 ∧ vecP.BytesOk c64 0 4 ∧ ¬ vecP.BytesOk c64 0 100 := by
  refine ⟨.inl (by decide), .inl (by decide), ?_⟩
  rintro (h | h)
  · exact absurd h (by decide)
  · exact absurd h.2 (by decide)

/-- C12 fails for sized elements: after asking for 100 more bytes the vector has 6 bytes in use and a capacity of 100. -/
theorem C12_counterexample_sized : vecP.Holds c64 listP ∧
    sizes (sizedP (β := Nat) c64 2 2) (Reservation.attempt c64 (sizedP c64 2 2) env (.capBytes 0 100) vecP) =
      some (50, some 6, some 100, 2) := ⟨vecP_holds _ (.inl rfl), by decide⟩

/-- C14 fails in debug builds: the same call then panics although it could be satisfied. -/
theorem C14_counterexample_sized : vecP.Holds c64d listP ∧
    unwinds (Reservation.attempt c64d (sizedP c64d 2 2) env (.capBytes 0 100) vecP) = true :=
  ⟨vecP_holds _ (.inr rfl), by decide⟩

/-- Does a `try_` method return an error? -/
def failed {V α : Type} : Res V (Except TRE α) → Bool
  | .ok (.error _) _ => true
  | _ => false

/-- C13 fails for sized elements: asking for 4 elements and `usize::MAX` bytes returns an error but raises the capacity. -/
theorem C13_counterexample_sized : vecP.Holds c64 listP ∧ vecP.capacity c64 = 5 ∧
    failed (Reservation.attempt c64 (sizedP c64 2 2) env (.capBytes 4 (2 ^ 64 - 1)) vecP) = true ∧
    sizes (sizedP (β := Nat) c64 2 2) (Reservation.attempt c64 (sizedP c64 2 2) env (.capBytes 4 (2 ^ 64 - 1)) vecP) =
      some (7, some 6, some 14, 2) := ⟨vecP_holds _ (.inl rfl), by decide, by decide, by decide⟩

/-- C27 fails for sized elements: if the destructor of element 0 panics while the emplacable returned by `remove_into(0)` is
dropped, the vector still owns that element; dropping the vector runs the destructor a second time, and the last element is
never dropped. -/
theorem C27_counterexample_sized : vecP.Holds c64 listP ∧
    ∃ v' v'', run (Api.removeInto (sizedP c64 2 2) envPanics 0) Sink.dropping (vecP, ()) = .panic (v', ()) ∧
      v'.observe = some [pair 1 2, pair 3 4] ∧ v'.drops = [pair 1 2] ∧
      SVec.drop env v' = .ok () v'' ∧ v''.drops = [pair 1 2, pair 1 2, pair 3 4] :=
  ⟨vecP_holds _ (.inl rfl), _, _, rfl, rfl, rfl, rfl, rfl⟩

/-- C26 fails for sized elements: if the emplacer unwinds while it is given element 0, the last element is lost. -/
theorem C26_counterexample_sized : vecP.Holds c64 listP ∧
    ∃ v', run (Api.removeInto (sizedP c64 2 2) env 0) (fun _ _ => Exec.panic) (vecP, ()) = .panic (v', ()) ∧
      v'.observe = some [pair 1 2, pair 3 4] ∧ v'.drops = [] :=
  ⟨vecP_holds _ (.inl rfl), _, rfl, rfl, rfl⟩

/-- A vector of two zero-sized values. -/
def vecZ : SVec 0 1 Nat := ⟨fun _ => [], 0, 2, [], 0⟩

theorem vecZ_holds : vecZ.Holds c64 [⟨(), []⟩, ⟨(), []⟩] := by
  refine ⟨?_, rfl, ?_, fun _ => Nat.le_refl _, by decide, by decide⟩
  · intro x hx
    simp only [List.mem_cons, List.not_mem_nil, or_false] at hx
    rcases hx with rfl | rfl <;> exact ⟨rfl, ⟨0, by decide, rfl⟩, ⟨0, rfl⟩, by show 0 + (1 - 1) ≤ 2 ^ 63 - 1; decide⟩
  · intro i hi
    match i, hi with
    | 0, _ => rfl
    | 1, _ => rfl

/-- `push` on it panics, `push_with` works. -/
example : unwinds (Api.push c64 (sizedP c64 0 1) env ⟨(), []⟩ vecZ) = true ∧
    ∃ v', Api.pushWithRun (sizedP c64 0 1) env (given env ⟨(), []⟩) ([], vecZ) = .ok () ([], v') ∧ v'.len = 3 :=
  ⟨by decide, _, rfl, rfl⟩

end

end Verif
