import Verif.Proofs.HistoryInst
import Verif.Props.Owned

/-!
# C53: the element that is not accepted

A function that takes an element by value owns it. If the function does not store the element, it has to destroy it, once.

* `push` and `insert` do: on every path on which they panic, the element is destroyed once and the vector holds what it held.
* `insert_with` does if the index is wrong.
* `push_with` and `insert_with` do not if the vector cannot grow: the element is neither stored nor destroyed (it leaks).
-/

namespace Verif
open Sample
variable {σ : Type} {T : UTy} {A : ATy} {β : Type} [Inhabited β] {c : Cfg} {sz al : Nat}

section outcomes
variable {env : Env (Val T β)}

omit [Inhabited β] in
/-- What `push_with` and `insert_with` do to a value that is given to them. -/
theorem given_outcome {V : Type} {r : Res (List (Val T β) × V) Unit} {x : Val T β} {ds : List (Val T β)} {stored : Val T β → V → Prop}
    {B : V → Prop} {why refused : T.Meta → Prop}
    (h : r.Meets (fun _ st => ∃ y : Val T β, y.WF c ∧ Emplacable.Runs (given env x) ds y (.ok () st.1) ∧ stored y st.2)
      (fun st => (B st.2 ∧ (Emplacable.Unwinds (given env x) ds st.1 ∨ ∃ md, Emplacable.Announces (given env x) ds md st.1 ∧ why md)) ∨
        ∃ y : Val T β, y.WF c ∧ Emplacable.Runs (given env x) ds y (.panic st.1) ∧ stored y st.2)
      ((∃ md s1, Emplacable.Announces (given env x) ds md s1 ∧ refused md) ∨ Emplacable.Aborts (given env x) ds)) :
    r.Meets (fun _ st => st.1 = ds ∧ stored x st.2) (fun st => st.1 = ds ∧ B st.2 ∧ why x.md) (refused x.md) := by
  refine h.mono ?_ ?_ ?_
  · rintro _ ⟨ds', v'⟩ ⟨y, -, hr, hs⟩
    obtain ⟨rfl, h1⟩ := given_runs hr
    cases h1
    exact ⟨rfl, hs⟩
  · rintro ⟨ds', v'⟩ (⟨hB, hu | ⟨md, ha, hw⟩⟩ | ⟨y, -, hr, -⟩)
    · exact (given_no_unwind hu).elim
    · obtain ⟨st, h1, h2⟩ := ha
      cases h1
      cases h2
      exact ⟨rfl, hB, hw⟩
    · exact absurd (given_runs hr).2 (by simp)
  · rintro (⟨md, s1, ha, hr⟩ | ha)
    · obtain ⟨st, h1, h2⟩ := ha
      cases h1
      cases h2
      exact hr
    · exact (given_no_abort ha).elim

omit [Inhabited β] in
theorem given_rejected {V : Type} {v : V} {x : Val T β} {ds : List (Val T β)} {r : Res (List (Val T β) × V) Unit}
    (h : RejectedWith v (run (given env x) Sink.dropping (ds, ())) r) :
    r = if env.dropPanics x then .abort else .panic (ds ++ [x], v) := by
  rw [given_run_drop] at h
  by_cases hd : env.dropPanics x = true
  · rw [if_pos hd] at h
    rw [if_pos hd]
    cases r <;> first | rfl | exact h.elim
  · rw [if_neg hd] at h
    rw [if_neg hd]
    cases r with
    | panic st =>
      obtain ⟨s', v'⟩ := st
      obtain ⟨h1, h2⟩ := h
      cases h1
      cases h2
      rfl
    | ok _ _ => exact h.elim
    | abort => exact h.elim
    | ub => exact h.elim

end outcomes

/-! ## `push` -/

/-- C53 for `push` on statically aligned elements: if it panics, the element has been destroyed once and the vector holds what it
held. The process only ends if memory was refused, or if the vector cannot grow and the destructor panics as well. -/
theorem C53_push_aligned (hA : A.Lawful c) {v : AVec A β} {xs : List (Val A.ty β)} (h : v.Holds c xs)
    {env : Env (Val A.ty β)} (hv : env.Valid) {x : Val A.ty β} (hx : x.WF c) :
    ((alignedM c A).giving env x (Api.push c (alignedP c A) env x) v).Meets
      (fun _ v' => v'.Holds c (xs ++ [x]) ∧ v'.drops = v.drops)
      (fun v' => v'.Holds c xs ∧ v'.drops = v.drops ++ [x] ∧ env.dropPanics x = false ∧
        (env.Refuses (xs.length + 1) (v.request (x.size - v.spare xs)) ∨ v.TooLarge c xs 1 (x.size - v.spare xs)))
      (env.Refuses (xs.length + 1) (v.request (x.size - v.spare xs)) ∨ env.dropPanics x = true ∧
        (env.Refuses (xs.length + 1) (v.request (x.size - v.spare xs)) ∨ v.TooLarge c xs 1 (x.size - v.spare xs))) :=
  giving_outcome (M := alignedM c A) (H := fun v' => v'.Holds c xs) (AVec.client hA).note (C01_push_aligned hA h hv hx)

/-- C53 for `push` on dynamically aligned elements (see `C01_push_unaligned_partial` for `ZstOk`). -/
theorem C53_push_unaligned_partial {G : Prop} {v : UVec T β} {xs : List (Val T β)} (h : v.Represents G c xs)
    {env : Env (Val T β)} (hv : env.Valid) (he : G → env.Exact) {x : Val T β} (hx : x.WF c) (hz : v.ZstOk x.size x.align)
    (hr : ¬ G → x.align ≤ v.align → v.RoomOk xs x.size) :
    ((unalignedM c T).giving env x (Api.push c (unalignedP c T) env x) v).Meets
      (fun _ v' => v'.Represents G c (xs ++ [x]) ∧ v'.drops = v.drops)
      (fun v' => v'.Represents G c xs ∧ v'.drops = v.drops ++ [x] ∧ env.dropPanics x = false ∧
        (env.Refuses (xs.length + 1) (v.request xs (x.size - v.spare xs) x.align) ∨
          v.TooLarge c xs 1 (x.size - v.spare xs) x.align))
      (env.Refuses (xs.length + 1) (v.request xs (x.size - v.spare xs) x.align) ∨ env.dropPanics x = true ∧
        (env.Refuses (xs.length + 1) (v.request xs (x.size - v.spare xs) x.align) ∨
          v.TooLarge c xs 1 (x.size - v.spare xs) x.align)) :=
  giving_outcome (M := unalignedM c T) (H := fun v' => v'.Represents G c xs) UVec.Represents.note 
    (C01_push_unaligned_stored_partial h hv he hx hz (h.roomOk hr))

/-- C53 for `push` on sized elements that are not zero-sized. -/
theorem C53_push_sized_partial {v : SVec sz al β} {xs : List (Val (sizedTy sz al) β)} (h : v.Holds c xs) (hz : 0 < sz)
    (env : Env (Val (sizedTy sz al) β)) {x : Val (sizedTy sz al) β} (hx : x.WF c) :
    ((sizedM c sz al).giving env x (Api.push c (sizedP c sz al) env x) v).Meets
      (fun _ v' => v'.Holds c (xs ++ [x]) ∧ v'.drops = v.drops)
      (fun v' => v'.Holds c xs ∧ v'.drops = v.drops ++ [x] ∧ env.dropPanics x = false ∧ v.NoSlot c env)
      (v.NoSlot c env ∨ env.dropPanics x = true ∧ v.NoSlot c env) :=
  giving_outcome (M := sizedM c sz al) (H := fun v' => v'.Holds c xs) SVec.client.note
    ((C01_push_sized_partial h hz env hx).mono (fun _ _ h => h) (by rintro _ ⟨rfl, h2⟩; exact ⟨h, rfl, h2⟩) id)

/-- C53 for zero-sized elements: `push` and `insert` always panic (C35), and the element is destroyed once. -/
theorem C53_push_zst {w : SVec 0 al β} {ys : List (Val (sizedTy 0 al) β)} (h : w.Holds c ys) (hn : ys.length < c.usizeMax)
    (env : Env (Val (sizedTy 0 al) β)) (x : Val (sizedTy 0 al) β) (i : Nat) :
    (sizedM c 0 al).giving env x (Api.push c (sizedP c 0 al) env x) w =
      (if env.dropPanics x then .abort else .panic { w with drops := w.drops ++ [x] }) ∧
    (sizedM c 0 al).giving env x (Api.insert c (sizedP c 0 al) env i x) w =
      (if env.dropPanics x then .abort else .panic { w with drops := w.drops ++ [x] }) :=
  ⟨Client.giving_panic x (C35_push_counterexample h hn env x i).1, Client.giving_panic x (C35_push_counterexample h hn env x i).2⟩

/-! ## `insert` -/

/-- C53 for `insert` on statically aligned elements, index in range (see `C03_insert_aligned_partial` for the condition on it). -/
theorem C53_insert_aligned_partial (hA : A.Lawful c) {v : AVec A β} {xs : List (Val A.ty β)} (h : v.Holds c xs)
    {env : Env (Val A.ty β)} (hv : env.Valid) {x : Val A.ty β} (hx : x.WF c) {i : Nat} (hi : i ≤ xs.length)
    (hg : totalWidth id (xs.take i) = i) :
    ((alignedM c A).giving env x (Api.insert c (alignedP c A) env i x) v).Meets
      (fun _ v' => v'.Holds c (xs.take i ++ x :: xs.drop i) ∧ v'.drops = v.drops)
      (fun v' => v'.Holds c xs ∧ v'.drops = v.drops ++ [x] ∧ env.dropPanics x = false ∧
        (env.Refuses (xs.length + 1) (v.request (x.size - v.spare xs)) ∨ v.TooLarge c xs 1 (x.size - v.spare xs)))
      (env.Refuses (xs.length + 1) (v.request (x.size - v.spare xs)) ∨ env.dropPanics x = true ∧
        (env.Refuses (xs.length + 1) (v.request (x.size - v.spare xs)) ∨ v.TooLarge c xs 1 (x.size - v.spare xs))) :=
  giving_outcome (M := alignedM c A) (H := fun v' => v'.Holds c xs) (AVec.client hA).note (C03_insert_aligned_partial hA h hv hx hi hg)

/-- C53 for `insert` on dynamically aligned elements, index in range (see `C03_insert_unaligned_partial` for the conditions). -/
theorem C53_insert_unaligned_partial {G : Prop} {v : UVec T β} {xs : List (Val T β)} (h : v.Represents G c xs)
    {env : Env (Val T β)} (hv : env.Valid) (he : G → env.Exact) {x : Val T β} (hx : x.WF c) (hz : v.ZstOk x.size x.align)
    (hr : ¬ G → x.align ≤ v.align → v.RoomOk xs x.size)
    {i : Nat} (hi : i ≤ xs.length) (hg : UVec.InsertOk xs i (max v.align x.align))
    (hb : totalWidth (padTo (max v.align x.align)) (xs.take i) = i) :
    ((unalignedM c T).giving env x (Api.insert c (unalignedP c T) env i x) v).Meets
      (fun _ v' => v'.Represents G c (xs.take i ++ x :: xs.drop i) ∧ v'.drops = v.drops)
      (fun v' => v'.Represents G c xs ∧ v'.drops = v.drops ++ [x] ∧ env.dropPanics x = false ∧
        (env.Refuses (xs.length + 1) (v.request xs (x.size - v.spare xs) x.align) ∨
          v.TooLarge c xs 1 (x.size - v.spare xs) x.align))
      (env.Refuses (xs.length + 1) (v.request xs (x.size - v.spare xs) x.align) ∨ env.dropPanics x = true ∧
        (env.Refuses (xs.length + 1) (v.request xs (x.size - v.spare xs) x.align) ∨
          v.TooLarge c xs 1 (x.size - v.spare xs) x.align)) :=
  giving_outcome (M := unalignedM c T) (H := fun v' => v'.Represents G c xs) UVec.Represents.note
    (C03_insert_unaligned_stored_partial h hv he hx hz (h.roomOk hr) hi hg hb)

/-- C53 for `insert` on sized elements that are not zero-sized, index in range. -/
theorem C53_insert_sized_partial {v : SVec sz al β} {xs : List (Val (sizedTy sz al) β)} (h : v.Holds c xs) (hz : 0 < sz)
    (env : Env (Val (sizedTy sz al) β)) {x : Val (sizedTy sz al) β} (hx : x.WF c) {i : Nat} (hi : i ≤ xs.length) :
    ((sizedM c sz al).giving env x (Api.insert c (sizedP c sz al) env i x) v).Meets
      (fun _ v' => v'.Holds c (xs.take i ++ x :: xs.drop i) ∧ v'.drops = v.drops)
      (fun v' => v'.Holds c xs ∧ v'.drops = v.drops ++ [x] ∧ env.dropPanics x = false ∧ v.NoSlot c env)
      (v.NoSlot c env ∨ env.dropPanics x = true ∧ v.NoSlot c env) :=
  giving_outcome (M := sizedM c sz al) (H := fun v' => v'.Holds c xs) SVec.client.note
    ((C03_insert_sized_partial h hz env hx hi).mono (fun _ _ h => h) (by rintro _ ⟨rfl, h2⟩; exact ⟨h, rfl, h2⟩) id)

/-- C53 for `insert` with an index out of range: nothing but the destruction of the element happens. A destructor that panics
ends the process. -/
theorem C53_insert_out_aligned (hA : A.Fits c) {v : AVec A β} {xs : List (Val A.ty β)} (h : v.Holds c xs)
    (env : Env (Val A.ty β)) (x : Val A.ty β) {i : Nat} (hi : xs.length < i) :
    (alignedM c A).giving env x (Api.insert c (alignedP c A) env i x) v =
      if env.dropPanics x then .abort else .panic { v with drops := v.drops ++ [x] } :=
  Client.giving_panic x (C03_insert_out_aligned hA h env x hi)

theorem C53_insert_out_unaligned {v : UVec T β} {xs : List (Val T β)} (h : v.Holds c xs)
    (env : Env (Val T β)) (x : Val T β) {i : Nat} (hi : xs.length < i) :
    (unalignedM c T).giving env x (Api.insert c (unalignedP c T) env i x) v =
      if env.dropPanics x then .abort else .panic { v with drops := v.drops ++ [x] } :=
  Client.giving_panic x (C03_insert_out_unaligned h env x hi)

theorem C53_insert_out_sized {v : SVec sz al β} {xs : List (Val (sizedTy sz al) β)} (h : v.Holds c xs)
    (env : Env (Val (sizedTy sz al) β)) (x : Val (sizedTy sz al) β) {i : Nat} (hi : xs.length < i) :
    (sizedM c sz al).giving env x (Api.insert c (sizedP c sz al) env i x) v =
      if env.dropPanics x then .abort else .panic { v with drops := v.drops ++ [x] } :=
  Client.giving_panic x (C03_insert_out_sized h env x hi)

/-! ## `insert_with` with an index out of range

The first component of the state lists the values that the source has destroyed. -/

/-- C53 for `insert_with` of a value, index out of range. -/
theorem C53_insertWith_out_aligned (hA : A.Fits c) {v : AVec A β} {xs : List (Val A.ty β)} (h : v.Holds c xs)
    (env : Env (Val A.ty β)) (x : Val A.ty β) (ds : List (Val A.ty β)) {i : Nat} (hi : xs.length < i) :
    Api.insertWithRun (alignedP c A) env i (given env x) (ds, v) = if env.dropPanics x then .abort else .panic (ds ++ [x], v) :=
  given_rejected (C04_insertWith_out_aligned hA h env (given env x) ds hi)

theorem C53_insertWith_out_unaligned {v : UVec T β} {xs : List (Val T β)} (h : v.Holds c xs)
    (env : Env (Val T β)) (x : Val T β) (ds : List (Val T β)) {i : Nat} (hi : xs.length < i) :
    Api.insertWithRun (unalignedP c T) env i (given env x) (ds, v) = if env.dropPanics x then .abort else .panic (ds ++ [x], v) :=
  given_rejected (C04_insertWith_out_unaligned h env (given env x) ds hi)

theorem C53_insertWith_out_sized {v : SVec sz al β} {xs : List (Val (sizedTy sz al) β)} (h : v.Holds c xs)
    (env : Env (Val (sizedTy sz al) β)) (x : Val (sizedTy sz al) β) (ds : List (Val (sizedTy sz al) β)) {i : Nat} (hi : xs.length < i) :
    Api.insertWithRun (sizedP c sz al) env i (given env x) (ds, v) = if env.dropPanics x then .abort else .panic (ds ++ [x], v) :=
  given_rejected (C04_insertWith_out_sized h env (given env x) ds hi)

/-! ## `push_with` and `insert_with` when the vector cannot grow

C53 is false there: whenever the call panics, the list of destroyed values is the same as before, and the vector does not hold the
value either. -/

theorem C53_pushWith_leaks_aligned (hA : A.Lawful c) {v : AVec A β} {xs : List (Val A.ty β)} (h : v.Holds c xs)
    {env : Env (Val A.ty β)} (hv : env.Valid) {x : Val A.ty β} (hx : x.WF c) (ds : List (Val A.ty β)) :
    (Api.pushWithRun (alignedP c A) env (given env x) (ds, v)).Meets
      (fun _ st => st.1 = ds ∧ st.2.Holds c (xs ++ [x]) ∧ st.2.drops = v.drops)
      (fun st => st.1 = ds ∧ (st.2.Holds c xs ∧ st.2.drops = v.drops) ∧
        (env.Refuses (xs.length + 1) (v.request x.size) ∨ v.TooLarge c xs 1 x.size))
      (env.Refuses (xs.length + 1) (v.request x.size)) :=
  given_outcome (c := c) (B := fun v' => v'.Holds c xs ∧ v'.drops = v.drops)
    (why := fun md => env.Refuses (xs.length + 1) (v.request (A.ty.sizeOf md)) ∨ v.TooLarge c xs 1 (A.ty.sizeOf md))
    (refused := fun md => env.Refuses (xs.length + 1) (v.request (A.ty.sizeOf md)))
    (stored := fun y v' => v'.Holds c (xs ++ [y]) ∧ v'.drops = v.drops)
    ((C04_pushWith_aligned hA h hv (given_sound hx env ds)).mono (fun _ _ h => h)
      (fun _ h => h.imp (fun h => ⟨⟨h.1, h.2.1⟩, h.2.2⟩) id) id)

theorem C53_pushWith_leaks_unaligned_partial {G : Prop} {v : UVec T β} {xs : List (Val T β)} (h : v.Represents G c xs)
    {env : Env (Val T β)} (hv : env.Valid) (he : G → env.Exact) {x : Val T β} (hx : x.WF c) (hz : v.ZstOk x.size x.align)
    (ds : List (Val T β)) :
    (Api.pushWithRun (unalignedP c T) env (given env x) (ds, v)).Meets
      (fun _ st => st.1 = ds ∧ st.2.Represents G c (xs ++ [x]) ∧ st.2.drops = v.drops)
      (fun st => st.1 = ds ∧ (st.2.Represents G c xs ∧ st.2.drops = v.drops) ∧
        (env.Refuses (xs.length + 1) (v.request xs x.size x.align) ∨ v.TooLarge c xs 1 x.size x.align))
      (env.Refuses (xs.length + 1) (v.request xs x.size x.align)) :=
  given_outcome (c := c) (B := fun v' => v'.Represents G c xs ∧ v'.drops = v.drops)
    (why := fun md => env.Refuses (xs.length + 1) (v.request xs (T.sizeOf md) (T.alignOf md)) ∨ v.TooLarge c xs 1 (T.sizeOf md) (T.alignOf md))
    (refused := fun md => env.Refuses (xs.length + 1) (v.request xs (T.sizeOf md) (T.alignOf md)))
    (stored := fun y v' => v'.Represents G c (xs ++ [y]) ∧ v'.drops = v.drops)
    ((C04_pushWith_unaligned_partial h hv he (given_sound hx env ds)
        (by rintro md s1 ⟨st, h1, h2⟩; cases h1; cases h2; exact hz)).mono (fun _ _ h => h)
      (fun _ h => h.imp (fun h => ⟨⟨h.1, h.2.1⟩, h.2.2⟩) id) id)

theorem C53_pushWith_leaks_sized {v : SVec sz al β} {xs : List (Val (sizedTy sz al) β)} (h : v.Holds c xs)
    (env : Env (Val (sizedTy sz al) β)) {x : Val (sizedTy sz al) β} (hx : x.WF c) (ds : List (Val (sizedTy sz al) β)) :
    (Api.pushWithRun (sizedP c sz al) env (given env x) (ds, v)).Meets
      (fun _ st => st.1 = ds ∧ st.2.Holds c (xs ++ [x]) ∧ st.2.drops = v.drops)
      (fun st => st.1 = ds ∧ (st.2.Holds c xs ∧ st.2.drops = v.drops) ∧ v.NoSlot c env)
      (v.NoSlot c env) :=
  given_outcome (c := c) (B := fun v' => v'.Holds c xs ∧ v'.drops = v.drops) (why := fun _ => v.NoSlot c env) (refused := fun _ => v.NoSlot c env)
    (stored := fun y v' => v'.Holds c (xs ++ [y]) ∧ v'.drops = v.drops)
    ((C04_pushWith_sized h env (given_sound hx env ds)).mono (fun _ _ h => h)
      (fun _ h => h.imp (fun h => ⟨⟨h.1, h.2.1⟩, h.2.2⟩) id) id)

theorem C53_insertWith_leaks_aligned (hA : A.Lawful c) {v : AVec A β} {xs : List (Val A.ty β)} (h : v.Holds c xs)
    {env : Env (Val A.ty β)} (hv : env.Valid) {x : Val A.ty β} (hx : x.WF c) (ds : List (Val A.ty β)) {i : Nat} (hi : i ≤ xs.length) :
    (Api.insertWithRun (alignedP c A) env i (given env x) (ds, v)).Meets
      (fun _ st => st.1 = ds ∧ st.2.Holds c (xs.take i ++ x :: xs.drop i) ∧ st.2.drops = v.drops)
      (fun st => st.1 = ds ∧ (st.2.Holds c xs ∧ st.2.drops = v.drops) ∧
        (env.Refuses (xs.length + 1) (v.request x.size) ∨ v.TooLarge c xs 1 x.size))
      (env.Refuses (xs.length + 1) (v.request x.size)) :=
  given_outcome (c := c) (B := fun v' => v'.Holds c xs ∧ v'.drops = v.drops)
    (why := fun md => env.Refuses (xs.length + 1) (v.request (A.ty.sizeOf md)) ∨ v.TooLarge c xs 1 (A.ty.sizeOf md))
    (refused := fun md => env.Refuses (xs.length + 1) (v.request (A.ty.sizeOf md)))
    (stored := fun y v' => v'.Holds c (xs.take i ++ y :: xs.drop i) ∧ v'.drops = v.drops)
    ((C04_insertWith_aligned hA h hv (given_sound hx env ds) hi).mono (fun _ _ h => h)
      (fun _ h => h.imp (fun h => ⟨⟨h.1, h.2.1⟩, h.2.2⟩) id) id)

theorem C53_insertWith_leaks_unaligned_partial {G : Prop} {v : UVec T β} {xs : List (Val T β)} (h : v.Represents G c xs)
    {env : Env (Val T β)} (hv : env.Valid) (he : G → env.Exact) {x : Val T β} (hx : x.WF c) (hz : v.ZstOk x.size x.align)
    (ds : List (Val T β)) {i : Nat} (hi : i ≤ xs.length) (hg : UVec.InsertOk xs i (max v.align x.align)) :
    (Api.insertWithRun (unalignedP c T) env i (given env x) (ds, v)).Meets
      (fun _ st => st.1 = ds ∧ st.2.Represents G c (xs.take i ++ x :: xs.drop i) ∧ st.2.drops = v.drops)
      (fun st => st.1 = ds ∧ (st.2.Represents G c xs ∧ st.2.drops = v.drops) ∧
        (env.Refuses (xs.length + 1) (v.request xs x.size x.align) ∨ v.TooLarge c xs 1 x.size x.align))
      (env.Refuses (xs.length + 1) (v.request xs x.size x.align)) :=
  given_outcome (c := c) (B := fun v' => v'.Represents G c xs ∧ v'.drops = v.drops)
    (why := fun md => env.Refuses (xs.length + 1) (v.request xs (T.sizeOf md) (T.alignOf md)) ∨ v.TooLarge c xs 1 (T.sizeOf md) (T.alignOf md))
    (refused := fun md => env.Refuses (xs.length + 1) (v.request xs (T.sizeOf md) (T.alignOf md)))
    (stored := fun y v' => v'.Represents G c (xs.take i ++ y :: xs.drop i) ∧ v'.drops = v.drops)
    ((C04_insertWith_unaligned_partial h hv he (given_sound hx env ds)
        (by rintro md s1 ⟨st, h1, h2⟩; cases h1; cases h2; exact hz) hi
        (by rintro md s1 ⟨st, h1, h2⟩; cases h1; cases h2; exact hg)).mono (fun _ _ h => h)
      (fun _ h => h.imp (fun h => ⟨⟨h.1, h.2.1⟩, h.2.2⟩) id) id)

theorem C53_insertWith_leaks_sized {v : SVec sz al β} {xs : List (Val (sizedTy sz al) β)} (h : v.Holds c xs)
    (env : Env (Val (sizedTy sz al) β)) {x : Val (sizedTy sz al) β} (hx : x.WF c) (ds : List (Val (sizedTy sz al) β)) {i : Nat}
    (hi : i ≤ xs.length) :
    (Api.insertWithRun (sizedP c sz al) env i (given env x) (ds, v)).Meets
      (fun _ st => st.1 = ds ∧ st.2.Holds c (xs.take i ++ x :: xs.drop i) ∧ st.2.drops = v.drops)
      (fun st => st.1 = ds ∧ (st.2.Holds c xs ∧ st.2.drops = v.drops) ∧ v.NoSlot c env)
      (v.NoSlot c env) :=
  given_outcome (c := c) (B := fun v' => v'.Holds c xs ∧ v'.drops = v.drops) (why := fun _ => v.NoSlot c env) (refused := fun _ => v.NoSlot c env)
    (stored := fun y v' => v'.Holds c (xs.take i ++ y :: xs.drop i) ∧ v'.drops = v.drops)
    ((C04_insertWith_sized h env (given_sound hx env ds) hi).mono (fun _ _ h => h)
      (fun _ h => h.imp (fun h => ⟨⟨h.1, h.2.1⟩, h.2.2⟩) id) id)

/-! ## Concrete cases -/

namespace Sample

/-- What can be seen after a panic: the elements, and the bytes of the values destroyed by the vector. -/
def rejected {X : Type} (see : X → List (List Nat) × List (List Nat)) : Res X Unit → Option (List (List Nat) × List (List Nat))
  | .panic v => some (see v)
  | _ => none

/-- `vecA` without room for a further record. -/
def vecFull : AVec Bytes Nat := { vecA with elemsCap := 3 }

theorem vecFull_holds : vecFull.Holds c64 listA :=
  { vecA_holds _ (.inl rfl) with recs := by decide }

end Sample

/-- `push` that cannot grow, and `insert` out of range: the element is destroyed and the elements stay. -/
example : rejected (fun v => (((v.observe c64).getD []).map Val.bytes, v.drops.map Val.bytes))
      ((alignedM c64 Bytes).giving envStuck (bytes [7, 8, 9]) (Api.push c64 (alignedP c64 Bytes) envStuck (bytes [7, 8, 9])) vecFull) =
        some (listA.map Val.bytes, [[7, 8, 9]]) ∧
    rejected (fun v => (((v.observe c64).getD []).map Val.bytes, v.drops.map Val.bytes))
      ((alignedM c64 Bytes).giving env (bytes [7, 8, 9]) (Api.insert c64 (alignedP c64 Bytes) env 9 (bytes [7, 8, 9])) vecFull) =
        some (listA.map Val.bytes, [[7, 8, 9]]) := by
  decide +kernel

/-- C53 is false of `push_with`: it panics, and the value is neither in the vector nor destroyed. -/
theorem C53_counterexample :
    rejected (fun st => (((st.2.observe c64).getD []).map Val.bytes, (st.1 ++ st.2.drops).map Val.bytes))
      (Api.pushWithRun (alignedP c64 Bytes) envStuck (given envStuck (bytes [7, 8, 9])) ([], vecFull)) = some (listA.map Val.bytes, []) := by
  decide +kernel

/-- The hypotheses can be met. -/
example : vecFull.Holds c64 listA ∧ (bytes [7, 8, 9]).WF c64 ∧ Bytes.Lawful c64 ∧
    ((vecFull.TooLarge c64 listA 1 3) ∨ (envStuck (X := Val Bytes.ty Nat)).Refuses 4 (vecFull.request 3)) :=
  ⟨vecFull_holds, bytes_wf _ (by decide) _ (.inl rfl), bytes_lawful _ (.inl rfl), .inr (.inl ⟨_, rfl⟩)⟩

end Verif
