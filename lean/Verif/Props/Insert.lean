import Verif.Proofs.Observe
import Verif.Spec.Samples

/-!
# C03, C04, C25: `insert`, `insert_with`, `push_with`
-/

namespace Verif
open Sample

section
variable {T : UTy} {A : ATy} {β : Type} [Inhabited β] {c : Cfg}

/-! ## C03 -/

/-- C03 for statically aligned elements. Partial: the elements before the index must occupy exactly as many bytes as
their number (`C03_counterexample_aligned` shows what happens otherwise). -/
theorem C03_insert_aligned_partial (hA : A.Lawful c) {v : AVec A β} {xs : List (Val A.ty β)} (h : v.Holds c xs)
    {env : Env (Val A.ty β)} (hv : env.Valid) {x : Val A.ty β} (hx : x.WF c) {i : Nat} (hi : i ≤ xs.length)
    (hg : totalWidth id (xs.take i) = i) :
    (Api.insert c (alignedP c A) env i x v).Meets
      (fun _ v' => v'.Holds c (xs.take i ++ x :: xs.drop i) ∧ v'.drops = v.drops)
      (fun v' => v'.Holds c xs ∧ v'.drops = v.drops ∧
        (env.Refuses (xs.length + 1) (v.request (x.size - v.spare xs)) ∨ v.TooLarge c xs 1 (x.size - v.spare xs)))
      (env.Refuses (xs.length + 1) (v.request (x.size - v.spare xs))) :=
  ((AVec.impl hA).insert_meets h hv hx (fun _ _ => trivial) (fun _ => trivial) hi (fun _ _ => hg)).mono (fun _ _ h => h)
    (fun _ h => ⟨h.1.holds, h.1.drops, h.2⟩) (fun h => h)

/-- C03 for dynamically aligned elements, whether or not the byte capacity is a multiple of the alignment (see
`C01_push_unaligned_stored_partial`). -/
theorem C03_insert_unaligned_stored_partial {G : Prop} {v : UVec T β} {xs : List (Val T β)} (h : v.Represents G c xs)
    {env : Env (Val T β)} (hv : env.Valid) (he : G → env.Exact) {x : Val T β} (hx : x.WF c) (hz : v.ZstOk x.size x.align)
    (hr : x.align ≤ v.align → v.RoomOk xs x.size)
    {i : Nat} (hi : i ≤ xs.length) (hg : UVec.InsertOk xs i (max v.align x.align))
    (hb : totalWidth (padTo (max v.align x.align)) (xs.take i) = i) :
    (Api.insert c (unalignedP c T) env i x v).Meets
      (fun _ v' => v'.Represents G c (xs.take i ++ x :: xs.drop i) ∧ v'.drops = v.drops)
      (fun v' => v'.Represents G c xs ∧ v'.drops = v.drops ∧
        (env.Refuses (xs.length + 1) (v.request xs (x.size - v.spare xs) x.align) ∨
          v.TooLarge c xs 1 (x.size - v.spare xs) x.align))
      (env.Refuses (xs.length + 1) (v.request xs (x.size - v.spare xs) x.align)) := by
  refine ((UVec.impl G c T).insert_meets h ⟨hv, he⟩ hx hz hr hi (fun v' hE => ?_)).mono (fun _ _ h => h)
    (fun _ h => ⟨h.1.holds, h.1.drops, h.2⟩) (fun h => h)
  have h1 : x.align ≤ v'.align := hE.fits x.size (Nat.le_refl _) hz
  have h2 : v'.align = max v.align x.align := by
    rcases hE.alignCases with h3 | h3
    · exact h3
    · have h3 : v'.align = v.align := h3
      rw [h3]; rw [h3] at h1; exact (Nat.max_eq_left h1).symm
  exact ⟨by rw [h2]; exact hg, by rw [h2]; exact hb⟩

/-- C03 for dynamically aligned elements. Partial: see `InsertOk`, `ZstOk` and the condition on the bytes before the
index, and the counterexamples below. -/
theorem C03_insert_unaligned_partial {v : UVec T β} {xs : List (Val T β)} (h : v.Holds c xs)
    {env : Env (Val T β)} (hv : env.Valid) (he : env.Exact) {x : Val T β} (hx : x.WF c) (hz : v.ZstOk x.size x.align)
    {i : Nat} (hi : i ≤ xs.length) (hg : UVec.InsertOk xs i (max v.align x.align))
    (hb : totalWidth (padTo (max v.align x.align)) (xs.take i) = i) :
    (Api.insert c (unalignedP c T) env i x v).Meets
      (fun _ v' => v'.Holds c (xs.take i ++ x :: xs.drop i) ∧ v'.drops = v.drops)
      (fun v' => v'.Holds c xs ∧ v'.drops = v.drops ∧
        (env.Refuses (xs.length + 1) (v.request xs (x.size - v.spare xs) x.align) ∨
          v.TooLarge c xs 1 (x.size - v.spare xs) x.align))
      (env.Refuses (xs.length + 1) (v.request xs (x.size - v.spare xs) x.align)) :=
  C03_insert_unaligned_stored_partial h hv (fun _ => he) hx hz (fun _ => .inl (h.capDvd trivial)) hi hg hb

/-- C03, out of range. -/
theorem C03_insert_out_aligned (hA : A.Fits c) {v : AVec A β} {xs : List (Val A.ty β)} (h : v.Holds c xs)
    (env : Env (Val A.ty β)) (x : Val A.ty β) {i : Nat} (hi : xs.length < i) :
    Api.insert c (alignedP c A) env i x v = .panic v := (AVec.implF hA).insert_out h env hi

/-- C03, out of range. -/
theorem C03_insert_out_unaligned {G : Prop} {v : UVec T β} {xs : List (Val T β)} (h : v.Represents G c xs)
    (env : Env (Val T β)) (x : Val T β) {i : Nat} (hi : xs.length < i) :
    Api.insert c (unalignedP c T) env i x v = .panic v := (UVec.impl G c T).insert_out h env hi

end

/-- The hypotheses can be met: inserting in front of everything, and behind a one-byte element. -/
example : vecU.Holds c64 listU ∧ (dyn 4 [1, 2, 3, 4]).WF c64 ∧ vecU.ZstOk 4 4 ∧ UVec.InsertOk listU 0 (max 8 4) ∧
    totalWidth (padTo (max 8 4)) (listU.take 0) = 0 :=
  ⟨vecU_holds _ (.inl rfl), dyn_wf 2 _ (by decide) (by decide) (by decide) _ (.inl rfl),
    fun h => absurd h (by decide), .inl (by decide), rfl⟩

example : vecA.Holds c64 listA ∧ (bytes [7, 8]).WF c64 ∧ 1 ≤ listA.length ∧ totalWidth id (listA.take 1) = 1 :=
  ⟨vecA_holds _ (.inl rfl), bytes_wf _ (by decide) _ (.inl rfl), by decide, rfl⟩

/-- A test of the model: inserting at index 1 of `vecA`. -/
example : ∃ v', Api.insert c64 (alignedP c64 Bytes) env 1 (bytes [7, 8]) vecA = .ok () v' ∧
    v'.observe c64 = some [bytes [1], bytes [7, 8], bytes [2, 3], bytes [4, 5, 6]] := ⟨_, rfl, rfl⟩

/-- C03 is false of the code, statically aligned elements: inserting `[7, 8]` at index 2 of `[[1], [2, 3], [4, 5, 6]]`
overwrites part of element 1, and neither the new element nor the last one has the right bytes. -/
theorem C03_counterexample_aligned :
    vecA.Holds c64 listA ∧ (bytes [7, 8]).WF c64 ∧
    ∃ v', Api.insert c64 (alignedP c64 Bytes) env 2 (bytes [7, 8]) vecA = .ok () v' ∧
      v'.observe c64 = some [bytes [1], bytes [2, 7], bytes [8, 3], bytes [4, 5, 0]] :=
  ⟨vecA_holds _ (.inl rfl), bytes_wf _ (by decide) _ (.inl rfl), _, rfl, rfl⟩

/-- C03 is false of the code, dynamically aligned elements: inserting at index 1 writes into the first element. -/
theorem C03_counterexample_unaligned :
    vecU.Holds c64 listU ∧ (dyn 1 [7, 8]).WF c64 ∧
    ∃ v', Api.insert c64 (unalignedP c64 Dyn) env 1 (dyn 1 [7, 8]) vecU = .ok () v' ∧
      v'.observe c64 ≠ some [dyn 1 [1, 2, 3], dyn 1 [7, 8], dyn 8 [11, 12, 13, 14, 15, 16, 17, 18]] ∧
      v'.observe c64 = some [dyn 1 [1, 7, 8], dyn 1 [11, 2], dyn 8 [11, 0, 0, 0, 0, 0, 0, 0]] := by
  refine ⟨vecU_holds _ (.inl rfl), dyn_wf 0 _ (by decide) (by decide) (by decide) _ (.inl rfl), _, rfl, ?_, rfl⟩
  decide

/-- A vector with one 3-byte element under alignment 8. -/
def vecPad : UVec Dyn Nat where
  ptr := 65536
  byteCap := 8
  elems := [⟨(3, 1), 3⟩]
  elemsCap := 4
  align := 8
  heap := ⟨fun i => [1, 2, 3].getD i 0, some ⟨65536, 8, 8, 8⟩, 0⟩
  drops := []

theorem vecPad_holds : vecPad.Holds c64 [dyn 1 [1, 2, 3]] := by
  refine ⟨?_, ⟨3, by decide, rfl⟩, by decide, by decide, by decide, by decide, by decide, by decide,
    by refine ⟨?_, trivial⟩; decide, by refine ⟨?_, ?_, ?_, ?_, ?_, ?_, ?_⟩ <;> decide, rfl⟩
  intro x hx
  simp only [List.mem_cons, List.not_mem_nil, or_false] at hx
  subst hx
  exact dyn_wf 0 _ (by decide) (by decide) (by decide) _ (.inl rfl)

/-- C03 and C04 are false of the code at the end of a dynamically aligned vector: if there is padding behind the last
element, the number of bytes to shift underflows, which is undefined behaviour. -/
theorem C03_C04_counterexample_end :
    vecPad.Holds c64 [dyn 1 [1, 2, 3]] ∧
    Api.insert c64 (unalignedP c64 Dyn) env 1 (dyn 1 [7]) vecPad = .ub ∧
    Api.insertWithRun (unalignedP c64 Dyn) env 1 (given env (dyn 1 [7])) ([], vecPad) = .ub :=
  ⟨vecPad_holds, rfl, rfl⟩

section
variable {T : UTy} {A : ATy} {β σ : Type} [Inhabited β] {c : Cfg}

/-! ## C04 (and `push_with`) -/

/-- C04 for statically aligned elements: `insert_with` of any emplacable that respects its safety contract. If it returns,
the emplacable has delivered a value `x` and ended normally, and the vector holds `x` at the index. If it unwinds, either
nothing was delivered (because the emplacable panicked, or the memory could not be had) and the contents are unchanged,
or the emplacable panicked after delivering the value and the value is in the vector. There is no undefined behaviour;
the process is aborted only if memory is refused or the emplacable does so. -/
theorem C04_insertWith_aligned (hA : A.Lawful c) {v : AVec A β} {xs : List (Val A.ty β)} (h : v.Holds c xs)
    {env : Env (Val A.ty β)} (hv : env.Valid) {e : Emplacable σ A.ty β} {s : σ} (hs : e.Sound c s) {i : Nat}
    (hi : i ≤ xs.length) :
    (Api.insertWithRun (alignedP c A) env i e (s, v)).Meets
      (fun _ st => ∃ x : Val A.ty β, x.WF c ∧ e.Runs s x (.ok () st.1) ∧ st.2.Holds c (xs.take i ++ x :: xs.drop i) ∧
        st.2.drops = v.drops)
      (fun st => (st.2.Holds c xs ∧ st.2.drops = v.drops ∧
          (e.Unwinds s st.1 ∨ ∃ md, e.Announces s md st.1 ∧
            (env.Refuses (xs.length + 1) (v.request (A.ty.sizeOf md)) ∨ v.TooLarge c xs 1 (A.ty.sizeOf md)))) ∨
        ∃ x : Val A.ty β, x.WF c ∧ e.Runs s x (.panic st.1) ∧ st.2.Holds c (xs.take i ++ x :: xs.drop i) ∧
          st.2.drops = v.drops)
      ((∃ md s1, e.Announces s md s1 ∧ env.Refuses (xs.length + 1) (v.request (A.ty.sizeOf md))) ∨ e.Aborts s) :=
  (AVec.impl hA).insertWith_meets h hv hs (fun _ _ _ _ _ => trivial) hi (fun _ _ _ => trivial)

/-- The same for `push_with`. -/
theorem C04_pushWith_aligned (hA : A.Lawful c) {v : AVec A β} {xs : List (Val A.ty β)} (h : v.Holds c xs)
    {env : Env (Val A.ty β)} (hv : env.Valid) {e : Emplacable σ A.ty β} {s : σ} (hs : e.Sound c s) :
    (Api.pushWithRun (alignedP c A) env e (s, v)).Meets
      (fun _ st => ∃ x : Val A.ty β, x.WF c ∧ e.Runs s x (.ok () st.1) ∧ st.2.Holds c (xs ++ [x]) ∧ st.2.drops = v.drops)
      (fun st => (st.2.Holds c xs ∧ st.2.drops = v.drops ∧
          (e.Unwinds s st.1 ∨ ∃ md, e.Announces s md st.1 ∧
            (env.Refuses (xs.length + 1) (v.request (A.ty.sizeOf md)) ∨ v.TooLarge c xs 1 (A.ty.sizeOf md)))) ∨
        ∃ x : Val A.ty β, x.WF c ∧ e.Runs s x (.panic st.1) ∧ st.2.Holds c (xs ++ [x]) ∧ st.2.drops = v.drops)
      ((∃ md s1, e.Announces s md s1 ∧ env.Refuses (xs.length + 1) (v.request (A.ty.sizeOf md))) ∨ e.Aborts s) :=
  (AVec.impl hA).pushWith_meets h hv hs (fun _ _ _ _ _ => trivial)

/-- C04 for dynamically aligned elements. Partial: see `InsertOk` (`C03_C04_counterexample_end`) and `ZstOk`. -/
theorem C04_insertWith_unaligned_partial {G : Prop} {v : UVec T β} {xs : List (Val T β)} (h : v.Represents G c xs)
    {env : Env (Val T β)} (hv : env.Valid) (he : G → env.Exact) {e : Emplacable σ T β} {s : σ} (hs : e.Sound c s)
    (hz : ∀ md s1, e.Announces s md s1 → v.ZstOk (T.sizeOf md) (T.alignOf md)) {i : Nat} (hi : i ≤ xs.length)
    (hg : ∀ md s1, e.Announces s md s1 → UVec.InsertOk xs i (max v.align (T.alignOf md))) :
    (Api.insertWithRun (unalignedP c T) env i e (s, v)).Meets
      (fun _ st => ∃ x : Val T β, x.WF c ∧ e.Runs s x (.ok () st.1) ∧ st.2.Represents G c (xs.take i ++ x :: xs.drop i) ∧
        st.2.drops = v.drops)
      (fun st => (st.2.Represents G c xs ∧ st.2.drops = v.drops ∧
          (e.Unwinds s st.1 ∨ ∃ md, e.Announces s md st.1 ∧
            (env.Refuses (xs.length + 1) (v.request xs (T.sizeOf md) (T.alignOf md)) ∨
              v.TooLarge c xs 1 (T.sizeOf md) (T.alignOf md)))) ∨
        ∃ x : Val T β, x.WF c ∧ e.Runs s x (.panic st.1) ∧ st.2.Represents G c (xs.take i ++ x :: xs.drop i) ∧
          st.2.drops = v.drops)
      ((∃ md s1, e.Announces s md s1 ∧ env.Refuses (xs.length + 1) (v.request xs (T.sizeOf md) (T.alignOf md))) ∨
        e.Aborts s) :=
  (UVec.impl G c T).insertWith_meets h ⟨hv, he⟩ hs hz hi hg

/-- The same for `push_with`. -/
theorem C04_pushWith_unaligned_partial {G : Prop} {v : UVec T β} {xs : List (Val T β)} (h : v.Represents G c xs)
    {env : Env (Val T β)} (hv : env.Valid) (he : G → env.Exact) {e : Emplacable σ T β} {s : σ} (hs : e.Sound c s)
    (hz : ∀ md s1, e.Announces s md s1 → v.ZstOk (T.sizeOf md) (T.alignOf md)) :
    (Api.pushWithRun (unalignedP c T) env e (s, v)).Meets
      (fun _ st => ∃ x : Val T β, x.WF c ∧ e.Runs s x (.ok () st.1) ∧ st.2.Represents G c (xs ++ [x]) ∧ st.2.drops = v.drops)
      (fun st => (st.2.Represents G c xs ∧ st.2.drops = v.drops ∧
          (e.Unwinds s st.1 ∨ ∃ md, e.Announces s md st.1 ∧
            (env.Refuses (xs.length + 1) (v.request xs (T.sizeOf md) (T.alignOf md)) ∨
              v.TooLarge c xs 1 (T.sizeOf md) (T.alignOf md)))) ∨
        ∃ x : Val T β, x.WF c ∧ e.Runs s x (.panic st.1) ∧ st.2.Represents G c (xs ++ [x]) ∧ st.2.drops = v.drops)
      ((∃ md s1, e.Announces s md s1 ∧ env.Refuses (xs.length + 1) (v.request xs (T.sizeOf md) (T.alignOf md))) ∨
        e.Aborts s) :=
  (UVec.impl G c T).pushWith_meets h ⟨hv, he⟩ hs hz

/-- C04, out of range: the call panics, the vector is as before, and the emplacable that was given has been dropped. -/
theorem C04_insertWith_out_aligned (hA : A.Fits c) {v : AVec A β} {xs : List (Val A.ty β)} (h : v.Holds c xs)
    (env : Env (Val A.ty β)) (e : Emplacable σ A.ty β) (s : σ) {i : Nat} (hi : xs.length < i) :
    RejectedWith v (run e Sink.dropping (s, ())) (Api.insertWithRun (alignedP c A) env i e (s, v)) :=
  (AVec.implF hA).insertWith_out h env hi

/-- C04, out of range. -/
theorem C04_insertWith_out_unaligned {G : Prop} {v : UVec T β} {xs : List (Val T β)} (h : v.Represents G c xs)
    (env : Env (Val T β)) (e : Emplacable σ T β) (s : σ) {i : Nat} (hi : xs.length < i) :
    RejectedWith v (run e Sink.dropping (s, ())) (Api.insertWithRun (unalignedP c T) env i e (s, v)) :=
  (UVec.impl G c T).insertWith_out h env hi

/-! ## C25 -/

omit [Inhabited β] in
/-- The argument of C25: when the emplacable's own code unwinds, the exchange unwinds with the contents unchanged. -/
theorem unwinds_of_meets {V : Type} {e : Emplacable σ T β} {s : σ} {r : Res (σ × V) Unit} {Q : Val T β → V → Prop}
    {B : V → Prop} {N : T.Meta → Prop} {R : T.Meta → Prop}
    (hm : r.Meets (fun _ st => ∃ x : Val T β, x.WF c ∧ e.Runs s x (.ok () st.1) ∧ Q x st.2)
      (fun st => (B st.2 ∧ (e.Unwinds s st.1 ∨ ∃ md, e.Announces s md st.1 ∧ N md)) ∨
        ∃ x : Val T β, x.WF c ∧ e.Runs s x (.panic st.1) ∧ Q x st.2)
      ((∃ md s1, e.Announces s md s1 ∧ R md) ∨ e.Aborts s))
    {s' : σ} (hu : e.Unwinds s s') (hN : ∀ md s1, e.Announces s md s1 → ¬ N md ∧ ¬ R md) :
    ∃ v', r = .panic (s', v') ∧ B v' := by
  have hru : ∀ x r', e.Runs s x r' → False := by
    rintro x r' ⟨st, s1, s2, h1, _, h2, _⟩
    rcases hu with h3 | ⟨st', s1', bs, h3, h4⟩
    · rw [h1] at h3; cases h3
    · rw [h1] at h3; cases h3; rw [h2] at h4; cases h4
  cases r with
  | ub => exact hm.elim
  | ok u st => obtain ⟨x, _, h1, _⟩ := hm; exact (hru _ _ h1).elim
  | abort =>
    rcases hm with ⟨md, s1, h1, h2⟩ | h1
    · exact absurd h2 (hN md s1 h1).2
    · rcases h1 with h1 | ⟨st, s1, h1, h2⟩
      · rcases hu with h3 | ⟨st', s1', bs, h3, h4⟩ <;> rw [h1] at h3 <;> cases h3
      · rcases hu with h3 | ⟨st', s1', bs, h3, h4⟩
        · rw [h1] at h3; cases h3
        · rw [h1] at h3; cases h3
          rcases h2 with h2 | ⟨bs', s2, h2, _⟩ <;> rw [h4] at h2 <;> cases h2
  | panic st =>
    rcases hm with ⟨h1, h2⟩ | ⟨x, _, h1, _⟩
    · refine ⟨st.2, ?_, h1⟩
      rcases h2 with h2 | ⟨md, h2, h3⟩
      · have : st.1 = s' := by
          rcases hu with h3 | ⟨st1, s1, bs, h3, h4⟩ <;> rcases h2 with h5 | ⟨st2, s2, bs2, h5, h6⟩ <;> rw [h3] at h5 <;> cases h5
          · rfl
          · rw [h4] at h6; cases h6; rfl
        rw [← this]
      · exact absurd h3 (hN md _ h2).1
    · exact (hru _ _ h1).elim

/-- C25, statically aligned elements: if the emplacable unwinds (before calling the emplacer, or having written any
part of the value), then `insert_with` unwinds and the vector holds exactly its original elements. -/
theorem C25_insertWith_aligned (hA : A.Lawful c) {v : AVec A β} {xs : List (Val A.ty β)} (h : v.Holds c xs)
    {env : Env (Val A.ty β)} (hv : env.Valid) {e : Emplacable σ A.ty β} {s s' : σ} (hs : e.Sound c s) {i : Nat}
    (hi : i ≤ xs.length) (hu : e.Unwinds s s')
    (hm : ∀ md s1, e.Announces s md s1 → ¬ env.Refuses (xs.length + 1) (v.request (A.ty.sizeOf md)) ∧
      ¬ v.TooLarge c xs 1 (A.ty.sizeOf md)) :
    ∃ v', Api.insertWithRun (alignedP c A) env i e (s, v) = .panic (s', v') ∧ v'.Holds c xs ∧ v'.drops = v.drops := by
  refine unwinds_of_meets (c := c) (R := fun md => env.Refuses (xs.length + 1) (v.request (A.ty.sizeOf md)))
    (Q := fun x v' => v'.Holds c (xs.take i ++ x :: xs.drop i) ∧ v'.drops = v.drops)
    (N := fun md => env.Refuses (xs.length + 1) (v.request (A.ty.sizeOf md)) ∨ v.TooLarge c xs 1 (A.ty.sizeOf md))
    ((C04_insertWith_aligned hA h hv hs hi).mono (fun _ _ h => h) ?_ (fun h => h)) hu
    (fun md s1 h => ⟨fun h' => h'.elim (hm md s1 h).1 (hm md s1 h).2, (hm md s1 h).1⟩)
  rintro st (⟨h1, h2, h3⟩ | h1)
  · exact .inl ⟨⟨h1, h2⟩, h3⟩
  · exact .inr h1

/-- C25 for `push_with`. -/
theorem C25_pushWith_aligned (hA : A.Lawful c) {v : AVec A β} {xs : List (Val A.ty β)} (h : v.Holds c xs)
    {env : Env (Val A.ty β)} (hv : env.Valid) {e : Emplacable σ A.ty β} {s s' : σ} (hs : e.Sound c s)
    (hu : e.Unwinds s s')
    (hm : ∀ md s1, e.Announces s md s1 → ¬ env.Refuses (xs.length + 1) (v.request (A.ty.sizeOf md)) ∧
      ¬ v.TooLarge c xs 1 (A.ty.sizeOf md)) :
    ∃ v', Api.pushWithRun (alignedP c A) env e (s, v) = .panic (s', v') ∧ v'.Holds c xs ∧ v'.drops = v.drops := by
  refine unwinds_of_meets (c := c) (R := fun md => env.Refuses (xs.length + 1) (v.request (A.ty.sizeOf md)))
    (Q := fun x v' => v'.Holds c (xs ++ [x]) ∧ v'.drops = v.drops)
    (N := fun md => env.Refuses (xs.length + 1) (v.request (A.ty.sizeOf md)) ∨ v.TooLarge c xs 1 (A.ty.sizeOf md))
    ((C04_pushWith_aligned hA h hv hs).mono (fun _ _ h => h) ?_ (fun h => h)) hu
    (fun md s1 h => ⟨fun h' => h'.elim (hm md s1 h).1 (hm md s1 h).2, (hm md s1 h).1⟩)
  rintro st (⟨h1, h2, h3⟩ | h1)
  · exact .inl ⟨⟨h1, h2⟩, h3⟩
  · exact .inr h1

/-- C25, dynamically aligned elements. Partial: same restrictions as C04. -/
theorem C25_insertWith_unaligned_partial {G : Prop} {v : UVec T β} {xs : List (Val T β)} (h : v.Represents G c xs)
    {env : Env (Val T β)} (hv : env.Valid) (he : G → env.Exact) {e : Emplacable σ T β} {s s' : σ} (hs : e.Sound c s)
    (hz : ∀ md s1, e.Announces s md s1 → v.ZstOk (T.sizeOf md) (T.alignOf md)) {i : Nat} (hi : i ≤ xs.length)
    (hg : ∀ md s1, e.Announces s md s1 → UVec.InsertOk xs i (max v.align (T.alignOf md))) (hu : e.Unwinds s s')
    (hm : ∀ md s1, e.Announces s md s1 →
      ¬ env.Refuses (xs.length + 1) (v.request xs (T.sizeOf md) (T.alignOf md)) ∧
      ¬ v.TooLarge c xs 1 (T.sizeOf md) (T.alignOf md)) :
    ∃ v', Api.insertWithRun (unalignedP c T) env i e (s, v) = .panic (s', v') ∧ v'.Represents G c xs ∧ v'.drops = v.drops := by
  refine unwinds_of_meets (c := c) (R := fun md => env.Refuses (xs.length + 1) (v.request xs (T.sizeOf md) (T.alignOf md)))
    (Q := fun x v' => v'.Represents G c (xs.take i ++ x :: xs.drop i) ∧ v'.drops = v.drops)
    (N := fun md => env.Refuses (xs.length + 1) (v.request xs (T.sizeOf md) (T.alignOf md)) ∨
      v.TooLarge c xs 1 (T.sizeOf md) (T.alignOf md))
    ((C04_insertWith_unaligned_partial h hv he hs hz hi hg).mono (fun _ _ h => h) ?_ (fun h => h)) hu
    (fun md s1 h => ⟨fun h' => h'.elim (hm md s1 h).1 (hm md s1 h).2, (hm md s1 h).1⟩)
  rintro st (⟨h1, h2, h3⟩ | h1)
  · exact .inl ⟨⟨h1, h2⟩, h3⟩
  · exact .inr h1

/-- C25 for `push_with`. -/
theorem C25_pushWith_unaligned_partial {G : Prop} {v : UVec T β} {xs : List (Val T β)} (h : v.Represents G c xs)
    {env : Env (Val T β)} (hv : env.Valid) (he : G → env.Exact) {e : Emplacable σ T β} {s s' : σ} (hs : e.Sound c s)
    (hz : ∀ md s1, e.Announces s md s1 → v.ZstOk (T.sizeOf md) (T.alignOf md)) (hu : e.Unwinds s s')
    (hm : ∀ md s1, e.Announces s md s1 →
      ¬ env.Refuses (xs.length + 1) (v.request xs (T.sizeOf md) (T.alignOf md)) ∧
      ¬ v.TooLarge c xs 1 (T.sizeOf md) (T.alignOf md)) :
    ∃ v', Api.pushWithRun (unalignedP c T) env e (s, v) = .panic (s', v') ∧ v'.Represents G c xs ∧ v'.drops = v.drops := by
  refine unwinds_of_meets (c := c) (R := fun md => env.Refuses (xs.length + 1) (v.request xs (T.sizeOf md) (T.alignOf md)))
    (Q := fun x v' => v'.Represents G c (xs ++ [x]) ∧ v'.drops = v.drops)
    (N := fun md => env.Refuses (xs.length + 1) (v.request xs (T.sizeOf md) (T.alignOf md)) ∨
      v.TooLarge c xs 1 (T.sizeOf md) (T.alignOf md))
    ((C04_pushWith_unaligned_partial h hv he hs hz).mono (fun _ _ h => h) ?_ (fun h => h)) hu
    (fun md s1 h => ⟨fun h' => h'.elim (hm md s1 h).1 (hm md s1 h).2, (hm md s1 h).1⟩)
  rintro st (⟨h1, h2, h3⟩ | h1)
  · exact .inl ⟨⟨h1, h2⟩, h3⟩
  · exact .inr h1

end

/-- An emplacable that announces a 16-byte value of alignment 16, writes three bytes and panics. -/
def unwinding : Emplacable Nat Dyn Nat := (pure
  { layout := ⟨16, 16⟩, md := (16, 16), write := fun s => .unwind [1, 2, 3] (s + 1), dropVal := pure (), finish := pure () } :
    Exec Nat (Started Nat Dyn Nat))

/-- The hypotheses of C25 can be met. -/
example : unwinding.Sound c64 5 ∧ unwinding.Unwinds 5 6 ∧ UVec.InsertOk listU 1 (max vecU.align 16) ∧
    ¬ vecU.TooLarge c64 listU 1 16 16 := by
  refine ⟨⟨(by intro h; cases h), ?_, ?_, ?_, ?_, ?_⟩, .inr ⟨_, _, _, rfl, rfl⟩, .inl (by decide),
    by unfold UVec.TooLarge UVec.BytesTooLarge; decide⟩
  · intro st s1 h; cases h; rfl
  · intro st s1 h; cases h; exact ⟨⟨4, by decide, rfl⟩, by decide, by decide⟩
  · intro st s1 h h'; cases h; cases h'
  · intro st s1 bs s2 h h'; cases h; cases h'
  · intro st s1 bs s2 h h'; cases h; cases h'; decide

/-- A test of the model: `unwinding` at index 1 of `vecU` raises the alignment and moves the second element, and leaves
the contents as they were. -/
example : ∃ v', Api.insertWithRun (unalignedP c64 Dyn) env 1 unwinding (5, vecU) = .panic (6, v') ∧ v'.align = 16 ∧
    v'.observe c64 = some listU := ⟨_, rfl, rfl, rfl⟩

/-- The hypotheses of C04 can be met by a plain value. -/
example : Emplacable.Sound c64 (given env (dyn 4 [1, 2, 3, 4])) [] ∧
    ∃ v', Api.insertWithRun (unalignedP c64 Dyn) env 1 (given env (dyn 4 [1, 2, 3, 4])) ([], vecU) = .ok () ([], v') ∧
      v'.observe c64 = some [dyn 1 [1, 2, 3], dyn 4 [1, 2, 3, 4], dyn 8 [11, 12, 13, 14, 15, 16, 17, 18]] :=
  ⟨given_sound (dyn_wf 2 _ (by decide) (by decide) (by decide) _ (.inl rfl)) _ _, _, rfl, rfl⟩

end Verif
