import Verif.Proofs.RemoveExact
import Verif.Props.Misplaced
import Verif.Props.Remove
import Verif.Props.Drop

/-!
# C04, C05, C27: what happens outside the covered cases

The conditions `InsertOk` and `RemoveOk` in the theorems about dynamically aligned vectors are necessary: without them the
completion of the operation is undefined behaviour, for every vector and every emplacable or emplacer. The condition of C27 that the
destructor does not panic is necessary as well: otherwise the value is destroyed twice.
-/

namespace Verif
open Sample

section
variable {T : UTy} {A : ATy} {β σ τ : Type} [Inhabited β] {c : Cfg}

/-- C04: `insert_with` at the end of a dynamically aligned vector whose last element has padding behind it (under the alignment that
the vector gets) is undefined behaviour as soon as the emplacable announces a value, unless the memory for it cannot be had. -/
theorem C04_insertWith_unaligned_end {v : UVec T β} {xs : List (Val T β)} (h : v.Holds c xs) {env : Env (Val T β)}
    (hv : env.Valid) (he : env.Exact) {e : Emplacable σ T β} {s s1 : σ} (hs : e.Sound c s) {md : T.Meta}
    (ha : e.Announces s md s1) (hz : v.ZstOk (T.sizeOf md) (T.alignOf md)) {i : Nat} (hi : i ≤ xs.length)
    (hg : ¬ UVec.InsertOk xs i (max v.align (T.alignOf md)))
    (hn1 : ¬ env.Refuses (xs.length + 1) (v.request xs (T.sizeOf md) (T.alignOf md)))
    (hn2 : ¬ v.TooLarge c xs 1 (T.sizeOf md) (T.alignOf md)) :
    Api.insertWithRun (unalignedP c T) env i e (s, v) = .ub := by
  obtain ⟨st, h1, rfl⟩ := ha
  unfold Api.insertWithRun
  rw [Exec.get_bind, Exec.guardedAssert_bind (by rw [(UVec.impl True c T).len_eq h]; exact hi)]
  unfold run
  rw [Exec.bind_ok (liftL_ok h1), hs.layout st s1 h1]
  exact Exec.bind_ub (liftR_ub (UVec.insertWithUnchecked_stuck h hv he (hs.metaOk st s1 h1) hz i hi hg hn1 hn2))

/-- C05: removing the last element of a dynamically aligned vector when the element before it has padding behind it. Every emplacer
sees the element as usual. If it unwinds, the vector still owns everything; if it returns, there is undefined behaviour. -/
theorem C05_removeInto_unaligned_end {v : UVec T β} {xs : List (Val T β)} (h : v.Holds c xs)
    (env : Env (Val T β)) {i : Nat} (hi : i < xs.length) (hr : ¬ v.RemoveOk xs i) (m : Emplacer τ T β) (t : τ) :
    match run (given env xs[i]) m (v.drops, t) with
    | .ok _ _ => run (Api.removeInto (unalignedP c T) env i) m (v, t) = .ub
    | .panic (ds, t') => run (Api.removeInto (unalignedP c T) env i) m (v, t) = .panic ({ v with drops := ds }, t')
    | .abort => run (Api.removeInto (unalignedP c T) env i) m (v, t) = .abort
    | .ub => run (Api.removeInto (unalignedP c T) env i) m (v, t) = .ub :=
  UVec.removeInto_stuck env h i hi hr m t

/-- C27: if the destructor of the element panics while the emplacable returned by `remove_into` is dropped, the vector still holds
the element, and dropping the vector destroys it a second time. Statically aligned elements. -/
theorem C27_removeInto_aligned_twice (hA : A.Fits c) {v : AVec A β} {xs : List (Val A.ty β)} (h : v.Holds c xs)
    (env env' : Env (Val A.ty β)) {i : Nat} (hi : i < xs.length) (hd : env.dropPanics xs[i] = true)
    (hd' : ∀ x ∈ xs, env'.dropPanics x = false) :
    ∃ v' v'', run (Api.removeInto (alignedP c A) env i) Sink.dropping (v, ()) = .panic (v', ()) ∧ v'.Holds c xs ∧
      v'.drops = v.drops ++ [xs[i]] ∧ AVec.drop c env' v' = .ok () v'' ∧ v''.drops = v.drops ++ [xs[i]] ++ xs := by
  have := C05_removeInto_aligned hA h env hi Sink.dropping ()
  rw [givenAs_run_drop, if_pos hd] at this
  obtain ⟨v', h1, h2, h3⟩ := this.panic
  obtain ⟨v'', h4, h5, _⟩ := C21_drop_aligned_returns hA h2 hd'
  exact ⟨v', v'', h1, h2, h3, h4, by rw [h5, h3]⟩

/-- C27: the same for dynamically aligned elements, whether or not the removal could be completed. -/
theorem C27_removeInto_unaligned_twice {v : UVec T β} {xs : List (Val T β)} (h : v.Holds c xs)
    (env env' : Env (Val T β)) {i : Nat} (hi : i < xs.length) (hd : env.dropPanics xs[i] = true)
    (hd' : ∀ x ∈ xs, env'.dropPanics x = false) :
    ∃ v' v'', run (Api.removeInto (unalignedP c T) env i) Sink.dropping (v, ()) = .panic (v', ()) ∧ v'.Holds c xs ∧
      v'.drops = v.drops ++ [xs[i]] ∧ UVec.drop c env' v' = .ok () v'' ∧ v''.drops = v.drops ++ [xs[i]] ++ xs := by
  have key : ∃ v', run (Api.removeInto (unalignedP c T) env i) Sink.dropping (v, ()) = .panic (v', ()) ∧ v'.Holds c xs ∧
      v'.drops = v.drops ++ [xs[i]] := by
    by_cases hr : v.RemoveOk xs i
    · have := C05_removeInto_unaligned_partial h env hi hr Sink.dropping ()
      rw [given_run_drop, if_pos hd] at this
      exact this.panic
    · have := C05_removeInto_unaligned_end h env hi hr Sink.dropping ()
      rw [given_run_drop, if_pos hd] at this
      exact ⟨_, this, ⟨h.wf, h.al, h.elemAl, h.infos, h.recs, h.cap, h.capDvd, h.room, h.mem, h.block, h.leaks⟩, rfl⟩
  obtain ⟨v', h1, h2, h3⟩ := key
  obtain ⟨v'', h4, h5, _⟩ := C21_drop_unaligned_returns h2 hd'
  exact ⟨v', v'', h1, h2, h3, h4, by rw [h5, h3]⟩

end

/-! ## The hypotheses can be met -/

/-- inserting `[7, 8]` at index 2 of `[[1], [2, 3], [4, 5, 6]]`: three bytes precede -/
example : vecA.Holds c64 listA ∧ (bytes [7, 8]).WF c64 ∧ 2 ≤ listA.length ∧ 2 ≤ totalWidth id (listA.take 2) ∧
    totalWidth id (listA.take 2) ≠ 2 ∧ (∀ b : Nat, ∃ b', b' ≠ b) :=
  ⟨vecA_holds _ (.inl rfl), bytes_wf _ (by decide) _ (.inl rfl), by decide, by decide, by decide, fun b => ⟨b + 1, by omega⟩⟩

/-- the contents that `C03_insert_aligned_exact` predicts in this case are those of `C03_counterexample_aligned` -/
example : seenAs (misplaced vecA.heap.mem 2 [7, 8] 2 (totalWidth id (listA.drop 2))) id 0
    ((listA.take 2 ++ bytes [7, 8] :: listA.drop 2).map Val.md) = [bytes [1], bytes [2, 7], bytes [8, 3], bytes [4, 5, 0]] := rfl

/-- inserting at index 1 of `vecU`: eight bytes precede -/
example : vecU.Holds c64 listU ∧ (dyn 1 [7, 8]).WF c64 ∧ vecU.ZstOk 2 1 ∧ UVec.InsertOk listU 1 (max 8 1) ∧
    1 ≤ totalWidth (padTo (max 8 1)) (listU.take 1) ∧ totalWidth (padTo (max 8 1)) (listU.take 1) ≠ 1 :=
  ⟨vecU_holds _ (.inl rfl), dyn_wf 0 _ (by decide) (by decide) (by decide) _ (.inl rfl), fun h => absurd h (by decide),
    .inl (by decide), by decide, by decide⟩

/-- an element of size zero at index 1 of `vecU` -/
example : (dyn 1 []).WF c64 ∧ (dyn 1 []).size = 0 ∧ UVec.InsertOk listU 1 (max 8 1) :=
  ⟨dyn_wf 0 _ (by decide) (by decide) (by decide) _ (.inl rfl), rfl, .inl (by decide)⟩

/-- a one-byte element behind the padded three-byte element of `vecPad` -/
example : vecPad.Holds c64 [dyn 1 [1, 2, 3]] ∧ (dyn 1 [7]).WF c64 ∧ vecPad.ZstOk 1 1 ∧
    ¬ UVec.InsertOk [dyn 1 [1, 2, 3]] 1 (max 8 1) ∧
    ¬ vecPad.TooLarge c64 [dyn 1 [1, 2, 3]] 1 (1 - vecPad.spare [dyn 1 [1, 2, 3]]) 1 ∧
    ¬ vecPad.TooLarge c64 [dyn 1 [1, 2, 3]] 1 1 1 ∧
    Emplacable.Announces (given env (dyn 1 [7])) [] (1, 1) [] := by
  refine ⟨vecPad_holds, dyn_wf 0 _ (by decide) (by decide) (by decide) _ (.inl rfl), fun h => absurd h (by decide), ?_, ?_, ?_,
    _, rfl, rfl⟩
  · rintro (h | h | h)
    · exact absurd h (by decide)
    · exact absurd h (by decide)
    · exact absurd (h _ rfl) (by decide)
  · exact not_or.2 ⟨by decide, by show ¬ (_ < _); decide⟩
  · exact not_or.2 ⟨by decide, by show ¬ (_ < _); decide⟩

/-- a vector of two empty byte strings that has one byte of memory: inserting a byte at the end is outside -/
def vecEmpties : AVec Bytes Nat where
  ptr := 65536
  byteCap := 1
  elems := [⟨(), 0⟩, ⟨(), 0⟩]
  elemsCap := 4
  heap := ⟨fun _ => 0, some ⟨65536, 1, 1, 1⟩, 0⟩
  drops := []

theorem vecEmpties_holds : vecEmpties.Holds c64 [bytes [], bytes []] := by
  refine ⟨?_, fun x _ => (bytes_lawful c64 (.inl rfl)).keeps x.md, rfl, by decide, by decide, by decide,
    by refine ⟨?_, ?_, trivial⟩ <;> decide, by refine ⟨?_, ?_, ?_, ?_, ?_, ?_, ?_⟩ <;> decide, rfl⟩
  intro x hx
  simp only [List.mem_cons, List.not_mem_nil, or_false, or_self] at hx
  subst hx
  exact bytes_wf _ (by decide) _ (.inl rfl)

example : vecEmpties.Holds c64 [bytes [], bytes []] ∧ (bytes [7]).WF c64 ∧ 2 + 1 ≤ vecEmpties.elemsCap ∧
    vecEmpties.heap.span vecEmpties.ptr < 2 + 1 + 0 ∧
    Api.insert c64 (alignedP c64 Bytes) env 2 (bytes [7]) vecEmpties = .ub :=
  ⟨vecEmpties_holds, bytes_wf _ (by decide) _ (.inl rfl), by decide, by decide, rfl⟩

/-- removing the last element of `vecU`, behind a padded one -/
example : vecU.Holds c64 listU ∧ 1 < listU.length ∧ ¬ vecU.RemoveOk listU 1 := by
  refine ⟨vecU_holds _ (.inl rfl), by decide, ?_⟩
  rintro (h | h | h)
  · exact absurd h (by decide)
  · exact absurd h (by decide)
  · exact absurd (h _ rfl) (by decide)

example : envPanics.dropPanics listU[0] = true ∧ (∀ x ∈ listU, env.dropPanics x = false) ∧
    envPanics.dropPanics listA[1] = true ∧ ∀ x ∈ listA, env.dropPanics x = false :=
  ⟨rfl, fun _ _ => rfl, rfl, fun _ _ => rfl⟩

end Verif
