import Verif.Proofs.Iter
import Verif.Spec.Drop

/-!
# Dropping a vector
-/

namespace Verif

theorem StopsAt.here {X : Type} {panics : X → Bool} {x : X} {xs : List X} (h : panics x = true) :
    StopsAt panics (x :: xs) [x] := ⟨[], x, xs, rfl, rfl, h, by simp⟩

theorem StopsAt.later {X : Type} {panics : X → Bool} {x : X} {xs ds : List X} (h : panics x = false)
    (hs : StopsAt panics xs ds) : StopsAt panics (x :: xs) (x :: ds) := by
  obtain ⟨ys, y, zs, rfl, rfl, h1, h2⟩ := hs
  refine ⟨x :: ys, y, zs, rfl, rfl, h1, ?_⟩
  intro z hz
  rcases List.mem_cons.1 hz with rfl | hz
  · exact h
  · exact h2 z hz

namespace UVec
variable {T : UTy} {β : Type} [Inhabited β] {G : Prop} {c : Cfg} {v : UVec T β} {xs : List (Val T β)}

theorem dropLoop_meets (h : v.Represents G c xs) (env : Env (Val T β)) (n : Nat) : ∀ (i : Nat) (w : UVec T β), i + n = xs.length →
    w.heap = v.heap →
    (dropLoop c env v.ptr v.align (v.elems.drop i) (at_ v xs i) w).Meets
      (fun _ w' => (∀ x ∈ xs.drop i, env.dropPanics x = false) ∧ w' = { w with drops := w.drops ++ xs.drop i })
      (fun w' => ∃ ds, StopsAt env.dropPanics (xs.drop i) ds ∧ w' = { w with drops := w.drops ++ ds }) False := by
  have hl := h.length
  induction n with
  | zero =>
    intro i w hi _
    rw [List.drop_eq_nil_of_le (by omega), List.drop_eq_nil_of_le (by omega)]
    refine .of_ok rfl ⟨by simp, by simp⟩
  | succ n ih =>
    intro i w hi hw
    have hi' : i < xs.length := by omega
    have hb := at_bounds h hi'
    have hspan : at_ v xs i ≤ v.heap.span v.ptr := by
      have h1 := h.elem_le i hi'
      have h2 := h.cap
      have h3 := h.span
      unfold at_; omega
    rw [List.drop_eq_getElem_cons (by omega), List.drop_eq_getElem_cons hi', rec_get h hi']
    unfold dropLoop
    simp only [rec_]
    rw [Exec.orUb_bind (sub_at h hi'), Exec.get_bind, Exec.require_bind (by rw [hw]; exact hspan), Exec.orUb_bind hb.2.2]
    have hd := dropInPlace_eq (v := w) (env := env) (x := xs[i]) (by rw [hw]; exact ref_at h hi')
      (by rw [hw]; exact read_elem h i hi')
    cases hp : env.dropPanics xs[i] with
    | true =>
      rw [hp, if_pos rfl] at hd
      rw [Exec.bind_panic hd]
      exact ⟨_, .here hp, rfl⟩
    | false =>
      rw [hp, if_neg (by simp)] at hd
      rw [Exec.bind_ok hd]
      refine (ih (i + 1) _ (by omega) (by exact hw)).mono ?_ ?_ id
      · rintro _ w' ⟨h1, rfl⟩
        refine ⟨?_, by simp⟩
        intro x hx
        rcases List.mem_cons.1 hx with rfl | hx
        · exact hp
        · exact h1 x hx
      · rintro w' ⟨ds, h1, rfl⟩
        exact ⟨_, h1.later hp, by simp⟩

theorem drop_meets (h : v.Represents G c xs) (env : Env (Val T β)) :
    (drop c env v).Meets
      (fun _ v' => (∀ x ∈ xs, env.dropPanics x = false) ∧ v'.drops = v.drops ++ xs ∧ v'.heap.block = none ∧ v'.heap.leaks = 0)
      (fun v' => ∃ ds, StopsAt env.dropPanics xs ds ∧ v'.drops = v.drops ++ ds) False := by
  unfold drop
  rw [Exec.get_bind, Exec.modify_bind]
  have := dropLoop_meets h env xs.length 0 { v with elems := [], elemsCap := 0 } (by omega) rfl
  simp only [List.drop_zero, at_zero] at this
  have hA : (dropLoop c env v.ptr v.align v.elems 0 { v with elems := [], elemsCap := 0 }).Meets
      (fun _ w' => (∀ x ∈ xs, env.dropPanics x = false) ∧ w' = { v with elems := [], elemsCap := 0, drops := v.drops ++ xs })
      (fun v' => ∃ ds, StopsAt env.dropPanics xs ds ∧ v'.drops = v.drops ++ ds) False := by
    refine this.mono (fun _ _ h => h) ?_ id
    rintro w ⟨ds, h1, rfl⟩
    exact ⟨ds, h1, rfl⟩
  refine hA.bind ?_
  rintro _ w ⟨h1, rfl⟩
  rw [Exec.orUb_bind (layoutUnchecked_eq h.al (h.room)), Exec.get_bind]
  by_cases h0 : v.byteCap = 0
  · have hn := h.block
    rw [h0] at hn
    rw [Exec.orUb_bind (show v.heap.deallocate v.ptr ⟨v.byteCap, v.align⟩ = some v.heap by unfold Heap.deallocate; rw [if_pos h0])]
    exact ⟨h1, rfl, hn.none_of_zero, h.leaks⟩
  · rw [Exec.orUb_bind (show v.heap.deallocate v.ptr ⟨v.byteCap, v.align⟩ = some { v.heap with block := none } by
      unfold Heap.deallocate; rw [if_neg h0, if_pos (h.block.fits (by omega))])]
    exact ⟨h1, rfl, rfl, h.leaks⟩

end UVec

namespace AVec
variable {A : ATy} {β : Type} [Inhabited β] {c : Cfg} {v : AVec A β} {xs : List (Val A.ty β)}

theorem dropLoop_meets (hA : A.Fits c) (h : v.Holds c xs) (env : Env (Val A.ty β)) (n : Nat) :
    ∀ (i : Nat) (w : AVec A β), i + n = xs.length → w.heap = v.heap →
    (dropLoop c env v.ptr (v.elems.drop i) (at_ v xs i) w).Meets
      (fun _ w' => (∀ x ∈ xs.drop i, env.dropPanics x = false) ∧ w' = { w with drops := w.drops ++ xs.drop i })
      (fun w' => ∃ ds, StopsAt env.dropPanics (xs.drop i) ds ∧ w' = { w with drops := w.drops ++ ds }) False := by
  have hl := h.length
  induction n with
  | zero =>
    intro i w hi _
    rw [List.drop_eq_nil_of_le (by omega), List.drop_eq_nil_of_le (by omega)]
    refine .of_ok rfl ⟨by simp, by simp⟩
  | succ n ih =>
    intro i w hi hw
    have hi' : i < xs.length := by omega
    have hspan : at_ v xs i ≤ v.heap.span v.ptr := by
      have h1 := h.elem_le i hi'
      have h2 := h.cap
      have h3 := h.span
      unfold at_; omega
    rw [List.drop_eq_getElem_cons (by omega), List.drop_eq_getElem_cons hi', rec_get h hi']
    unfold dropLoop
    simp only [rec_]
    rw [Exec.orUb_bind (sub_at h hi'), Exec.get_bind, Exec.require_bind (by rw [hw]; exact hspan), h.dec_eq (List.getElem_mem hi')]
    have hd := dropInPlace_eq (v := w) (env := env) (x := xs[i]) (by rw [hw]; exact ref_at hA h hi')
      (by rw [hw]; exact read_elem h i hi')
    cases hp : env.dropPanics xs[i] with
    | true =>
      rw [hp, if_pos rfl] at hd
      rw [Exec.bind_panic hd]
      exact ⟨_, .here hp, rfl⟩
    | false =>
      rw [hp, if_neg (by simp)] at hd
      rw [Exec.bind_ok hd, at_succ hi']
      refine (ih (i + 1) _ (by omega) (by exact hw)).mono ?_ ?_ id
      · rintro _ w' ⟨h1, rfl⟩
        refine ⟨?_, by simp⟩
        intro x hx
        rcases List.mem_cons.1 hx with rfl | hx
        · exact hp
        · exact h1 x hx
      · rintro w' ⟨ds, h1, rfl⟩
        exact ⟨_, h1.later hp, by simp⟩

theorem drop_meets (hA : A.Fits c) (h : v.Holds c xs) (env : Env (Val A.ty β)) :
    (drop c env v).Meets
      (fun _ v' => (∀ x ∈ xs, env.dropPanics x = false) ∧ v'.drops = v.drops ++ xs ∧ v'.heap.block = none ∧ v'.heap.leaks = 0)
      (fun v' => ∃ ds, StopsAt env.dropPanics xs ds ∧ v'.drops = v.drops ++ ds) False := by
  unfold drop
  rw [Exec.get_bind, Exec.modify_bind]
  have := dropLoop_meets hA h env xs.length 0 { v with elems := [], elemsCap := 0 } (by omega) rfl
  simp only [List.drop_zero, at_zero] at this
  have hB : (dropLoop c env v.ptr v.elems 0 { v with elems := [], elemsCap := 0 }).Meets
      (fun _ w' => (∀ x ∈ xs, env.dropPanics x = false) ∧ w' = { v with elems := [], elemsCap := 0, drops := v.drops ++ xs })
      (fun v' => ∃ ds, StopsAt env.dropPanics xs ds ∧ v'.drops = v.drops ++ ds) False := by
    refine this.mono (fun _ _ h => h) ?_ id
    rintro w ⟨ds, h1, rfl⟩
    exact ⟨ds, h1, rfl⟩
  refine hB.bind ?_
  rintro _ w ⟨h1, rfl⟩
  rw [Exec.orUb_bind (layoutUnchecked_eq hA.al (VS.max_room hA.al h.capMax)), Exec.get_bind]
  by_cases h0 : v.byteCap = 0
  · have hn := h.block
    rw [h0] at hn
    rw [Exec.orUb_bind (show v.heap.deallocate v.ptr ⟨v.byteCap, A.ALIGN⟩ = some v.heap by unfold Heap.deallocate; rw [if_pos h0])]
    exact ⟨h1, rfl, hn.none_of_zero, h.leaks⟩
  · rw [Exec.orUb_bind (show v.heap.deallocate v.ptr ⟨v.byteCap, A.ALIGN⟩ = some { v.heap with block := none } by
      unfold Heap.deallocate; rw [if_neg h0, if_pos (h.block.fits (by omega))])]
    exact ⟨h1, rfl, rfl, h.leaks⟩

end AVec
end Verif
