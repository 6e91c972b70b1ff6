import Verif.Proofs.IterExact
import Verif.Props.Iter

/-!
# C09–C11, C48 without guard: what every sequence of calls on an iterator returns

The claims are false of some calls (`C09_counterexample_…`, `C10_C11_counterexample_…`, `C48_counterexample_…`). The theorems
here leave no call out: they say which calls are at fault, what these return, and when that happens to be right.
-/

namespace Verif
open ICall
variable {T : UTy} {A : ATy} {β : Type} [Inhabited β] {c : Cfg}

/-- C09, C10 and C48, dynamically aligned elements: every sequence of `next`, `next_back`, `nth` and `nth_back` takes the
elements that a queue takes and reports what is left, without undefined behaviour. The references are right, except that the
calls singled out by `faults` return a reference to the start of the vector. -/
theorem C10_allCalls_unaligned {v : UVec T β} {xs : List (Val T β)} (h : v.Holds c xs) (ks : List ICall) :
    ∃ it, runCalls (ICall.unaligned c v.heap) ks v.iter =
        some (outputs (refTo (unalignedP c T) v) (v.wrongRef c) (specRun ks (List.range xs.length)).1
          (faults ks false (List.range xs.length)), it) ∧
      it.len = (specRun ks (List.range xs.length)).2.length := by
  obtain ⟨it, i, j, h1, h2, h3⟩ := (UVec.iter_worksAll h).run ks v.iter 0 xs.length false (UVec.iter_covers h) (fun _ => rfl)
  rw [Nat.sub_zero, ← List.range_eq_range'] at h1 h2
  refine ⟨it, ?_, by rw [h2, h3.len h]; simp⟩
  rw [h1, outputs_congr (fun i hi => refTo_eq_unaligned h hi) (fun i hi => ?_) ks false (fun a ha => List.mem_range.1 ha)]
  rw [refTo_eq_unaligned h hi]; rfl

/-- The same for statically aligned elements. -/
theorem C10_allCalls_aligned (hA : A.Fits c) (hW : A.Within) {v : AVec A β} {xs : List (Val A.ty β)} (h : v.Holds c xs)
    (ks : List ICall) :
    ∃ it, runCalls (ICall.aligned c v.heap) ks v.iter =
        some (outputs (refTo (alignedP c A) v) (v.wrongRef c) (specRun ks (List.range xs.length)).1
          (faults ks false (List.range xs.length)), it) ∧
      it.len = (specRun ks (List.range xs.length)).2.length := by
  obtain ⟨it, i, j, h1, h2, h3⟩ := (AVec.iter_worksAll hA hW h).run ks v.iter 0 xs.length false (AVec.iter_covers h) (fun _ => rfl)
  rw [Nat.sub_zero, ← List.range_eq_range'] at h1 h2
  refine ⟨it, ?_, by rw [h2, h3.len h]; simp⟩
  rw [h1, outputs_congr (fun i hi => refTo_eq_aligned h hi) (fun i hi => ?_) ks false (fun a ha => List.mem_range.1 ha)]
  rw [refTo_eq_aligned h hi]; rfl

/-! ## When a call at fault happens to be right -/

/-- Dynamically aligned elements: the reference returned by a call at fault is right exactly if the elements before occupy no
memory. -/
theorem C10_wrong_unaligned {v : UVec T β} {xs : List (Val T β)} (h : v.Holds c xs) {i : Nat} (hi : i < xs.length) :
    v.wrongRef c i = refTo (unalignedP c T) v i ↔ totalWidth (padTo v.align) (xs.take i) = 0 := by
  unfold UVec.wrongRef
  rw [← refTo_eq_unaligned h hi, UVec.get_at h hi]
  simp [UVec.at_, eq_comm]

/-- Statically aligned elements. -/
theorem C10_wrong_aligned (hA : A.Fits c) {v : AVec A β} {xs : List (Val A.ty β)} (h : v.Holds c xs) {i : Nat}
    (hi : i < xs.length) : v.wrongRef c i = refTo (alignedP c A) v i ↔ totalWidth id (xs.take i) = 0 := by
  unfold AVec.wrongRef
  rw [← refTo_eq_aligned h hi, AVec.get_at hA h hi]
  simp only [Option.map_some, Option.some.injEq, Ref.mk.injEq, true_and]
  constructor
  · intro h1; exact h1.1.symm
  · intro h1
    have h2 : AVec.at_ v xs i = 0 := h1
    rw [h2, Nat.zero_add]
    exact ⟨rfl, h.keeps _ (List.getElem_mem hi)⟩

/-! ## `nth`, `last` and `nth_back` after some calls of `next` -/

theorem faults_next (a : Nat) (adv : Bool) (l : List Nat) (ks : List ICall) :
    faults (List.replicate a .next ++ ks) adv l =
      List.replicate a false ++ faults ks (adv || decide (0 < a)) (specRun (List.replicate a .next) l).2 := by
  induction a generalizing adv l with
  | zero => simp [specRun]
  | succ a ih => simp [List.replicate_succ, faults, specRun, fault, movesFront, ih]

theorem outputs_next {R : Type} (right wrong : Nat → Option R) (n a : Nat) (o : Option Nat) (f : Bool) :
    outputs right wrong ((List.range a).map (fun i => if i < n then some i else none) ++ [o]) (List.replicate a false ++ [f]) =
      (List.range a).map (fun i => if i < n then right i else none) ++ [o.bind (if f then wrong else right)] := by
  unfold outputs
  rw [List.zipWith_append (by simp)]
  congr 1
  apply List.ext_getElem (by simp)
  intro k h1 h2
  simp only [List.getElem_zipWith, List.getElem_map, List.getElem_range, List.getElem_replicate, Bool.false_eq_true, if_false]
  split <;> rfl

theorem range_next (a len : Nat) :
    (specRun (List.replicate a .next) (List.range len)).2 = List.range' a (len - a) := by
  have h3 := specRun_next a 0 len
  rw [Nat.sub_zero, ← List.range_eq_range', ← List.range_eq_range', Nat.zero_add] at h3
  rw [h3]

omit [Inhabited β] in
theorem refTo_next {S : Type} (P : Provider S T β) (v : S) {n : Nat} (hn : P.len v = n) (a : Nat) :
    (List.range a).map (fun i => if i < n then refTo P v i else none) = (List.range a).map (refTo P v) := by
  apply List.map_congr_left
  intro i _
  split
  · rfl
  · rw [refTo_out P v (by omega)]

/-- C09, dynamically aligned elements: after `a` calls of `next`, `nth(n)` returns the reference that `get(a + n)` returns, but
for `n = 0` and `a > 0` that reference moved to the start of the vector. -/
theorem C09_nth_unaligned {v : UVec T β} {xs : List (Val T β)} (h : v.Holds c xs) (a n : Nat) :
    ∃ it, runCalls (ICall.unaligned c v.heap) (List.replicate a .next ++ [.nth n]) v.iter =
      some ((List.range a).map (refTo (unalignedP c T) v) ++
        [if n = 0 ∧ 0 < a then v.wrongRef c a else refTo (unalignedP c T) v (a + n)], it) := by
  obtain ⟨it, h1, _⟩ := C10_allCalls_unaligned h (List.replicate a .next ++ [.nth n])
  refine ⟨it, ?_⟩
  rw [h1, specRun_nth, faults_next, faults, faults, outputs_next, refTo_next _ _ h.len_eq]
  congr 4
  by_cases hf : n = 0 ∧ 0 < a
  · obtain ⟨rfl, ha⟩ := hf
    have hf : ∀ l, (nth 0).fault (false || decide (0 < a)) l = true := by simp [fault, ha]
    rw [hf, if_pos (c := (0 = 0 ∧ 0 < a)) ⟨rfl, ha⟩]
    unfold UVec.wrongRef
    by_cases hl : a < xs.length
    · rw [if_pos (c := a + 0 < _) hl]; rfl
    · rw [if_neg (c := a + 0 < _) hl, refTo_out _ _ (by show v.len ≤ a; rw [h.len_eq]; omega)]; rfl
  · have hf' : ∀ l, (nth n).fault (false || decide (0 < a)) l = false := by simp [fault]; omega
    rw [hf', if_neg hf]
    exact bind_refTo (unalignedP c T) v h.len_eq _

/-- C09, statically aligned elements. -/
theorem C09_nth_aligned (hA : A.Fits c) (hW : A.Within) {v : AVec A β} {xs : List (Val A.ty β)} (h : v.Holds c xs) (a n : Nat) :
    ∃ it, runCalls (ICall.aligned c v.heap) (List.replicate a .next ++ [.nth n]) v.iter =
      some ((List.range a).map (refTo (alignedP c A) v) ++
        [if n = 0 ∧ 0 < a then v.wrongRef c a else refTo (alignedP c A) v (a + n)], it) := by
  obtain ⟨it, h1, _⟩ := C10_allCalls_aligned hA hW h (List.replicate a .next ++ [.nth n])
  refine ⟨it, ?_⟩
  rw [h1, specRun_nth, faults_next, faults, faults, outputs_next, refTo_next _ _ h.len_eq]
  congr 4
  by_cases hf : n = 0 ∧ 0 < a
  · obtain ⟨rfl, ha⟩ := hf
    have hf : ∀ l, (nth 0).fault (false || decide (0 < a)) l = true := by simp [fault, ha]
    rw [hf, if_pos (c := (0 = 0 ∧ 0 < a)) ⟨rfl, ha⟩]
    unfold AVec.wrongRef
    by_cases hl : a < xs.length
    · rw [if_pos (c := a + 0 < _) hl]; rfl
    · rw [if_neg (c := a + 0 < _) hl, refTo_out _ _ (by show v.len ≤ a; rw [h.len_eq]; omega)]; rfl
  · have hf' : ∀ l, (nth n).fault (false || decide (0 < a)) l = false := by simp [fault]; omega
    rw [hf', if_neg hf]
    exact bind_refTo (alignedP c A) v h.len_eq _

/-- C09, dynamically aligned elements: after `a` calls of `next`, `last` returns the reference to the final element if one is
left, moved to the start of the vector if that is the sole one left and `a > 0`. -/
theorem C09_last_unaligned {v : UVec T β} {xs : List (Val T β)} (h : v.Holds c xs) (a : Nat) :
    ∃ it, (runCalls (ICall.unaligned c v.heap) (List.replicate a .next) v.iter).map Prod.snd = some it ∧
      it.last c v.heap = some (if a < xs.length then
        if 0 < a ∧ a + 1 = xs.length then v.wrongRef c (xs.length - 1) else refTo (unalignedP c T) v (xs.length - 1)
        else none) := by
  by_cases hg : 0 < a ∧ a + 1 = xs.length
  · obtain ⟨ha, hl⟩ := hg
    obtain ⟨it, i, j, h1, h2, h3⟩ := (UVec.iter_worksAll h).run (List.replicate a .next) v.iter 0 xs.length false
      (UVec.iter_covers h) (fun _ => rfl)
    rw [Nat.sub_zero, ← List.range_eq_range', range_next, ← hl, show a + 1 - a = 0 + 1 by omega, List.range'_succ] at h2
    have h4 := congrArg List.length h2
    simp only [List.length_cons, List.length_range'] at h4
    rw [show j - i = 0 + 1 by omega, List.range'_succ] at h2
    obtain ⟨rfl, _⟩ := List.cons.inj h2
    refine ⟨it, by rw [h1]; rfl, ?_⟩
    rw [if_pos (by omega), if_pos ⟨ha, hl⟩, show xs.length - 1 = a by omega]
    rw [show j = a + 1 by omega] at h3
    rw [h3.last_sole h]
    unfold UVec.wrongRef
    rw [refTo_eq_unaligned h (by omega)]
  · obtain ⟨it, h1, h2⟩ := C09_last_unaligned_partial h a (by omega)
    exact ⟨it, h1, by rw [h2, if_neg hg]⟩

/-- C09, statically aligned elements. -/
theorem C09_last_aligned (hA : A.Fits c) (hW : A.Within) {v : AVec A β} {xs : List (Val A.ty β)} (h : v.Holds c xs) (a : Nat) :
    ∃ it, (runCalls (ICall.aligned c v.heap) (List.replicate a .next) v.iter).map Prod.snd = some it ∧
      it.last c v.heap = some (if a < xs.length then
        if 0 < a ∧ a + 1 = xs.length then v.wrongRef c (xs.length - 1) else refTo (alignedP c A) v (xs.length - 1)
        else none) := by
  by_cases hg : 0 < a ∧ a + 1 = xs.length
  · obtain ⟨ha, hl⟩ := hg
    obtain ⟨it, i, j, h1, h2, h3⟩ := (AVec.iter_worksAll hA hW h).run (List.replicate a .next) v.iter 0 xs.length false
      (AVec.iter_covers h) (fun _ => rfl)
    rw [Nat.sub_zero, ← List.range_eq_range', range_next, ← hl, show a + 1 - a = 0 + 1 by omega, List.range'_succ] at h2
    have h4 := congrArg List.length h2
    simp only [List.length_cons, List.length_range'] at h4
    rw [show j - i = 0 + 1 by omega, List.range'_succ] at h2
    obtain ⟨rfl, _⟩ := List.cons.inj h2
    refine ⟨it, by rw [h1]; rfl, ?_⟩
    rw [if_pos (by omega), if_pos ⟨ha, hl⟩, show xs.length - 1 = a by omega]
    rw [show j = a + 1 by omega] at h3
    rw [h3.last_sole hA hW h]
    unfold AVec.wrongRef
    rw [refTo_eq_aligned h (by omega)]
  · obtain ⟨it, h1, h2⟩ := C09_last_aligned_partial hA h a (by omega)
    exact ⟨it, h1, by rw [h2, if_neg hg]⟩

/-- C48, dynamically aligned elements: after `a` calls of `next`, `nth_back(n)` returns the reference to the element `n` places
before the end if that is left, moved to the start of the vector if it is the sole one left then and `a > 0`. -/
theorem C48_nthBack_unaligned {v : UVec T β} {xs : List (Val T β)} (h : v.Holds c xs) (a n : Nat) :
    ∃ it, runCalls (ICall.unaligned c v.heap) (List.replicate a .next ++ [.nthBack n]) v.iter =
      some ((List.range a).map (refTo (unalignedP c T) v) ++
        [if a + n < xs.length then
          if 0 < a ∧ a + n + 1 = xs.length then v.wrongRef c (xs.length - 1 - n)
          else refTo (unalignedP c T) v (xs.length - 1 - n)
        else none], it) := by
  obtain ⟨it, h1, _⟩ := C10_allCalls_unaligned h (List.replicate a .next ++ [.nthBack n])
  refine ⟨it, ?_⟩
  rw [h1, specRun_nthBack, faults_next, faults, faults, outputs_next, refTo_next _ _ h.len_eq, range_next]
  congr 4
  by_cases hl : a + n < xs.length
  · rw [if_pos hl, if_pos hl, Option.bind_some]
    by_cases hf : 0 < a ∧ a + n + 1 = xs.length
    · rw [if_pos hf, if_pos (by simp [fault, hf.1]; omega)]
    · rw [if_neg hf, if_neg (by simp [fault]; omega)]
  · rw [if_neg hl, if_neg hl]; rfl

/-- C48, statically aligned elements. -/
theorem C48_nthBack_aligned (hA : A.Fits c) (hW : A.Within) {v : AVec A β} {xs : List (Val A.ty β)} (h : v.Holds c xs)
    (a n : Nat) :
    ∃ it, runCalls (ICall.aligned c v.heap) (List.replicate a .next ++ [.nthBack n]) v.iter =
      some ((List.range a).map (refTo (alignedP c A) v) ++
        [if a + n < xs.length then
          if 0 < a ∧ a + n + 1 = xs.length then v.wrongRef c (xs.length - 1 - n)
          else refTo (alignedP c A) v (xs.length - 1 - n)
        else none], it) := by
  obtain ⟨it, h1, _⟩ := C10_allCalls_aligned hA hW h (List.replicate a .next ++ [.nthBack n])
  refine ⟨it, ?_⟩
  rw [h1, specRun_nthBack, faults_next, faults, faults, outputs_next, refTo_next _ _ h.len_eq, range_next]
  congr 4
  by_cases hl : a + n < xs.length
  · rw [if_pos hl, if_pos hl, Option.bind_some]
    by_cases hf : 0 < a ∧ a + n + 1 = xs.length
    · rw [if_pos hf, if_pos (by simp [fault, hf.1]; omega)]
    · rw [if_neg hf, if_neg (by simp [fault]; omega)]
  · rw [if_neg hl, if_neg hl]; rfl

/-! ## C11: overlap -/

/-- C11, dynamically aligned elements: after a call of `next`, a call at fault always returns a reference that overlaps the one
returned first, unless one of the two elements is empty. -/
theorem C11_overlap_unaligned {v : UVec T β} {xs : List (Val T β)} (h : v.Holds c xs) {i : Nat} (h0 : 0 < xs.length)
    (hi : i < xs.length) :
    ∃ r s, refTo (unalignedP c T) v 0 = some r ∧ v.wrongRef c i = some s ∧
      (r.Disjoint s ↔ xs[0].size = 0 ∨ xs[i].size = 0) := by
  refine ⟨⟨v.ptr, 0, xs[0].md⟩, ⟨v.ptr, 0, xs[i].md⟩, ?_, ?_, ?_⟩
  · rw [← refTo_eq_unaligned h h0, UVec.get_at h h0, UVec.at_zero]
  · unfold UVec.wrongRef
    rw [← refTo_eq_unaligned h hi, UVec.get_at h hi]; rfl
  · show 0 + xs[0].size ≤ 0 ∨ 0 + xs[i].size ≤ 0 ↔ _
    omega

/-- C11, slices (and so on): the same, where the reference at fault covers everything from the start of the vector. -/
theorem C11_overlap_aligned (hA : A.Fits c) {v : AVec A β} {xs : List (Val A.ty β)} (h : v.Holds c xs) {i : Nat}
    (h0 : 0 < xs.length) (hi : i < xs.length) :
    ∃ r s, refTo (alignedP c A) v 0 = some r ∧ v.wrongRef c i = some s ∧
      (r.Disjoint s ↔ xs[0].size = 0 ∨ A.ty.sizeOf (A.dec (A.enc xs[i].md) (totalWidth id (xs.take (i + 1)))) = 0) := by
  refine ⟨⟨v.ptr, 0, xs[0].md⟩, ⟨v.ptr, 0, A.dec (A.enc xs[i].md) (totalWidth id (xs.take (i + 1)))⟩, ?_, ?_, ?_⟩
  · rw [← refTo_eq_aligned h h0, AVec.get_at hA h h0, AVec.at_zero]
  · unfold AVec.wrongRef
    rw [← refTo_eq_aligned h hi, AVec.get_at hA h hi]
    have := AVec.at_succ (v := v) hi
    show some (Ref.mk v.ptr 0 (A.dec (A.enc xs[i].md) (AVec.at_ v xs i + xs[i].size))) = _
    rw [this]; rfl
  · simp only [Ref.Disjoint, Nat.zero_add, Nat.le_zero]
    exact Iff.rfl

section
open Sample

/-- The hypotheses hold of slices, and the faults are not empty. -/
example : Bytes.Within := .slice 1 1

example : faults [.next, .nth 0, .nextBack, .nextBack] false (List.range 4) = [false, true, false, true] := rfl

example : (runCalls (ICall.aligned c64 vecA.heap) [.next, .nth 0, .nextBack] vecA.iter).map
    (fun p => p.1.map (Option.map (fun r => (r.off, (r.read vecA.heap).bytes)))) =
    some [some (0, [1]), some (0, [1, 2, 3]), some (0, [1, 2, 3, 4, 5, 6])] := rfl

example : (vecA.wrongRef c64 1).map (fun r => (r.off, (r.read vecA.heap).bytes)) = some (0, [1, 2, 3]) := rfl

end
end Verif
