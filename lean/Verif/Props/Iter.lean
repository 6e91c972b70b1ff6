import Verif.Proofs.Iter
import Verif.Props.Access

/-!
# C08–C11, C48: iterators

`iter` and `iter_mut` run the same code, so one model serves both. The outputs of an iterator are compared with the references
that `get` returns (C06 says what those are).
-/

namespace Verif
open ICall
variable {T : UTy} {A : ATy} {β : Type} [Inhabited β] {c : Cfg}

/-! ## Any sequence of calls -/

theorem refTo_eq_unaligned {G : Prop} {v : UVec T β} {xs : List (Val T β)} (h : v.Represents G c xs) {i : Nat} (hi : i < xs.length) :
    v.getUnchecked c i = refTo (unalignedP c T) v i := by
  unfold refTo Api.get
  rw [if_pos (by show i < v.len; rw [h.len_eq]; exact hi)]
  show _ = ((v.getUnchecked c i).map some).join
  cases v.getUnchecked c i <;> rfl

theorem refTo_eq_aligned {v : AVec A β} {xs : List (Val A.ty β)} (h : v.Holds c xs) {i : Nat} (hi : i < xs.length) :
    v.getUnchecked c i = refTo (alignedP c A) v i := by
  unfold refTo Api.get
  rw [if_pos (by show i < v.len; rw [h.len_eq]; exact hi)]
  show _ = ((v.getUnchecked c i).map some).join
  cases v.getUnchecked c i <;> rfl

/-- C09/C10, dynamically aligned elements: any sequence of `next`, `next_back`, `nth` and `nth_back` that satisfies the guard `OkRun`
returns what the queue of indices says, and then reports what is left. Missing from the full claim: the calls outside the
guard, see the counterexamples. -/
theorem C10_calls_unaligned_partial {G : Prop} {v : UVec T β} {xs : List (Val T β)} (h : v.Represents G c xs) (ks : List ICall)
    (hk : OkRun ks false (List.range xs.length)) :
    ∃ it, runCalls (ICall.unaligned c v.heap) ks v.iter =
        some ((specRun ks (List.range xs.length)).1.map (·.bind (refTo (unalignedP c T) v)), it) ∧
      it.len = (specRun ks (List.range xs.length)).2.length := by
  rw [List.range_eq_range'] at hk ⊢
  have w := (UVec.iter_works h).congr (n := xs.length) (fun hc => hc.le) (fun i hi => refTo_eq_unaligned h hi)
  obtain ⟨it, i, j, h1, h2, h3⟩ := w.run ks v.iter 0 xs.length false (UVec.iter_covers h) (fun _ => rfl) hk
  rw [Nat.sub_zero] at h1 h2
  exact ⟨it, h1, by rw [h2, h3.len h]; simp⟩

/-- C09/C10, statically aligned elements. -/
theorem C10_calls_aligned_partial (hA : A.Fits c) {v : AVec A β} {xs : List (Val A.ty β)} (h : v.Holds c xs)
    (ks : List ICall) (hk : OkRun ks false (List.range xs.length)) :
    ∃ it, runCalls (ICall.aligned c v.heap) ks v.iter =
        some ((specRun ks (List.range xs.length)).1.map (·.bind (refTo (alignedP c A) v)), it) ∧
      it.len = (specRun ks (List.range xs.length)).2.length := by
  rw [List.range_eq_range'] at hk ⊢
  have w := (AVec.iter_works hA h).congr (n := xs.length) (fun hc => hc.le) (fun i hi => refTo_eq_aligned h hi)
  obtain ⟨it, i, j, h1, h2, h3⟩ := w.run ks v.iter 0 xs.length false (AVec.iter_covers h) (fun _ => rfl) hk
  rw [Nat.sub_zero] at h1 h2
  exact ⟨it, h1, by rw [h2, h3.len h]; simp⟩

omit [Inhabited β] in
theorem refTo_out {S : Type} (P : Provider S T β) (v : S) {i : Nat} (hi : P.len v ≤ i) : refTo P v i = none := by
  unfold refTo Api.get
  rw [if_neg (by omega)]; rfl

omit [Inhabited β] in
theorem bind_refTo {S : Type} (P : Provider S T β) (v : S) {n : Nat} (hn : P.len v = n) (i : Nat) :
    (if i < n then some i else none).bind (refTo P v) = refTo P v i := by
  split
  · rfl
  · rw [refTo_out P v (by omega)]; rfl

/-! ## C08 -/

/-- C08, dynamically aligned elements: `k` calls of `next` return the references that `get(0)`, …, `get(k - 1)` return (so
`None` from the length on), and then `len - k` elements are reported to be left. -/
theorem C08_next_unaligned {G : Prop} {v : UVec T β} {xs : List (Val T β)} (h : v.Represents G c xs) (k : Nat) :
    ∃ it, runCalls (ICall.unaligned c v.heap) (List.replicate k .next) v.iter =
        some ((List.range k).map (refTo (unalignedP c T) v), it) ∧ it.len = xs.length - k := by
  obtain ⟨it, h1, h2⟩ := C10_calls_unaligned_partial h _ (okRun_next k false _)
  have h3 := specRun_next k 0 xs.length
  rw [Nat.sub_zero, ← List.range_eq_range', ← List.range_eq_range', Nat.zero_add] at h3
  rw [h3] at h1 h2
  refine ⟨it, ?_, by simpa using h2⟩
  rw [h1, List.map_map]
  congr 3
  funext i
  exact bind_refTo _ _ h.len_eq i

/-- C08, statically aligned elements. -/
theorem C08_next_aligned (hA : A.Fits c) {v : AVec A β} {xs : List (Val A.ty β)} (h : v.Holds c xs) (k : Nat) :
    ∃ it, runCalls (ICall.aligned c v.heap) (List.replicate k .next) v.iter =
        some ((List.range k).map (refTo (alignedP c A) v), it) ∧ it.len = xs.length - k := by
  obtain ⟨it, h1, h2⟩ := C10_calls_aligned_partial hA h _ (okRun_next k false _)
  have h3 := specRun_next k 0 xs.length
  rw [Nat.sub_zero, ← List.range_eq_range', ← List.range_eq_range', Nat.zero_add] at h3
  rw [h3] at h1 h2
  refine ⟨it, ?_, by simpa using h2⟩
  rw [h1, List.map_map]
  congr 3
  funext i
  exact bind_refTo _ _ h.len_eq i

/-! ## C09 -/

theorem okRun_nth {a n len : Nat} (hg : a = 0 ∨ n ≠ 0 ∨ len ≤ a) :
    OkRun (List.replicate a .next ++ [.nth n]) false (List.range len) := by
  rcases hg with rfl | hg | hg
  · exact ⟨.inl rfl, trivial⟩
  · exact okRun_append (okRun_next _ _ _) (fun _ => ⟨.inr (.inl hg), trivial⟩)
  · refine okRun_append (okRun_next _ _ _) (fun _ => ⟨.inr (.inr ?_), trivial⟩)
    have h3 := specRun_next a 0 len
    rw [Nat.sub_zero, ← List.range_eq_range', Nat.zero_add] at h3
    rw [h3, show len - a = 0 by omega]; rfl

theorem specRun_append (ks ls : List ICall) (l : List Nat) :
    (specRun (ks ++ ls) l).1 = (specRun ks l).1 ++ (specRun ls (specRun ks l).2).1 := by
  induction ks generalizing l with
  | nil => rfl
  | cons k ks ih => simp [specRun, ih]

theorem specRun_nth (a n len : Nat) : (specRun (List.replicate a .next ++ [.nth n]) (List.range len)).1 =
    (List.range a).map (fun i => if i < len then some i else none) ++ [if a + n < len then some (a + n) else none] := by
  have h3 := specRun_next a 0 len
  rw [Nat.sub_zero, ← List.range_eq_range', ← List.range_eq_range', Nat.zero_add] at h3
  rw [specRun_append, h3]
  simp only [specRun, spec_nth]

/-- C09, dynamically aligned elements: after `a` calls of `next`, `nth(n)` returns the reference that `get(a + n)` returns.
Missing from the full claim: `n = 0` with `0 < a < len`. -/
theorem C09_nth_unaligned_partial {G : Prop} {v : UVec T β} {xs : List (Val T β)} (h : v.Represents G c xs) (a n : Nat)
    (hg : a = 0 ∨ n ≠ 0 ∨ xs.length ≤ a) :
    ∃ it, runCalls (ICall.unaligned c v.heap) (List.replicate a .next ++ [.nth n]) v.iter =
      some ((List.range a).map (refTo (unalignedP c T) v) ++ [refTo (unalignedP c T) v (a + n)], it) := by
  obtain ⟨it, h1, _⟩ := C10_calls_unaligned_partial h _ (okRun_nth hg)
  refine ⟨it, ?_⟩
  rw [h1, specRun_nth, List.map_append, List.map_map, List.map_singleton, bind_refTo _ _ h.len_eq]
  congr 4
  funext i
  exact bind_refTo _ _ h.len_eq i

/-- C09, statically aligned elements. -/
theorem C09_nth_aligned_partial (hA : A.Fits c) {v : AVec A β} {xs : List (Val A.ty β)} (h : v.Holds c xs) (a n : Nat)
    (hg : a = 0 ∨ n ≠ 0 ∨ xs.length ≤ a) :
    ∃ it, runCalls (ICall.aligned c v.heap) (List.replicate a .next ++ [.nth n]) v.iter =
      some ((List.range a).map (refTo (alignedP c A) v) ++ [refTo (alignedP c A) v (a + n)], it) := by
  obtain ⟨it, h1, _⟩ := C10_calls_aligned_partial hA h _ (okRun_nth hg)
  refine ⟨it, ?_⟩
  rw [h1, specRun_nth, List.map_append, List.map_map, List.map_singleton, bind_refTo _ _ h.len_eq]
  congr 4
  funext i
  exact bind_refTo _ _ h.len_eq i

/-- C09, dynamically aligned elements: after `a` calls of `next`, `last` returns the final element if one is left. Missing from
the full claim: `a = len - 1 > 0`, i.e. exactly one element is left after the front has moved. -/
theorem C09_last_unaligned_partial {G : Prop} {v : UVec T β} {xs : List (Val T β)} (h : v.Represents G c xs) (a : Nat)
    (hg : a = 0 ∨ a + 1 ≠ xs.length) :
    ∃ it, (runCalls (ICall.unaligned c v.heap) (List.replicate a .next) v.iter).map Prod.snd = some it ∧
      it.last c v.heap = some (if a < xs.length then refTo (unalignedP c T) v (xs.length - 1) else none) := by
  have w := UVec.iter_works h
  have ho := okRun_next a false (List.range' 0 (xs.length - 0))
  obtain ⟨it, i, j, h1, h2, h3⟩ := w.run _ v.iter 0 xs.length false (UVec.iter_covers h) (fun _ => rfl) ho
  rw [specRun_next, Nat.zero_add] at h2
  refine ⟨it, by rw [h1]; rfl, ?_⟩
  have hl := congrArg List.length h2
  simp only [List.length_range'] at hl
  have hj := h3.le
  by_cases ha : a < xs.length
  · obtain ⟨m, hm⟩ : ∃ m, xs.length - a = m + 1 := ⟨xs.length - a - 1, by omega⟩
    have hm' : j - i = m + 1 := by omega
    rw [hm, hm', List.range'_succ, List.range'_succ] at h2
    have hia : a = i := (List.cons.inj h2).1
    rw [h3.last h (by omega), if_pos (by omega), if_pos ha, show j = xs.length by omega, refTo_eq_unaligned h (by omega)]
  · rw [if_neg ha, h3.last h (by omega), if_neg (by omega)]

/-- C09, statically aligned elements. -/
theorem C09_last_aligned_partial (hA : A.Fits c) {v : AVec A β} {xs : List (Val A.ty β)} (h : v.Holds c xs) (a : Nat)
    (hg : a = 0 ∨ a + 1 ≠ xs.length) :
    ∃ it, (runCalls (ICall.aligned c v.heap) (List.replicate a .next) v.iter).map Prod.snd = some it ∧
      it.last c v.heap = some (if a < xs.length then refTo (alignedP c A) v (xs.length - 1) else none) := by
  have w := AVec.iter_works hA h
  have ho := okRun_next a false (List.range' 0 (xs.length - 0))
  obtain ⟨it, i, j, h1, h2, h3⟩ := w.run _ v.iter 0 xs.length false (AVec.iter_covers h) (fun _ => rfl) ho
  rw [specRun_next, Nat.zero_add] at h2
  refine ⟨it, by rw [h1]; rfl, ?_⟩
  have hl := congrArg List.length h2
  simp only [List.length_range'] at hl
  have hj := h3.le
  by_cases ha : a < xs.length
  · obtain ⟨m, hm⟩ : ∃ m, xs.length - a = m + 1 := ⟨xs.length - a - 1, by omega⟩
    have hm' : j - i = m + 1 := by omega
    rw [hm, hm', List.range'_succ, List.range'_succ] at h2
    have hia : a = i := (List.cons.inj h2).1
    rw [h3.last hA h (by omega), if_pos (by omega), if_pos ha, show j = xs.length by omega, refTo_eq_aligned h (by omega)]
  · rw [if_neg ha, h3.last hA h (by omega), if_neg (by omega)]

/-! ## C10 -/

/-- C10: for calls of `next` and `next_back` only, the indices that come out in front, those left, and those that come out at
the back, reversed, make up all the indices in order. -/
theorem C10_split (ks : List ICall) (hk : ∀ k ∈ ks, k = .next ∨ k = .nextBack) (n : Nat) :
    fronts ks (specRun ks (List.range n)).1 ++ (specRun ks (List.range n)).2 ++
      (backs ks (specRun ks (List.range n)).1).reverse = List.range n := specRun_split ks hk _

/-- C10, dynamically aligned elements: `iter().rev()` returns the elements in reverse order. -/
theorem C10_rev_unaligned {G : Prop} {v : UVec T β} {xs : List (Val T β)} (h : v.Represents G c xs) :
    ∃ it, runCalls (ICall.unaligned c v.heap) (List.replicate xs.length .nextBack) v.iter =
        some (((List.range xs.length).map (refTo (unalignedP c T) v)).reverse, it) ∧
      it.nextBack c v.heap = some (none, it) := by
  have w := UVec.iter_works h
  obtain ⟨it, i, j, h1, h2, h3⟩ := w.run _ v.iter 0 xs.length false (UVec.iter_covers h) (fun _ => rfl)
    (okRun_back xs.length _)
  rw [Nat.sub_zero, ← List.range_eq_range', specRun_back, Nat.sub_self] at h2
  rw [Nat.sub_zero, ← List.range_eq_range', specRun_back] at h1
  have hl := congrArg List.length h2
  simp at hl
  refine ⟨it, ?_, w.back_ge h3 (by omega)⟩
  rw [h1, List.map_map, ← List.map_reverse]
  congr 2
  apply List.ext_getElem (by simp)
  intro k hk1 hk2
  simp at hk1
  simp only [List.getElem_map, List.getElem_range, List.getElem_reverse, List.length_range, Function.comp, if_pos hk1,
    Option.bind_some]
  exact refTo_eq_unaligned h (by omega)

/-- C10, statically aligned elements. -/
theorem C10_rev_aligned (hA : A.Fits c) {v : AVec A β} {xs : List (Val A.ty β)} (h : v.Holds c xs) :
    ∃ it, runCalls (ICall.aligned c v.heap) (List.replicate xs.length .nextBack) v.iter =
        some (((List.range xs.length).map (refTo (alignedP c A) v)).reverse, it) ∧
      it.nextBack c v.heap = some (none, it) := by
  have w := AVec.iter_works hA h
  obtain ⟨it, i, j, h1, h2, h3⟩ := w.run _ v.iter 0 xs.length false (AVec.iter_covers h) (fun _ => rfl)
    (okRun_back xs.length _)
  rw [Nat.sub_zero, ← List.range_eq_range', specRun_back, Nat.sub_self] at h2
  rw [Nat.sub_zero, ← List.range_eq_range', specRun_back] at h1
  have hl := congrArg List.length h2
  simp at hl
  refine ⟨it, ?_, w.back_ge h3 (by omega)⟩
  rw [h1, List.map_map, ← List.map_reverse]
  congr 2
  apply List.ext_getElem (by simp)
  intro k hk1 hk2
  simp at hk1
  simp only [List.getElem_map, List.getElem_range, List.getElem_reverse, List.length_range, Function.comp, if_pos hk1,
    Option.bind_some]
  exact refTo_eq_aligned h (by omega)

/-! ## C48 -/

/-- Calls at the back only are all `Ok` on a fresh iterator. -/
theorem okRun_backwards {ks : List ICall} (hk : ∀ k ∈ ks, k.movesFront = false) (l : List Nat) : OkRun ks false l := by
  induction ks generalizing l with
  | nil => trivial
  | cons k ks ih =>
    have h1 := hk k List.mem_cons_self
    refine ⟨?_, ?_⟩
    · cases k with
      | next => trivial
      | nextBack => exact .inl rfl
      | nth n => exact .inl rfl
      | nthBack n => exact .inl rfl
    · rw [h1, Bool.or_self]
      exact ih (fun k hm => hk k (List.mem_cons_of_mem _ hm)) _

theorem okRun_nthBack {a n len : Nat} (hg : a = 0 ∨ a + n + 1 < len ∨ len ≤ a) :
    OkRun (List.replicate a .next ++ [.nthBack n]) false (List.range len) := by
  have h3 := specRun_next a 0 len
  rw [Nat.sub_zero, ← List.range_eq_range', Nat.zero_add] at h3
  rcases hg with rfl | hg | hg
  · exact ⟨.inl rfl, trivial⟩
  · refine okRun_append (okRun_next _ _ _) (fun _ => ⟨.inr (.inl ?_), trivial⟩)
    rw [h3]; simp; omega
  · refine okRun_append (okRun_next _ _ _) (fun _ => ⟨.inr (.inr ?_), trivial⟩)
    rw [h3, show len - a = 0 by omega]; rfl

theorem specRun_nthBack (a n len : Nat) : (specRun (List.replicate a .next ++ [.nthBack n]) (List.range len)).1 =
    (List.range a).map (fun i => if i < len then some i else none) ++ [if a + n < len then some (len - 1 - n) else none] := by
  have h3 := specRun_next a 0 len
  rw [Nat.sub_zero, ← List.range_eq_range', ← List.range_eq_range', Nat.zero_add] at h3
  rw [specRun_append, h3]
  simp only [specRun, spec_nthBack]
  rw [show len - n - 1 = len - 1 - n by omega]

/-- C48, dynamically aligned elements: on a fresh iterator, any sequence of `next_back` and `nth_back` returns what the queue
of indices says (so `iter().rev()` is right for `next` and `nth`). -/
theorem C48_backwards_unaligned {G : Prop} {v : UVec T β} {xs : List (Val T β)} (h : v.Represents G c xs) (ks : List ICall)
    (hk : ∀ k ∈ ks, k.movesFront = false) :
    ∃ it, runCalls (ICall.unaligned c v.heap) ks v.iter =
        some ((specRun ks (List.range xs.length)).1.map (·.bind (refTo (unalignedP c T) v)), it) ∧
      it.len = (specRun ks (List.range xs.length)).2.length :=
  C10_calls_unaligned_partial h ks (okRun_backwards hk _)

/-- C48, statically aligned elements. -/
theorem C48_backwards_aligned (hA : A.Fits c) {v : AVec A β} {xs : List (Val A.ty β)} (h : v.Holds c xs) (ks : List ICall)
    (hk : ∀ k ∈ ks, k.movesFront = false) :
    ∃ it, runCalls (ICall.aligned c v.heap) ks v.iter =
        some ((specRun ks (List.range xs.length)).1.map (·.bind (refTo (alignedP c A) v)), it) ∧
      it.len = (specRun ks (List.range xs.length)).2.length :=
  C10_calls_aligned_partial hA h ks (okRun_backwards hk _)

/-- C48, dynamically aligned elements: after `a` calls of `next`, `nth_back(n)` returns the reference that `get(len - 1 - n)`
returns, and nothing if that element or one behind it has been taken in front. Missing from the full claim: the calls that
take the sole element left after the front has moved. -/
theorem C48_nthBack_unaligned_partial {G : Prop} {v : UVec T β} {xs : List (Val T β)} (h : v.Represents G c xs) (a n : Nat)
    (hg : a = 0 ∨ a + n + 1 < xs.length ∨ xs.length ≤ a) :
    ∃ it, runCalls (ICall.unaligned c v.heap) (List.replicate a .next ++ [.nthBack n]) v.iter =
      some ((List.range a).map (refTo (unalignedP c T) v) ++
        [if a + n < xs.length then refTo (unalignedP c T) v (xs.length - 1 - n) else none], it) := by
  obtain ⟨it, h1, _⟩ := C10_calls_unaligned_partial h _ (okRun_nthBack hg)
  refine ⟨it, ?_⟩
  rw [h1, specRun_nthBack, List.map_append, List.map_map, List.map_singleton]
  congr 3
  · congr 1
    funext i
    exact bind_refTo _ _ h.len_eq i
  · split <;> rfl

/-- C48, statically aligned elements. -/
theorem C48_nthBack_aligned_partial (hA : A.Fits c) {v : AVec A β} {xs : List (Val A.ty β)} (h : v.Holds c xs) (a n : Nat)
    (hg : a = 0 ∨ a + n + 1 < xs.length ∨ xs.length ≤ a) :
    ∃ it, runCalls (ICall.aligned c v.heap) (List.replicate a .next ++ [.nthBack n]) v.iter =
      some ((List.range a).map (refTo (alignedP c A) v) ++
        [if a + n < xs.length then refTo (alignedP c A) v (xs.length - 1 - n) else none], it) := by
  obtain ⟨it, h1, _⟩ := C10_calls_aligned_partial hA h _ (okRun_nthBack hg)
  refine ⟨it, ?_⟩
  rw [h1, specRun_nthBack, List.map_append, List.map_map, List.map_singleton]
  congr 3
  · congr 1
    funext i
    exact bind_refTo _ _ h.len_eq i
  · split <;> rfl

/-! ## C11 -/

theorem filterMap_ne {l : List (Option Nat)} (h : (l.filterMap id).Nodup) {p q : Nat} (hpq : p < q) {a b : Nat}
    (ha : l[p]? = some (some a)) (hb : l[q]? = some (some b)) : a ≠ b := by
  induction l generalizing p q with
  | nil => simp at ha
  | cons o l ih =>
    obtain ⟨q, rfl⟩ : ∃ m, q = m + 1 := ⟨q - 1, by omega⟩
    rw [List.getElem?_cons_succ] at hb
    cases p with
    | zero =>
      simp only [List.getElem?_cons_zero, Option.some.injEq] at ha
      subst ha
      simp only [List.filterMap_cons, id, List.nodup_cons, List.mem_filterMap] at h
      rintro rfl
      exact h.1 ⟨some a, List.mem_of_getElem? hb, rfl⟩
    | succ p =>
      rw [List.getElem?_cons_succ] at ha
      refine ih ?_ (by omega) ha hb
      cases o
      · exact h
      · simp only [List.filterMap_cons, id, List.nodup_cons] at h; exact h.2

/-- References that a queue of indices selects are disjoint when those for different indices are. -/
theorem outs_disjoint {R : Type} {refs : Nat → Option R} {D : R → R → Prop} {n : Nat} (hs : ∀ r s, D r s → D s r)
    (hd : ∀ i j r s, i < j → j < n → refs i = some r → refs j = some s → D r s) (ks : List ICall) {p q : Nat} (hpq : p ≠ q)
    {r s : R} (hr : ((specRun ks (List.range n)).1.map (·.bind refs))[p]? = some (some r))
    (hs' : ((specRun ks (List.range n)).1.map (·.bind refs))[q]? = some (some s)) : D r s := by
  obtain ⟨h1, h2⟩ := specRun_nodup ks (List.nodup_range (n := n))
  have h1 := (List.nodup_append.1 h1).1
  have get : ∀ {p : Nat} {r : R}, ((specRun ks (List.range n)).1.map (·.bind refs))[p]? = some (some r) →
      ∃ a, (specRun ks (List.range n)).1[p]? = some (some a) ∧ a < n ∧ refs a = some r := by
    intro p r hr
    rw [List.getElem?_map] at hr
    cases ho : (specRun ks (List.range n)).1[p]? with
    | none => rw [ho] at hr; cases hr
    | some o =>
      rw [ho] at hr
      cases o with
      | none => cases hr
      | some a =>
        refine ⟨a, rfl, ?_, Option.some.inj hr⟩
        refine List.mem_range.1 (h2 a (List.mem_append_left _ ?_))
        exact List.mem_filterMap.2 ⟨some a, List.mem_of_getElem? ho, rfl⟩
  obtain ⟨a, ha, ha1, ha2⟩ := get hr
  obtain ⟨b, hb, hb1, hb2⟩ := get hs'
  have hab : a ≠ b := by
    rcases Nat.lt_or_gt_of_ne hpq with h | h
    · exact filterMap_ne h1 h ha hb
    · exact (filterMap_ne h1 h hb ha).symm
  rcases Nat.lt_or_gt_of_ne hab with h | h
  · exact hd a b r s h hb1 ha2 hb2
  · exact hs _ _ (hd b a s r h ha1 hb2 ha2)

theorem Ref.Disjoint.symm {r s : Ref T} (h : r.Disjoint s) : s.Disjoint r := Or.symm h

/-- C11, dynamically aligned elements: the references returned by a sequence of calls that satisfies the guard are pairwise
disjoint. -/
theorem C11_disjoint_unaligned_partial {G : Prop} {v : UVec T β} {xs : List (Val T β)} (h : v.Represents G c xs) (ks : List ICall)
    (hk : OkRun ks false (List.range xs.length)) :
    ∃ outs it, runCalls (ICall.unaligned c v.heap) ks v.iter = some (outs, it) ∧
      ∀ (p q : Nat) r s, p ≠ q → outs[p]? = some (some r) → outs[q]? = some (some s) → Ref.Disjoint r s := by
  obtain ⟨it, h1, _⟩ := C10_calls_unaligned_partial h ks hk
  refine ⟨_, it, h1, fun p q r s hpq hr hs => ?_⟩
  refine outs_disjoint (fun _ _ h => h.symm) ?_ ks hpq hr hs
  intro i j r s hij hj hr hs
  obtain ⟨r', s', h3, h4, h5⟩ := C07_disjoint_unaligned h hij hj
  unfold refTo at hr hs
  rw [h3] at hr
  rw [h4] at hs
  cases hr; cases hs
  exact .inl h5

/-- C11, statically aligned elements. -/
theorem C11_disjoint_aligned_partial (hA : A.Fits c) {v : AVec A β} {xs : List (Val A.ty β)} (h : v.Holds c xs)
    (ks : List ICall) (hk : OkRun ks false (List.range xs.length)) :
    ∃ outs it, runCalls (ICall.aligned c v.heap) ks v.iter = some (outs, it) ∧
      ∀ (p q : Nat) r s, p ≠ q → outs[p]? = some (some r) → outs[q]? = some (some s) → Ref.Disjoint r s := by
  obtain ⟨it, h1, _⟩ := C10_calls_aligned_partial hA h ks hk
  refine ⟨_, it, h1, fun p q r s hpq hr hs => ?_⟩
  refine outs_disjoint (fun _ _ h => h.symm) ?_ ks hpq hr hs
  intro i j r s hij hj hr hs
  obtain ⟨r', s', h3, h4, h5⟩ := C07_disjoint_aligned hA h hij hj
  unfold refTo at hr hs
  rw [h3] at hr
  rw [h4] at hs
  cases hr; cases hs
  exact .inl h5

/-- C11 in full for a plain loop: the references returned by calls of `next` alone are pairwise disjoint. -/
theorem C11_loop_unaligned {G : Prop} {v : UVec T β} {xs : List (Val T β)} (h : v.Represents G c xs) (k : Nat) :
    ∃ outs it, runCalls (ICall.unaligned c v.heap) (List.replicate k .next) v.iter = some (outs, it) ∧
      ∀ (p q : Nat) r s, p ≠ q → outs[p]? = some (some r) → outs[q]? = some (some s) → Ref.Disjoint r s :=
  C11_disjoint_unaligned_partial h _ (okRun_next k false _)

/-- C11 in full for a plain loop, statically aligned elements. -/
theorem C11_loop_aligned (hA : A.Fits c) {v : AVec A β} {xs : List (Val A.ty β)} (h : v.Holds c xs) (k : Nat) :
    ∃ outs it, runCalls (ICall.aligned c v.heap) (List.replicate k .next) v.iter = some (outs, it) ∧
      ∀ (p q : Nat) r s, p ≠ q → outs[p]? = some (some r) → outs[q]? = some (some s) → Ref.Disjoint r s :=
  C11_disjoint_aligned_partial hA h _ (okRun_next k false _)

/-! ## Examples and counterexamples -/

section
open Sample

instance : DecidableEq (Ref Dyn) := fun a b =>
  if h : a.base = b.base ∧ a.off = b.off ∧ a.md = b.md then isTrue (by cases a; cases b; simp_all)
  else isFalse (by rintro rfl; exact h ⟨rfl, rfl, rfl⟩)

/-- Calls that satisfy the guard. -/
example : OkRun [.next, .nextBack, .next] false (List.range listA.length) := by
  refine ⟨trivial, .inr (by decide), trivial, trivial⟩

example : OkRun [.nth 1, .nextBack, .nextBack] false (List.range 5) := by
  refine ⟨.inl rfl, .inr (by decide), .inr (by decide), trivial⟩

/-- What they return on `vecA`: elements 0, 2, 1. -/
example : (runCalls (ICall.aligned c64 vecA.heap) [.next, .nextBack, .next] vecA.iter).map
    (fun p => p.1.map (Option.map (fun r => (r.off, (r.read vecA.heap).bytes)))) =
    some [some (0, [1]), some (3, [4, 5, 6]), some (1, [2, 3])] := rfl

/-- C09 fails for `nth(0)` once the front has moved: instead of element 1 (the bytes `[2, 3]` at offset 1) the code returns a
three-byte reference at offset 0. -/
theorem C09_counterexample_aligned :
    (runCalls (ICall.aligned c64 vecA.heap) [.next, .nth 0] vecA.iter).map
      (fun p => p.1.map (Option.map (fun r => (r.off, (r.read vecA.heap).bytes)))) =
        some [some (0, [1]), some (0, [1, 2, 3])] ∧
    (refTo (alignedP c64 Bytes) vecA 1).map (fun r => (r.off, (r.read vecA.heap).bytes)) = some (1, [2, 3]) ∧
    vecA.Holds c64 listA := ⟨rfl, rfl, vecA_holds _ (.inl rfl)⟩

/-- The same for dynamically aligned elements. -/
theorem C09_counterexample_unaligned :
    (runCalls (ICall.unaligned c64 vecU.heap) [.next, .nth 0] vecU.iter).map Prod.fst =
        some [some ⟨65536, 0, (3, 1)⟩, some ⟨65536, 0, (8, 8)⟩] ∧
    refTo (unalignedP c64 Dyn) vecU 1 = some ⟨65536, 8, (8, 8)⟩ ∧ vecU.Holds c64 listU :=
  ⟨by decide, by decide, vecU_holds _ (.inl rfl)⟩

/-- C09 fails for `last` when one element is left after the front has moved. -/
theorem C09_counterexample_last :
    ((runCalls (ICall.unaligned c64 vecU.heap) [.next] vecU.iter).bind (fun p => p.2.last c64 vecU.heap)) =
        some (some ⟨65536, 0, (8, 8)⟩) ∧
    refTo (unalignedP c64 Dyn) vecU 1 = some ⟨65536, 8, (8, 8)⟩ ∧ vecU.Holds c64 listU :=
  ⟨by decide, by decide, vecU_holds _ (.inl rfl)⟩

/-- C10 and C11 fail for `next` followed by `next_back` on a vector of two elements: the second reference is not that of
element 1, and it overlaps the first. -/
theorem C10_C11_counterexample_unaligned :
    (runCalls (ICall.unaligned c64 vecU.heap) [.next, .nextBack] vecU.iter).map Prod.fst =
        some [some ⟨65536, 0, (3, 1)⟩, some ⟨65536, 0, (8, 8)⟩] ∧
    refTo (unalignedP c64 Dyn) vecU 1 = some ⟨65536, 8, (8, 8)⟩ ∧
    ¬ (⟨65536, 0, (3, 1)⟩ : Ref Dyn).Disjoint ⟨65536, 0, (8, 8)⟩ ∧ vecU.Holds c64 listU :=
  ⟨by decide, by decide, by unfold Ref.Disjoint; decide, vecU_holds _ (.inl rfl)⟩

/-- The same for statically aligned elements, with `next`, `next`, `next_back` on three elements: the last reference covers
all of them. -/
theorem C10_C11_counterexample_aligned :
    (runCalls (ICall.aligned c64 vecA.heap) [.next, .next, .nextBack] vecA.iter).map
      (fun p => p.1.map (Option.map (fun r => (r.off, (r.read vecA.heap).bytes)))) =
        some [some (0, [1]), some (1, [2, 3]), some (0, [1, 2, 3, 4, 5, 6])] ∧
    (refTo (alignedP c64 Bytes) vecA 2).map (fun r => (r.off, (r.read vecA.heap).bytes)) = some (3, [4, 5, 6]) ∧
    vecA.Holds c64 listA := ⟨rfl, rfl, vecA_holds _ (.inl rfl)⟩

/-- `nth_back` within the guard. -/
example : OkRun [.next, .nthBack 1] false (List.range 4) := ⟨trivial, .inr (.inl (by decide)), trivial⟩

example : (runCalls (ICall.aligned c64 vecA.heap) [.nthBack 1, .nthBack 0, .nthBack 0] vecA.iter).map
    (fun p => p.1.map (Option.map (fun r => (r.off, (r.read vecA.heap).bytes)))) =
    some [some (1, [2, 3]), some (0, [1]), none] := rfl

/-- C48 fails when `nth_back` gets to the sole element left after the front has moved: `next`, `nth_back(1)` on three elements
returns a reference to the bytes of elements 0 and 1, which overlaps the first reference. -/
theorem C48_counterexample_aligned :
    (runCalls (ICall.aligned c64 vecA.heap) [.next, .nthBack 1] vecA.iter).map
      (fun p => p.1.map (Option.map (fun r => (r.off, (r.read vecA.heap).bytes)))) =
        some [some (0, [1]), some (0, [1, 2, 3])] ∧
    (refTo (alignedP c64 Bytes) vecA 1).map (fun r => (r.off, (r.read vecA.heap).bytes)) = some (1, [2, 3]) ∧
    vecA.Holds c64 listA := ⟨rfl, rfl, vecA_holds _ (.inl rfl)⟩

/-- The same for dynamically aligned elements, with `next`, `nth_back(0)` on two. -/
theorem C48_counterexample_unaligned :
    (runCalls (ICall.unaligned c64 vecU.heap) [.next, .nthBack 0] vecU.iter).map Prod.fst =
        some [some ⟨65536, 0, (3, 1)⟩, some ⟨65536, 0, (8, 8)⟩] ∧
    refTo (unalignedP c64 Dyn) vecU 1 = some ⟨65536, 8, (8, 8)⟩ ∧ vecU.Holds c64 listU :=
  ⟨by decide, by decide, vecU_holds _ (.inl rfl)⟩

end
end Verif
