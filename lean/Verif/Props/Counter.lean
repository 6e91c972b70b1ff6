import Verif.Model.Hints
import Verif.Spec.Counter
import Verif.Props.IterExact
import Verif.Props.Sized

/-!
# C72: iterators know how many elements are left, and stay at their end

After any sequence of `next`, `next_back`, `nth` and `nth_back` on `iter()` or `iter_mut()`, `size_hint`, `len` and `count`
return the number of elements left; so many of the following calls return an element, and once one has returned nothing none
does. This holds even for the calls that return a wrong reference (C09, C10).
-/

namespace Verif
open ICall

/-! ## The queue of indices as a counter -/

theorem ICall.spec_uses (k : ICall) (l : List Nat) :
    (k.spec l).1.isSome = decide (k.uses ≤ l.length) ∧ (k.spec l).2.length = l.length - k.uses := by
  cases k with
  | next => cases l <;> simp [spec, uses]
  | nextBack => cases l <;> simp [spec, uses]
  | nth n =>
    refine ⟨?_, by simp [spec, uses]⟩
    simp only [spec, uses, List.head?_drop]
    by_cases h : n < l.length
    · simp [h, Nat.succ_le_of_lt h]
    · have h' : ¬ n + 1 ≤ l.length := h
      simp [h, h']
  | nthBack n =>
    refine ⟨?_, by simp [spec, uses]⟩
    simp only [spec, uses]
    by_cases h : n < l.length
    · have : l.take (l.length - n) ≠ [] := by
        intro h'
        have := congrArg List.length h'
        simp at this
        omega
      rw [List.getLast?_eq_some_getLast this]
      simp [Nat.succ_le_of_lt h]
    · have : l.length - n = 0 := by omega
      have h' : ¬ n + 1 ≤ l.length := h
      simp [this, h']

theorem ICall.specRun_counts (ks : List ICall) (l : List Nat) :
    (specRun ks l).1.map Option.isSome = returns ks l.length ∧ (specRun ks l).2.length = left ks l.length := by
  induction ks generalizing l with
  | nil => exact ⟨rfl, by simp [specRun, left]⟩
  | cons k ks ih =>
    obtain ⟨h1, h2⟩ := k.spec_uses l
    obtain ⟨i1, i2⟩ := ih (k.spec l).2
    refine ⟨?_, ?_⟩
    · simp only [specRun, returns, List.map_cons, h1]
      rw [i1, h2]
    · simp only [specRun, left, List.map_cons, List.sum_cons]
      rw [i2, h2, left]
      omega

theorem ICall.specRun_bound (ks : List ICall) {n : Nat} {l : List Nat} (hl : ∀ i ∈ l, i < n) :
    ∀ o ∈ (specRun ks l).1, ∀ i, o = some i → i < n := by
  induction ks generalizing l with
  | nil => intro o ho; cases ho
  | cons k ks ih =>
    have hk : (∀ i, (k.spec l).1 = some i → i < n) ∧ ∀ i ∈ (k.spec l).2, i < n := by
      cases k with
      | next => exact ⟨fun i h => hl i (List.mem_of_mem_head? h), fun i h => hl i (List.mem_of_mem_tail h)⟩
      | nextBack => exact ⟨fun i h => hl i (List.mem_of_mem_getLast? h), fun i h => hl i (List.dropLast_subset _ h)⟩
      | nth m =>
        exact ⟨fun i h => hl i (List.mem_of_mem_drop (List.mem_of_mem_head? h)), fun i h => hl i (List.mem_of_mem_drop h)⟩
      | nthBack m =>
        exact ⟨fun i h => hl i (List.mem_of_mem_take (List.mem_of_mem_getLast? h)), fun i h => hl i (List.mem_of_mem_take h)⟩
    intro o ho i hi
    simp only [specRun, List.mem_cons] at ho
    rcases ho with rfl | ho
    · exact hk.1 i hi
    · exact ih hk.2 o ho i hi

theorem ICall.outputs_isSome {R : Type} {right wrong : Nat → Option R} {n : Nat} (hr : ∀ i, i < n → (right i).isSome)
    (hw : ∀ i, i < n → (wrong i).isSome) {is : List (Option Nat)} (hi : ∀ o ∈ is, ∀ i, o = some i → i < n)
    {fs : List Bool} (hf : fs.length = is.length) :
    (outputs right wrong is fs).map Option.isSome = is.map Option.isSome := by
  unfold outputs
  induction is generalizing fs with
  | nil => cases fs <;> rfl
  | cons o is ih =>
    cases fs with
    | nil => cases hf
    | cons f fs =>
      simp only [List.zipWith_cons_cons, List.map_cons]
      rw [ih (fun o ho => hi o (List.mem_cons_of_mem _ ho)) (by simpa using hf)]
      congr 1
      cases o with
      | none => rfl
      | some i =>
        have := hi _ List.mem_cons_self i rfl
        cases f
        · exact hr i this
        · exact hw i this

/-- In a sequence of counted calls, nothing is returned after nothing has been returned. -/
theorem ICall.returns_fused (ks : List ICall) (n : Nat) : (returns ks n).Pairwise (fun b b' => b = false → b' = false) := by
  have hzero : ∀ ks : List ICall, ∀ b ∈ returns ks 0, b = false := by
    intro ks
    induction ks with
    | nil => intro b hb; cases hb
    | cons k ks ih =>
      intro b hb
      simp only [returns, List.mem_cons, Nat.zero_sub] at hb
      rcases hb with rfl | hb
      · cases k <;> simp [uses]
      · exact ih b hb
  induction ks generalizing n with
  | nil => exact .nil
  | cons k ks ih =>
    refine .cons ?_ (ih _)
    intro b hb hk
    have : n - k.uses = 0 := by
      have : ¬ k.uses ≤ n := of_decide_eq_false hk
      omega
    rw [this] at hb
    exact hzero ks b hb

theorem ICall.fused_of_returns {R : Type} {os : List (Option R)} {ks : List ICall} {n : Nat}
    (h : os.map Option.isSome = returns ks n) : Fused os := by
  have := returns_fused ks n
  rw [← h, List.pairwise_map] at this
  refine this.imp fun {a b} hab ha => ?_
  have hb := hab (by rw [ha]; rfl)
  cases b with
  | none => rfl
  | some _ => cases hb

theorem ICall.returns_append (ks js : List ICall) (n : Nat) : returns (ks ++ js) n = returns ks n ++ returns js (left ks n) := by
  induction ks generalizing n with
  | nil => simp [returns, left]
  | cons k ks ih =>
    simp only [List.cons_append, returns, ih]
    congr 3
    simp only [left, List.map_cons, List.sum_cons]
    omega

/-- What the number left means: of `m` further calls of `next`, or of `next_back`, or both mixed, the first so many return an
element, and the others nothing. -/
theorem C72_rest (ks js : List ICall) (hj : ∀ k ∈ js, k = .next ∨ k = .nextBack) (n : Nat) :
    returns (ks ++ js) n = returns ks n ++ List.replicate (min js.length (left ks n)) true ++
      List.replicate (js.length - left ks n) false := by
  rw [returns_append, List.append_assoc]
  congr 1
  generalize left ks n = m
  induction js generalizing m with
  | nil => simp [returns]
  | cons k js ih =>
    have hk : k.uses = 1 := by rcases hj k List.mem_cons_self with rfl | rfl <;> rfl
    rw [returns, ih (fun k h => hj k (List.mem_cons_of_mem _ h)), hk]
    cases m with
    | zero => simp [List.replicate_succ]
    | succ m =>
      have h1 : min (js.length + 1) (m + 1) = min js.length m + 1 := by omega
      simp only [List.length_cons, h1, Nat.add_sub_cancel, List.replicate_succ, List.cons_append]
      congr 2
      · simp

example : returns ([.nth 1, .nextBack] ++ [.next, .nextBack, .next]) 5 = [true, true] ++ [true, true] ++ [false] ∧
    left [.nth 1, .nextBack] 5 = 2 := ⟨rfl, rfl⟩

/-! ## The iterators -/

section
variable {c : Cfg} {β : Type} [Inhabited β]

/-- Dynamically aligned elements: after any sequence of calls `size_hint` (twice), `len` and `count` return the number of
elements left, as many as a counter says, and each call has returned an element exactly if the counter says that one was
left. -/
theorem C72_counts_unaligned {T : UTy} {v : UVec T β} {xs : List (Val T β)} (h : v.Holds c xs) (ks : List ICall) :
    ∃ os it, runCalls (ICall.unaligned c v.heap) ks v.iter = some (os, it) ∧
      os.map Option.isSome = returns ks xs.length ∧ Fused os ∧
      it.sizeHint = (left ks xs.length, some (left ks xs.length)) ∧
      exactLen it.sizeHint = some (left ks xs.length) ∧ it.count = left ks xs.length := by
  obtain ⟨it, h1, h2⟩ := C10_allCalls_unaligned h ks
  obtain ⟨s1, s2⟩ := specRun_counts ks (List.range xs.length)
  rw [List.length_range] at s1 s2
  have hl : it.infos.length = left ks xs.length := h2.trans s2
  have hr : ∀ i, i < xs.length → (refTo (unalignedP c T) v i).isSome := fun i hi => by
    rw [← refTo_eq_unaligned h hi, UVec.get_at h hi]; rfl
  have ho := outputs_isSome (right := refTo (unalignedP c T) v) (wrong := v.wrongRef c) (n := xs.length) hr
    (fun i hi => by unfold UVec.wrongRef; rw [Option.isSome_map]; exact hr i hi)
    (specRun_bound ks fun i hi => List.mem_range.1 hi)
    (fs := faults ks false (List.range xs.length)) (by rw [faults_length, specRun_length])
  rw [s1] at ho
  refine ⟨_, it, h1, ho, fused_of_returns ho, ?_, ?_, hl⟩
  · unfold UIter.sizeHint; rw [hl]
  · unfold UIter.sizeHint exactLen; rw [hl]; exact if_pos rfl

/-- The same for statically aligned elements. -/
theorem C72_counts_aligned {A : ATy} (hA : A.Fits c) (hW : A.Within) {v : AVec A β} {xs : List (Val A.ty β)}
    (h : v.Holds c xs) (ks : List ICall) :
    ∃ os it, runCalls (ICall.aligned c v.heap) ks v.iter = some (os, it) ∧
      os.map Option.isSome = returns ks xs.length ∧ Fused os ∧
      it.sizeHint = (left ks xs.length, some (left ks xs.length)) ∧
      exactLen it.sizeHint = some (left ks xs.length) ∧ it.count = left ks xs.length := by
  obtain ⟨it, h1, h2⟩ := C10_allCalls_aligned hA hW h ks
  obtain ⟨s1, s2⟩ := specRun_counts ks (List.range xs.length)
  rw [List.length_range] at s1 s2
  have hl : it.infos.length = left ks xs.length := h2.trans s2
  have hr : ∀ i, i < xs.length → (refTo (alignedP c A) v i).isSome := fun i hi => by
    rw [← refTo_eq_aligned h hi, AVec.get_at hA h hi]; rfl
  have ho := outputs_isSome (right := refTo (alignedP c A) v) (wrong := v.wrongRef c) (n := xs.length) hr
    (fun i hi => by unfold AVec.wrongRef; rw [Option.isSome_map]; exact hr i hi)
    (specRun_bound ks fun i hi => List.mem_range.1 hi)
    (fs := faults ks false (List.range xs.length)) (by rw [faults_length, specRun_length])
  rw [s1] at ho
  refine ⟨_, it, h1, ho, fused_of_returns ho, ?_, ?_, hl⟩
  · unfold AIter.sizeHint; rw [hl]
  · unfold AIter.sizeHint exactLen; rw [hl]; exact if_pos rfl

/-- The same for sized elements. -/
theorem C72_counts_sized {sz al : Nat} {v : SVec sz al β} {xs : List (Val (sizedTy sz al) β)} (h : v.Holds c xs)
    (ks : List ICall) :
    ∃ os it, runCalls (ICall.sized sz al) ks v.iter = some (os, it) ∧
      os.map Option.isSome = returns ks xs.length ∧ Fused os ∧
      it.sizeHint = (left ks xs.length, some (left ks xs.length)) ∧
      exactLen it.sizeHint = some (left ks xs.length) ∧ it.count = left ks xs.length := by
  obtain ⟨it, h1, h2⟩ := C08_C09_C10_calls_sized h ks
  obtain ⟨s1, s2⟩ := specRun_counts ks (List.range xs.length)
  rw [List.length_range] at s1 s2
  have hl : it.hi - it.lo = left ks xs.length := h2.trans s2
  have ho : ((specRun ks (List.range xs.length)).1.map (·.bind (refTo (sizedP c sz al) v))).map Option.isSome =
      returns ks xs.length := by
    rw [← s1, List.map_map]
    refine List.map_congr_left fun o ho => ?_
    cases o with
    | none => rfl
    | some i =>
      have hi := specRun_bound ks (n := xs.length) (fun i hi => List.mem_range.1 hi) _ ho i rfl
      have hi' : i < v.len := by rw [h.len]; exact hi
      simp [refTo, Api.get, sizedP, hi']
  refine ⟨_, it, h1, ho, fused_of_returns ho, ?_, ?_, hl⟩
  · unfold SVec.Iter.sizeHint; rw [hl]
  · unfold SVec.Iter.sizeHint exactLen; rw [hl]; exact if_pos rfl

/-! ## Cases -/

open Sample

example := C72_counts_unaligned (vecU_holds c64 (.inl rfl)) [.next, .nth 0, .nextBack, .nth 3]
example := C72_counts_aligned (bytes_lawful c64 (.inl rfl)).fits (.slice 1 1) (vecA_holds c64 (.inl rfl)) [.nthBack 1, .next]

/-- Of three elements, one is left after `nth_back(1)`, none after `next`; then nothing is returned. -/
example : (runCalls (ICall.aligned c64 vecA.heap) [.nthBack 1, .next, .nextBack, .nth 0] vecA.iter).map
    (fun p => (p.1.map Option.isSome, p.2.sizeHint, p.2.count)) = some ([true, true, false, false], (0, some 0), 0) := rfl

example : (runCalls (ICall.unaligned c64 vecU.heap) [.next] vecU.iter).map
    (fun p => (p.1.map Option.isSome, p.2.sizeHint, exactLen p.2.sizeHint)) = some ([true], (1, some 1), some 1) := rfl

/-- An iterator that returns something again after it has returned nothing is not `Fused`. -/
example : ¬ Fused [some 1, none, some 2] := by unfold Fused; decide

end

end Verif
